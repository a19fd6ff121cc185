import Verif.Model.Exp
import Verif.Lemmas.Integral
import Verif.Lemmas.FErr

/-
One lane of XMVectorExp2, as a decision tree.
-/

set_option linter.all false

namespace DXM
open DXM.Spec DXM.IEEE
variable {P : Env}

/-- One lane of `XM_FMADD_PS!`. -/
def fm (c : Cfg) (a b d : F32 P) : F32 P := if c.fma then Lane.fma a b d else Lane.add (Lane.mul a b) d
/-- One lane of `XM_FNMADD_PS!`. -/
def fnm (c : Cfg) (a b d : F32 P) : F32 P := if c.fma then Lane.fnma a b d else Lane.sub d (Lane.mul a b)
theorem fmadd_lane (c : Cfg) (A B D : V4 (F32 P)) (i : Fin 4) : (SSE.fmadd c A B D).lane i = fm c (A.lane i) (B.lane i) (D.lane i) := by
  unfold SSE.fmadd fm; split_ifs <;> fin_cases i <;> rfl
theorem fnmadd_lane (c : Cfg) (A B D : V4 (F32 P)) (i : Fin 4) : (SSE.fnmadd c A B D).lane i = fnm c (A.lane i) (B.lane i) (D.lane i) := by
  unfold SSE.fnmadd fnm; split_ifs <;> fin_cases i <;> rfl

def lit (b : BitVec 32) : F32 P := F32.ofBV b
/-- The polynomial. -/
def polyL (c : Cfg) (y : F32 P) : F32 P :=
  fm c (fm c (fm c (fm c (fm c (fm c (fm c (lit 0xB7364261#32) y (lit 0x391AA7D7#32)) y (lit 0xBAAE1854#32)) y (lit 0x3C1D8C54#32)) y (lit 0xBD6357CA#32)) y (lit 0x3E75FDED#32)) y
    (lit 0xBF317218#32)) y (lit 0x3F800000#32)
/-- The integer part as a 32-bit integer. -/
def kL (x : F32 P) : BitVec 32 := cvtt x.bits
/-- The fraction. -/
def yL (x : F32 P) : F32 P := Lane.sub x (F32.ofBV (ofI32 (kL x)))
def r0L (c : Cfg) (x : F32 P) : F32 P := Lane.div (F32.ofBV (BitVec.shiftLeft (kL x + 127#32) 23)) (polyL c (yL x))
def r1L (c : Cfg) (x : F32 P) : F32 P := Lane.mul (lit 0x00800000#32) (Lane.div (F32.ofBV (BitVec.shiftLeft (kL x + 253#32) 23)) (polyL c (yL x)))
/-- One lane of XMVectorExp2 (SSE builds). -/
def exp2L (c : Cfg) (x : F32 P) : F32 P :=
  if isNaN x.bits then lit 0x7FC00000#32
  else if sg x.bits then
    if BitVec.slt x.bits 0xC3160000#32 then (if BitVec.slt (kL x) 0xFFFFFF82#32 then r1L c x else r0L c x) else lit 0#32
  else if BitVec.slt x.bits 0x43000000#32 then r0L c x else lit 0x7F800000#32

theorem sel1 (b : Bool) (A B : F32 P) : Lane.bor (Lane.band (Lane.mask b) A) (Lane.bandn (Lane.mask b) B) = if b then A else B := by
  cases b <;> simp [Lane.mask, LawfulLane.band_ones_left, LawfulLane.band_zero_left, LawfulLane.bandn_ones_left, LawfulLane.bandn_zero_left, LawfulLane.bor_zero_left, LawfulLane.bor_zero_right]
theorem sel2 (b : Bool) (A B : F32 P) : Lane.bor (Lane.bandn (Lane.mask b) B) (Lane.band (Lane.mask b) A) = if b then A else B := by
  cases b <;> simp [Lane.mask, LawfulLane.band_ones_left, LawfulLane.band_zero_left, LawfulLane.bandn_ones_left, LawfulLane.bandn_zero_left, LawfulLane.bor_zero_left, LawfulLane.bor_zero_right]
theorem bandn_masks (a b : Bool) : Lane.bandn (Lane.mask a : F32 P) (Lane.mask b) = Lane.mask (!a && b) := by
  cases a <;> cases b <;> simp [Lane.mask, LawfulLane.bandn_ones_left, LawfulLane.bandn_zero_left]

theorem and_exp (n : ℕ) : n &&& 0x7F800000 = (n / 2^23 % 256) * 2^23 := by
  rw [show (0x7F800000:ℕ) = (2^8 - 1) * 2^23 by norm_num, show (256:ℕ) = 2^8 by norm_num]
  refine Nat.eq_of_testBit_eq fun i => ?_
  simp only [Nat.testBit_and, Nat.testBit_mul_two_pow, Nat.testBit_two_pow_sub_one, Nat.testBit_mod_two_pow, Nat.testBit_div_two_pow]
  by_cases h : 23 ≤ i
  · rw [show i - 23 + 23 = i by omega]; simp [h, Bool.and_comm]
  · simp [h]
theorem frac_mask (a : BitVec 32) : (a &&& 0x007FFFFF#32 = 0#32) ↔ fracField a = 0 := by
  rw [← BitVec.toNat_inj, BitVec.toNat_and, show (0x007FFFFF#32 : BitVec 32).toNat = 2^23 - 1 by decide, Nat.and_two_pow_sub_one_eq_mod]; rfl
theorem exp_mask (a : BitVec 32) : (a &&& 0x7F800000#32 = 0x7F800000#32) ↔ expField a = 255 := by
  rw [← BitVec.toNat_inj, BitVec.toNat_and, show (0x7F800000#32 : BitVec 32).toNat = 0x7F800000 by decide, and_exp]
  unfold expField
  have := a.isLt
  norm_num; omega
theorem nan_mask (a : F32 P) : (!(Lane.ieq (Lane.band a (Lane.ofBits 0x007FFFFF#32)) (Lane.ofBits 0#32)) && Lane.ieq (Lane.band a (Lane.ofBits 0x7F800000#32)) (Lane.ofBits 0x7F800000#32)) = isNaN a.bits := by
  have h1 : Lane.ieq (Lane.band a (Lane.ofBits 0x007FFFFF#32)) (Lane.ofBits 0#32) = decide (fracField a.bits = 0) := by
    show decide ((a.bits &&& 0x007FFFFF#32) = 0#32) = _
    exact decide_eq_decide.2 (frac_mask _)
  have h2 : Lane.ieq (Lane.band a (Lane.ofBits 0x7F800000#32)) (Lane.ofBits 0x7F800000#32) = decide (expField a.bits = 255) := by
    show decide ((a.bits &&& 0x7F800000#32) = 0x7F800000#32) = _
    exact decide_eq_decide.2 (exp_mask _)
  rw [h1, h2, Bool.eq_iff_iff, isNaN_iff]
  unfold IsNaN
  simp; tauto
theorem sign_mask (a : F32 P) : Lane.ieq (Lane.band a (Lane.ofBits 0x80000000#32)) (Lane.ofBits 0x80000000#32) = sg a.bits := by
  show decide ((a.bits &&& 0x80000000#32) = 0x80000000#32) = _
  rw [and_sign]; cases sg a.bits <;> simp

theorem exp2_lane (c : Cfg) (hs : c.sse = true) (V : V4 (F32 P)) (i : Fin 4) : (XMVectorExp2 c V).lane i = exp2L c (V.lane i) := by
  have hl : ∀ (A B : V4 (F32 P)) (j : Fin 4), (SSE.or A B).lane j = Lane.bor (A.lane j) (B.lane j) := fun A B j => by fin_cases j <;> rfl
  have ha : ∀ (A B : V4 (F32 P)) (j : Fin 4), (SSE.and A B).lane j = Lane.band (A.lane j) (B.lane j) := fun A B j => by fin_cases j <;> rfl
  have hn : ∀ (A B : V4 (F32 P)) (j : Fin 4), (SSE.andnot A B).lane j = Lane.bandn (A.lane j) (B.lane j) := fun A B j => by fin_cases j <;> rfl
  have hq : ∀ (A B : V4 (F32 P)) (j : Fin 4), (SSE.cmpeq_epi32 A B).lane j = Lane.mask (Lane.ieq (A.lane j) (B.lane j)) := fun A B j => by fin_cases j <;> rfl
  have ht : ∀ (A B : V4 (F32 P)) (j : Fin 4), (SSE.cmplt_epi32 A B).lane j = Lane.mask (Lane.ilt (A.lane j) (B.lane j)) := fun A B j => by fin_cases j <;> rfl
  have hd : ∀ (A B : V4 (F32 P)) (j : Fin 4), (SSE.div A B).lane j = Lane.div (A.lane j) (B.lane j) := fun A B j => by fin_cases j <;> rfl
  have hm : ∀ (A B : V4 (F32 P)) (j : Fin 4), (SSE.mul A B).lane j = Lane.mul (A.lane j) (B.lane j) := fun A B j => by fin_cases j <;> rfl
  have hb : ∀ (A B : V4 (F32 P)) (j : Fin 4), (SSE.sub A B).lane j = Lane.sub (A.lane j) (B.lane j) := fun A B j => by fin_cases j <;> rfl
  have h1 : ∀ (A : V4 (F32 P)) (j : Fin 4), (SSE.cvttps_epi32 A).lane j = F32.ofBV (cvtt (A.lane j).bits) := fun A j => by fin_cases j <;> rfl
  have h2 : ∀ (A : V4 (F32 P)) (j : Fin 4), (SSE.cvtepi32_ps A).lane j = F32.ofBV (ofI32 (A.lane j).bits) := fun A j => by fin_cases j <;> rfl
  have h3 : ∀ (A B : V4 (F32 P)) (j : Fin 4), (SSE.add_epi32 A B).lane j = F32.ofBV ((A.lane j).bits + (B.lane j).bits) := fun A B j => by fin_cases j <;> rfl
  have h4 : ∀ (A : V4 (F32 P)) (n : ℕ) (j : Fin 4), (SSE.slli_epi32 A n).lane j = F32.ofBV (BitVec.shiftLeft (A.lane j).bits n) := fun A n j => by fin_cases j <;> rfl
  have g1 : (g_XMExpEst1 : V4 (F32 P)).lane i = lit 0xBF317218#32 := by fin_cases i <;> rfl
  have g2 : (g_XMExpEst2 : V4 (F32 P)).lane i = lit 0x3E75FDED#32 := by fin_cases i <;> rfl
  have g3 : (g_XMExpEst3 : V4 (F32 P)).lane i = lit 0xBD6357CA#32 := by fin_cases i <;> rfl
  have g4 : (g_XMExpEst4 : V4 (F32 P)).lane i = lit 0x3C1D8C54#32 := by fin_cases i <;> rfl
  have g5 : (g_XMExpEst5 : V4 (F32 P)).lane i = lit 0xBAAE1854#32 := by fin_cases i <;> rfl
  have g6 : (g_XMExpEst6 : V4 (F32 P)).lane i = lit 0x391AA7D7#32 := by fin_cases i <;> rfl
  have g7 : (g_XMExpEst7 : V4 (F32 P)).lane i = lit 0xB7364261#32 := by fin_cases i <;> rfl
  have g8 : (g_XMOne : V4 (F32 P)).lane i = lit 0x3F800000#32 := by fin_cases i <;> rfl
  have g9 : (g_XMExponentBias : V4 (F32 P)).lane i = lit 127#32 := by fin_cases i <;> rfl
  have g10 : (g_XM253 : V4 (F32 P)).lane i = lit 253#32 := by fin_cases i <;> rfl
  have g11 : (g_XMMinNormal : V4 (F32 P)).lane i = lit 0x00800000#32 := by fin_cases i <;> rfl
  have g12 : (g_XMBin128 : V4 (F32 P)).lane i = lit 0x43000000#32 := by fin_cases i <;> rfl
  have g13 : (g_XMInfinity : V4 (F32 P)).lane i = Lane.ofBits 0x7F800000#32 := by fin_cases i <;> rfl
  have g14 : (g_XMSubnormalExponent : V4 (F32 P)).lane i = lit 0xFFFFFF82#32 := by fin_cases i <;> rfl
  have g15 : (g_XMBinNeg150 : V4 (F32 P)).lane i = lit 0xC3160000#32 := by fin_cases i <;> rfl
  have g16 : (g_XMZero : V4 (F32 P)).lane i = Lane.ofBits 0#32 := by fin_cases i <;> rfl
  have g17 : (g_XMNegativeZero : V4 (F32 P)).lane i = Lane.ofBits 0x80000000#32 := by fin_cases i <;> rfl
  have g18 : (g_XMQNaNTest : V4 (F32 P)).lane i = Lane.ofBits 0x007FFFFF#32 := by fin_cases i <;> rfl
  have g19 : (g_XMQNaN : V4 (F32 P)).lane i = lit 0x7FC00000#32 := by fin_cases i <;> rfl
  unfold XMVectorExp2
  rw [if_pos hs]
  simp only [hl, ha, hn, hq, ht, hd, hm, hb, h1, h2, h3, h4, fmadd_lane, g1, g2, g3, g4, g5, g6, g7, g8, g9, g10, g11, g12, g13, g14, g15, g16, g17, g18, g19,
    sel1, sel2, bandn_masks, nan_mask, sign_mask]
  rfl

end DXM
