import Verif.Props.FloatExact
import Verif.Props.FloatInterp

/-
C129: curves on binary32 lanes pass through their control points exactly.
-/

set_option linter.all false

namespace DXM.Props
open DXM.FEx DXM.Spec DXM.FErr DXM.IEEE
variable {P : Env}

namespace Ends
theorem ex_lit {b : BitVec 32} (n : ℤ) (v : ℝ) (hf : IsFinite b) (hv : IEEE.ival b = n) (h : (n:ℝ) * 2^(-149:ℤ) = v) : Ex (Lane.ofBits b : F32 P) v := by
  have e : value b = v := by rw [value_eq, hv, h]
  exact ⟨hf, e⟩
theorem ex2 : Ex (Lane.ofBits 0x40000000#32 : F32 P) 2 := ex_lit (2^150) 2 (by decide) (by decide +kernel) (by norm_num)
theorem ex3 : Ex (Lane.ofBits 0x40400000#32 : F32 P) 3 := ex_lit (3*2^149) 3 (by decide) (by decide +kernel) (by norm_num)
theorem ex4 : Ex (Lane.ofBits 0x40800000#32 : F32 P) 4 := ex_lit (4*2^149) 4 (by decide) (by decide +kernel) (by norm_num)
theorem ex5 : Ex (Lane.ofBits 0x40A00000#32 : F32 P) 5 := ex_lit (5*2^149) 5 (by decide) (by decide +kernel) (by norm_num)
theorem exm2 : Ex (Lane.ofBits 0xC0000000#32 : F32 P) (-2) := ex_lit (-2^150) (-2) (by decide) (by decide +kernel) (by norm_num)
theorem exm3 : Ex (Lane.ofBits 0xC0400000#32 : F32 P) (-3) := ex_lit (-3*2^149) (-3) (by decide) (by decide +kernel) (by norm_num)
theorem exhalf : Ex (Lane.ofBits 0x3F000000#32 : F32 P) (1/2) := ex_lit (2^148) (1/2) (by decide) (by decide +kernel) (by norm_num)
theorem isF_lit {b : BitVec 32} (n : ℤ) (v : ℝ) (hf : IsFinite b) (hv : IEEE.ival b = n) (h : (n:ℝ) * 2^(-149:ℤ) = v) : IsF v := ⟨b, hf, by rw [value_eq, hv, h]⟩
theorem isF2 : IsF 2 := isF_lit (b := 0x40000000#32) (2^150) 2 (by decide) (by decide +kernel) (by norm_num)
theorem isF3 : IsF 3 := isF_lit (b := 0x40400000#32) (3*2^149) 3 (by decide) (by decide +kernel) (by norm_num)
theorem isF4 : IsF 4 := isF_lit (b := 0x40800000#32) (4*2^149) 4 (by decide) (by decide +kernel) (by norm_num)
theorem isF5 : IsF 5 := isF_lit (b := 0x40A00000#32) (5*2^149) 5 (by decide) (by decide +kernel) (by norm_num)
theorem isFh : IsF (1/2) := isF_lit (b := 0x3F000000#32) (2^148) (1/2) (by decide) (by decide +kernel) (by norm_num)
theorem isF_half1 {v : ℝ} (h : IsF v) : IsF (2 * v * (1/2)) := by rwa [show 2 * v * (1/2) = v by ring]
theorem isF_half2 {v : ℝ} (h : IsF v) : IsF (1/2 * (2 * v)) := by rwa [show 1/2 * (2 * v) = v by ring]
/-- Close a side condition: the number is a float. -/
macro "isfn" : tactic => `(tactic| (norm_num <;> with_reducible first | done | assumption | exact isF_zero | exact isF_one | exact isF2 | exact isF3 | exact isF4 | exact isF5 | exact isFh | exact isF_neg isF_one | exact isF_neg isF2 | exact isF_neg isF3 | exact isF_neg isF4 | exact isF_neg isF5 | (apply isF_half1; assumption) | (apply isF_half2; assumption) | (apply isF_neg; assumption)))
macro "exn" : tactic => `(tactic| (repeat' with_reducible first
  | assumption | exact ex_zero | exact ex_one | exact ex_negOne | exact ex_nz | exact ex2 | exact ex3 | exact ex4 | exact ex5 | exact exm2 | exact exm3 | exact exhalf
  | apply ex_fma | apply ex_fnma | apply ex_mul | apply ex_add | apply ex_sub | apply ex_neg) <;> (isfn))
macro "exw" : tactic => `(tactic| (apply Ex.eq; (focus exn); first | ring1 | (norm_num; done)))
macro "tolanes'" "[" f:Lean.Parser.Tactic.simpLemma,* "]" : tactic => `(tactic| (
  simp only [$f,*, SSE.fmadd, SSE.fnmadd, XMVectorMultiplyAdd, XMVectorMultiply, XMVectorSubtract, XMVectorReplicate, hermiteP0, hermiteT0, hermiteP1, hermiteT1, catmullLane,
    g_XMIdentityR0, g_XMOneHalf, Lane.c0, Lane.c1, Lane.cNeg1, Lane.c2, c3, c4, c5, cNeg2, cNeg3, Lane.cHalf]
  split_ifs <;>
  simp only [SSE.perm, SSE.add, SSE.sub, SSE.mul, V4.splat, V4.map2, V4.map3, V4.lane]))

/-- Twice a float below 2^126 is a float. -/
theorem isF_double {v : ℝ} (hv : IsF v) (h : |v| < 2^126) : IsF (2 * v) := by
  obtain ⟨y, hy, rfl⟩ := hv
  have ha : am y < 253 * 2^23 := by
    by_contra g
    have h1 : magN (252 * 2^23 + 2^23) ≤ mag y := by unfold mag; exact magN_strictMono.monotone (by omega)
    rw [magN_pow] at h1
    rw [value_abs] at h
    have h2 : ((2:ℝ)^(23 + 252)) ≤ mag y := by
      have : ((2^(23 + 252) : ℕ) : ℝ) ≤ mag y := Nat.cast_le.2 h1
      rwa [Nat.cast_pow, Nat.cast_ofNat] at this
    have h3 : (2:ℝ)^(23+252) * 2^(-149:ℤ) ≤ mag y * 2^(-149:ℤ) := mul_le_mul_of_nonneg_right h2 (by positivity)
    have h4 : (2:ℝ)^(23+252) * 2^(-149:ℤ) = 2^126 := by rw [← zpow_natCast, ← zpow_add₀ (by norm_num)]; norm_num
    linarith
  have hz : ∃ j, j ≤ 251 ∧ 2^j ∣ mag y ∧ mag y ≤ 2^(24 + j) := by
    unfold mag magN
    by_cases h2 : am y < 2^23
    · exact ⟨0, by omega, by simp, by rw [if_pos h2]; omega⟩
    · refine ⟨am y / 2^23 - 1, by omega, by rw [if_neg h2]; exact Dvd.intro_left _ rfl, ?_⟩
      rw [if_neg h2, pow_add]; apply Nat.mul_le_mul_right; omega
  obtain ⟨j, hj, hd, hl⟩ := hz
  have := rep_of (ival y * 2^1) (j + 1) (by omega) (by
    rw [pow_add]; apply mul_dvd_mul_right
    unfold ival; split_ifs
    · rw [dvd_neg]; exact_mod_cast hd
    · exact_mod_cast hd) (by
    rw [Int.natAbs_mul, show ((2:ℤ)^1).natAbs = 2^1 by rw [Int.natAbs_pow]; rfl, ← add_assoc, pow_add _ _ 1]
    apply Nat.mul_le_mul_right
    unfold ival; split_ifs <;> simpa using hl)
  obtain ⟨r, hr, e⟩ := this
  refine ⟨r, hr, ?_⟩
  rw [e, value_eq]; push_cast; ring

section
variable {A B D F T : V4 (F32 P)} {t : F32 P}
theorem hermite0 (c : Cfg) (hA : Fins 4 A) (hB : Fins 4 B) (hD : Fins 4 D) (hF : Fins 4 F) (ht : Ex t 0) : SameNumV (XMVectorHermite c A B D F t) A := by
  obtain ⟨a1, a2, a3, a4⟩ := fins4 hA; obtain ⟨b1, b2, b3, b4⟩ := fins4 hB; obtain ⟨d1, d2, d3, d4⟩ := fins4 hD; obtain ⟨f1, f2, f3, f4⟩ := fins4 hF
  replace a1 := ex_leaf a1; replace a2 := ex_leaf a2; replace a3 := ex_leaf a3; replace a4 := ex_leaf a4
  replace b1 := ex_leaf b1; replace b2 := ex_leaf b2; replace b3 := ex_leaf b3; replace b4 := ex_leaf b4
  replace d1 := ex_leaf d1; replace d2 := ex_leaf d2; replace d3 := ex_leaf d3; replace d4 := ex_leaf d4
  replace f1 := ex_leaf f1; replace f2 := ex_leaf f2; replace f3 := ex_leaf f3; replace f4 := ex_leaf f4
  have x1 := a1.isF; have x2 := a2.isF; have x3 := a3.isF; have x4 := a4.isF
  refine lanesV ?_ ⟨a1, a2, a3, a4⟩
  tolanes' [XMVectorHermite]
  all_goals (refine ⟨?_, ?_, ?_, ?_⟩ <;> exw)
theorem hermite1 (c : Cfg) (hA : Fins 4 A) (hB : Fins 4 B) (hD : Fins 4 D) (hF : Fins 4 F) (ht : Ex t 1) : SameNumV (XMVectorHermite c A B D F t) D := by
  obtain ⟨a1, a2, a3, a4⟩ := fins4 hA; obtain ⟨b1, b2, b3, b4⟩ := fins4 hB; obtain ⟨d1, d2, d3, d4⟩ := fins4 hD; obtain ⟨f1, f2, f3, f4⟩ := fins4 hF
  replace a1 := ex_leaf a1; replace a2 := ex_leaf a2; replace a3 := ex_leaf a3; replace a4 := ex_leaf a4
  replace b1 := ex_leaf b1; replace b2 := ex_leaf b2; replace b3 := ex_leaf b3; replace b4 := ex_leaf b4
  replace d1 := ex_leaf d1; replace d2 := ex_leaf d2; replace d3 := ex_leaf d3; replace d4 := ex_leaf d4
  replace f1 := ex_leaf f1; replace f2 := ex_leaf f2; replace f3 := ex_leaf f3; replace f4 := ex_leaf f4
  have x1 := d1.isF; have x2 := d2.isF; have x3 := d3.isF; have x4 := d4.isF
  refine lanesV ?_ ⟨d1, d2, d3, d4⟩
  tolanes' [XMVectorHermite]
  all_goals (refine ⟨?_, ?_, ?_, ?_⟩ <;> exw)
theorem hermiteV0 (c : Cfg) (hA : Fins 4 A) (hB : Fins 4 B) (hD : Fins 4 D) (hF : Fins 4 F) (ht : Ex T.x 0 ∧ Ex T.y 0 ∧ Ex T.z 0 ∧ Ex T.w 0) : SameNumV (XMVectorHermiteV c A B D F T) A := by
  obtain ⟨a1, a2, a3, a4⟩ := fins4 hA; obtain ⟨b1, b2, b3, b4⟩ := fins4 hB; obtain ⟨d1, d2, d3, d4⟩ := fins4 hD; obtain ⟨f1, f2, f3, f4⟩ := fins4 hF
  replace a1 := ex_leaf a1; replace a2 := ex_leaf a2; replace a3 := ex_leaf a3; replace a4 := ex_leaf a4
  replace b1 := ex_leaf b1; replace b2 := ex_leaf b2; replace b3 := ex_leaf b3; replace b4 := ex_leaf b4
  replace d1 := ex_leaf d1; replace d2 := ex_leaf d2; replace d3 := ex_leaf d3; replace d4 := ex_leaf d4
  replace f1 := ex_leaf f1; replace f2 := ex_leaf f2; replace f3 := ex_leaf f3; replace f4 := ex_leaf f4
  obtain ⟨t1, t2, t3, t4⟩ := ht
  have x1 := a1.isF; have x2 := a2.isF; have x3 := a3.isF; have x4 := a4.isF
  refine lanesV ?_ ⟨a1, a2, a3, a4⟩
  tolanes' [XMVectorHermiteV, SSE.and, g_XMMaskY, V4.map2, LawfulLane.band_zero_right, LawfulLane.band_ones_right]
  all_goals (refine ⟨?_, ?_, ?_, ?_⟩ <;> exw)
theorem hermiteV1 (c : Cfg) (hA : Fins 4 A) (hB : Fins 4 B) (hD : Fins 4 D) (hF : Fins 4 F) (ht : Ex T.x 1 ∧ Ex T.y 1 ∧ Ex T.z 1 ∧ Ex T.w 1) : SameNumV (XMVectorHermiteV c A B D F T) D := by
  obtain ⟨a1, a2, a3, a4⟩ := fins4 hA; obtain ⟨b1, b2, b3, b4⟩ := fins4 hB; obtain ⟨d1, d2, d3, d4⟩ := fins4 hD; obtain ⟨f1, f2, f3, f4⟩ := fins4 hF
  replace a1 := ex_leaf a1; replace a2 := ex_leaf a2; replace a3 := ex_leaf a3; replace a4 := ex_leaf a4
  replace b1 := ex_leaf b1; replace b2 := ex_leaf b2; replace b3 := ex_leaf b3; replace b4 := ex_leaf b4
  replace d1 := ex_leaf d1; replace d2 := ex_leaf d2; replace d3 := ex_leaf d3; replace d4 := ex_leaf d4
  replace f1 := ex_leaf f1; replace f2 := ex_leaf f2; replace f3 := ex_leaf f3; replace f4 := ex_leaf f4
  obtain ⟨t1, t2, t3, t4⟩ := ht
  have x1 := d1.isF; have x2 := d2.isF; have x3 := d3.isF; have x4 := d4.isF
  refine lanesV ?_ ⟨d1, d2, d3, d4⟩
  tolanes' [XMVectorHermiteV, SSE.and, g_XMMaskY, V4.map2, LawfulLane.band_zero_right, LawfulLane.band_ones_right]
  all_goals (refine ⟨?_, ?_, ?_, ?_⟩ <;> exw)
theorem catmull0 (c : Cfg) (hA : Fins 4 A) (hB : Fins 4 B) (hD : Fins 4 D) (hF : Fins 4 F) (ht : Ex t 0) : SameNumV (XMVectorCatmullRom c A B D F t) B := by
  obtain ⟨a1, a2, a3, a4⟩ := fins4 hA; obtain ⟨b1, b2, b3, b4⟩ := fins4 hB; obtain ⟨d1, d2, d3, d4⟩ := fins4 hD; obtain ⟨f1, f2, f3, f4⟩ := fins4 hF
  replace a1 := ex_leaf a1; replace a2 := ex_leaf a2; replace a3 := ex_leaf a3; replace a4 := ex_leaf a4
  replace b1 := ex_leaf b1; replace b2 := ex_leaf b2; replace b3 := ex_leaf b3; replace b4 := ex_leaf b4
  replace d1 := ex_leaf d1; replace d2 := ex_leaf d2; replace d3 := ex_leaf d3; replace d4 := ex_leaf d4
  replace f1 := ex_leaf f1; replace f2 := ex_leaf f2; replace f3 := ex_leaf f3; replace f4 := ex_leaf f4
  have x1 := b1.isF; have x2 := b2.isF; have x3 := b3.isF; have x4 := b4.isF
  refine lanesV ?_ ⟨b1, b2, b3, b4⟩
  tolanes' [XMVectorCatmullRom]
  all_goals (refine ⟨?_, ?_, ?_, ?_⟩ <;> exw)
theorem catmull1 (c : Cfg) (hA : Fins 4 A) (hB : Fins 4 B) (hD : Fins 4 D) (hF : Fins 4 F) (ht : Ex t 1) : SameNumV (XMVectorCatmullRom c A B D F t) D := by
  obtain ⟨a1, a2, a3, a4⟩ := fins4 hA; obtain ⟨b1, b2, b3, b4⟩ := fins4 hB; obtain ⟨d1, d2, d3, d4⟩ := fins4 hD; obtain ⟨f1, f2, f3, f4⟩ := fins4 hF
  replace a1 := ex_leaf a1; replace a2 := ex_leaf a2; replace a3 := ex_leaf a3; replace a4 := ex_leaf a4
  replace b1 := ex_leaf b1; replace b2 := ex_leaf b2; replace b3 := ex_leaf b3; replace b4 := ex_leaf b4
  replace d1 := ex_leaf d1; replace d2 := ex_leaf d2; replace d3 := ex_leaf d3; replace d4 := ex_leaf d4
  replace f1 := ex_leaf f1; replace f2 := ex_leaf f2; replace f3 := ex_leaf f3; replace f4 := ex_leaf f4
  have x1 := d1.isF; have x2 := d2.isF; have x3 := d3.isF; have x4 := d4.isF
  refine lanesV ?_ ⟨d1, d2, d3, d4⟩
  tolanes' [XMVectorCatmullRom]
  all_goals (refine ⟨?_, ?_, ?_, ?_⟩ <;> exw)
theorem catmullV0 (c : Cfg) (hA : Fins 4 A) (hB : Fins 4 B) (hD : Fins 4 D) (hF : Fins 4 F) (ht : Ex T.x 0 ∧ Ex T.y 0 ∧ Ex T.z 0 ∧ Ex T.w 0) (hb : ∀ i, |vals B i| < 2^126) : SameNumV (XMVectorCatmullRomV c A B D F T) B := by
  obtain ⟨a1, a2, a3, a4⟩ := fins4 hA; obtain ⟨b1, b2, b3, b4⟩ := fins4 hB; obtain ⟨d1, d2, d3, d4⟩ := fins4 hD; obtain ⟨f1, f2, f3, f4⟩ := fins4 hF
  replace a1 := ex_leaf a1; replace a2 := ex_leaf a2; replace a3 := ex_leaf a3; replace a4 := ex_leaf a4
  replace b1 := ex_leaf b1; replace b2 := ex_leaf b2; replace b3 := ex_leaf b3; replace b4 := ex_leaf b4
  replace d1 := ex_leaf d1; replace d2 := ex_leaf d2; replace d3 := ex_leaf d3; replace d4 := ex_leaf d4
  replace f1 := ex_leaf f1; replace f2 := ex_leaf f2; replace f3 := ex_leaf f3; replace f4 := ex_leaf f4
  obtain ⟨t1, t2, t3, t4⟩ := ht
  have x1 := b1.isF; have x2 := b2.isF; have x3 := b3.isF; have x4 := b4.isF
  have y1 := isF_double x1 (hb 0); have y2 := isF_double x2 (hb 1); have y3 := isF_double x3 (hb 2); have y4 := isF_double x4 (hb 3)
  have z1 := y1; have z2 := y2; have z3 := y3; have z4 := y4
  rw [mul_comm] at z1 z2 z3 z4
  refine lanesV ?_ ⟨b1, b2, b3, b4⟩
  tolanes' [XMVectorCatmullRomV]
  all_goals (refine ⟨?_, ?_, ?_, ?_⟩ <;> exw)
theorem catmullV1 (c : Cfg) (hA : Fins 4 A) (hB : Fins 4 B) (hD : Fins 4 D) (hF : Fins 4 F) (ht : Ex T.x 1 ∧ Ex T.y 1 ∧ Ex T.z 1 ∧ Ex T.w 1) (hb : ∀ i, |vals D i| < 2^126) : SameNumV (XMVectorCatmullRomV c A B D F T) D := by
  obtain ⟨a1, a2, a3, a4⟩ := fins4 hA; obtain ⟨b1, b2, b3, b4⟩ := fins4 hB; obtain ⟨d1, d2, d3, d4⟩ := fins4 hD; obtain ⟨f1, f2, f3, f4⟩ := fins4 hF
  replace a1 := ex_leaf a1; replace a2 := ex_leaf a2; replace a3 := ex_leaf a3; replace a4 := ex_leaf a4
  replace b1 := ex_leaf b1; replace b2 := ex_leaf b2; replace b3 := ex_leaf b3; replace b4 := ex_leaf b4
  replace d1 := ex_leaf d1; replace d2 := ex_leaf d2; replace d3 := ex_leaf d3; replace d4 := ex_leaf d4
  replace f1 := ex_leaf f1; replace f2 := ex_leaf f2; replace f3 := ex_leaf f3; replace f4 := ex_leaf f4
  obtain ⟨t1, t2, t3, t4⟩ := ht
  have x1 := d1.isF; have x2 := d2.isF; have x3 := d3.isF; have x4 := d4.isF
  have y1 := isF_double x1 (hb 0); have y2 := isF_double x2 (hb 1); have y3 := isF_double x3 (hb 2); have y4 := isF_double x4 (hb 3)
  have z1 := y1; have z2 := y2; have z3 := y3; have z4 := y4
  rw [mul_comm] at z1 z2 z3 z4
  refine lanesV ?_ ⟨d1, d2, d3, d4⟩
  tolanes' [XMVectorCatmullRomV]
  all_goals (refine ⟨?_, ?_, ?_, ?_⟩ <;> exw)
end

theorem overflow_le : overflow ≤ 2^128 := by unfold overflow; norm_num
/-- A number too large for the format rounds to an infinity. -/
theorem ro_inf {a : F32 P} {v : ℝ} (h : Ro a v) (hv : overflow ≤ |v|) : IsInf a.bits := by
  rcases le_abs.1 hv with g | g
  · rw [h.top g]; decide
  · rw [h.bot (by linarith)]; decide
theorem fma_inf0 {a b d : F32 P} (ha : IsInf a.bits) (hb : Ex b 0) : IsNaN (Lane.fma a b d).bits := by
  show IsNaN (IEEE.fma P a.bits b.bits d.bits)
  have h0 := hb.zero_mag
  unfold IEEE.fma
  split_ifs with h
  · exact isNaN_qnan _ _ _ _ _
  · unfold fmaCore
    rw [(isInf_iff a.bits).2 ha, h0]; simp
    exact isNaN_qnan _ _ _ _ _
theorem inf_half : IEEE.mul P 0x7F800000#32 0x3F000000#32 = 0x7F800000#32 ∧ IEEE.mul P 0x3F000000#32 0x7F800000#32 = 0x7F800000#32 := by
  have h1 : IEEE.isNaN 0x7F800000#32 = false := by decide
  have h2 : IEEE.isNaN 0x3F000000#32 = false := by decide
  have h3 : IEEE.isInf 0x7F800000#32 = true := by decide
  have h4 : ¬ mag 0x7F800000#32 = 0 := by decide
  have h5 : ¬ mag 0x3F000000#32 = 0 := by decide
  unfold IEEE.mul
  simp only [h1, h2, h3, h4, h5, Bool.or_self, Bool.or_true, Bool.true_or, Bool.false_eq_true, if_false, if_true, decide_false]
  decide
/-- The product of a weight two rounds, what is added to it does not change it. -/
macro "rob" : tactic => `(tactic| (repeat with_reducible first
    | (apply Ro.eq; (focus (apply ro_fma <;> exn)); ring1)
    | (apply Ro.eq; (focus (apply ro_mul <;> exn)); ring1)
    | (apply Ro.fma0; rotate_left; (focus exn); (focus exn); (focus (norm_num; done)))
    | (apply Ro.zero_add; rotate_left; (focus exw))
    | (apply Ro.add0; rotate_left; (focus exw))))
end Ends
open Ends

/-- C129: a Hermite curve starts at its first point and ends at its second one, bit for bit up to the sign of a zero, whatever the finite tangents. -/
theorem C129_hermite (c : Cfg) (P0 T0 P1 T1 : V4 (F32 P)) (t : F32 P) (h0 : Fins 4 P0) (h1 : Fins 4 T0) (h2 : Fins 4 P1) (h3 : Fins 4 T1) (ht : IsFinite t.bits) :
    (value t.bits = 0 → SameNumV (XMVectorHermite c P0 T0 P1 T1 t) P0) ∧ (value t.bits = 1 → SameNumV (XMVectorHermite c P0 T0 P1 T1 t) P1) :=
  ⟨fun h => hermite0 c h0 h1 h2 h3 ⟨ht, h⟩, fun h => hermite1 c h0 h1 h2 h3 ⟨ht, h⟩⟩
/-- C129: the same with a parameter per weight. -/
theorem C129_hermiteV (c : Cfg) (P0 T0 P1 T1 T : V4 (F32 P)) (h0 : Fins 4 P0) (h1 : Fins 4 T0) (h2 : Fins 4 P1) (h3 : Fins 4 T1) (ht : Fins 4 T) :
    ((∀ i, vals T i = 0) → SameNumV (XMVectorHermiteV c P0 T0 P1 T1 T) P0) ∧ ((∀ i, vals T i = 1) → SameNumV (XMVectorHermiteV c P0 T0 P1 T1 T) P1) := by
  obtain ⟨t1, t2, t3, t4⟩ := fins4 ht
  exact ⟨fun h => hermiteV0 c h0 h1 h2 h3 ⟨⟨t1, h 0⟩, ⟨t2, h 1⟩, ⟨t3, h 2⟩, ⟨t4, h 3⟩⟩, fun h => hermiteV1 c h0 h1 h2 h3 ⟨⟨t1, h 0⟩, ⟨t2, h 1⟩, ⟨t3, h 2⟩, ⟨t4, h 3⟩⟩⟩
/-- C129: a Catmull-Rom curve starts at its second point and ends at its third one, whatever the finite outer points. -/
theorem C129_catmullRom (c : Cfg) (P0 P1 P2 P3 : V4 (F32 P)) (t : F32 P) (h0 : Fins 4 P0) (h1 : Fins 4 P1) (h2 : Fins 4 P2) (h3 : Fins 4 P3) (ht : IsFinite t.bits) :
    (value t.bits = 0 → SameNumV (XMVectorCatmullRom c P0 P1 P2 P3 t) P1) ∧ (value t.bits = 1 → SameNumV (XMVectorCatmullRom c P0 P1 P2 P3 t) P2) :=
  ⟨fun h => catmull0 c h0 h1 h2 h3 ⟨ht, h⟩, fun h => catmull1 c h0 h1 h2 h3 ⟨ht, h⟩⟩
/-- C129: the same with a parameter per lane, for coordinates below 2^126. -/
theorem C129_catmullRomV (c : Cfg) (P0 P1 P2 P3 T : V4 (F32 P)) (h0 : Fins 4 P0) (h1 : Fins 4 P1) (h2 : Fins 4 P2) (h3 : Fins 4 P3) (ht : Fins 4 T) :
    ((∀ i, vals T i = 0) → (∀ i, |vals P1 i| < 2^126) → SameNumV (XMVectorCatmullRomV c P0 P1 P2 P3 T) P1) ∧
    ((∀ i, vals T i = 1) → (∀ i, |vals P2 i| < 2^126) → SameNumV (XMVectorCatmullRomV c P0 P1 P2 P3 T) P2) := by
  obtain ⟨t1, t2, t3, t4⟩ := fins4 ht
  exact ⟨fun h => catmullV0 c h0 h1 h2 h3 ⟨⟨t1, h 0⟩, ⟨t2, h 1⟩, ⟨t3, h 2⟩, ⟨t4, h 3⟩⟩, fun h => catmullV1 c h0 h1 h2 h3 ⟨⟨t1, h 0⟩, ⟨t2, h 1⟩, ⟨t3, h 2⟩, ⟨t4, h 3⟩⟩⟩

/-- C129: linear interpolation between two finite numbers whose difference overflows is NaN at parameter zero, in every build. -/
theorem C129_lerp_overflow (c : Cfg) (A B : V4 (F32 P)) (t : F32 P) (i : Fin 4) (hA : IsFinite (A.lane i).bits) (hB : IsFinite (B.lane i).bits) (h : overflow ≤ |vals B i - vals A i|)
    (ht : IsFinite t.bits) (h0 : value t.bits = 0) : IsNaN ((XMVectorLerp c A B t).lane i).bits := by
  have r : Ro (Lane.sub (B.lane i) (A.lane i)) _ := ro_sub (ex_leaf hB) (ex_leaf hA)
  have q := ro_inf r h
  have e : Ex t 0 := ⟨ht, h0⟩
  rw [lerp_lane]
  generalize Lane.sub (B.lane i) (A.lane i) = d at q
  unfold fmL; split_ifs
  · exact fma_inf0 q e
  · exact Spec.Same.add_nan _ _ (Or.inl ((mul_special P d.bits t.bits).2.1 q ht h0))
/-- C129: interpolating between two equal finite points gives that point for every finite parameter. -/
theorem C129_lerp_constant (c : Cfg) (A : V4 (F32 P)) (t : F32 P) (i : Fin 4) (hA : IsFinite (A.lane i).bits) (ht : IsFinite t.bits) :
    SameNum ((XMVectorLerp c A A t).lane i) (A.lane i) := by
  have a := ex_leaf (a := A.lane i) hA
  have x := a.isF
  have t' := ex_leaf (a := t) ht
  rw [lerp_lane]
  refine Ex.sameNum ?_ a
  unfold fmL; split_ifs <;> exv

/-- C129: with both weights zero, barycentric interpolation gives the first point. -/
theorem C129_baryCentric (c : Cfg) (A B D : V4 (F32 P)) (f g : F32 P) (i : Fin 4) (hA : IsFinite (A.lane i).bits) (hB : IsFinite (B.lane i).bits) (hD : IsFinite (D.lane i).bits)
    (bA : |vals A i| ≤ 2^125) (bB : |vals B i| ≤ 2^125) (bD : |vals D i| ≤ 2^125) (hf : IsFinite f.bits) (hg : IsFinite g.bits) (f0 : value f.bits = 0) (g0 : value g.bits = 0) :
    SameNum ((XMVectorBaryCentric c A B D f g).lane i) (A.lane i) := by
  have z1 : |val f| ≤ 1 := by rw [show val f = 0 from f0]; norm_num
  have z2 : |val g| ≤ 1 := by rw [show val g = 0 from g0]; norm_num
  obtain ⟨d1, -, -⟩ := lerp_fin c (P := P) hA hB hf bA bB z1
  obtain ⟨d2, -, -⟩ := lerp_fin c (P := P) hA hD hg bA bD z2
  obtain ⟨u1, u2⟩ := fmL_zero c d1 hf hA f0
  obtain ⟨v1, v2⟩ := fmL_zero c d2 hg u1 g0
  rw [bary_lane]
  exact Ex.sameNum ⟨v1, v2⟩ ⟨hA, u2.symm⟩

/-- C129: the per-lane form doubles a point before it halves it, so a coordinate of at least 2^127 becomes infinite at parameter zero, in every build, although the curve starts there
and `XMVectorCatmullRom` returns it. -/
theorem C129_catmullRomV_overflow (c : Cfg) (P0 P1 P2 P3 T : V4 (F32 P)) (h0 : Fins 4 P0) (h1 : Fins 4 P1) (h2 : Fins 4 P2) (h3 : Fins 4 P3) (ht : Fins 4 T) (hT : ∀ i, vals T i = 0)
    (h : 2^127 ≤ vals P1 0) : (XMVectorCatmullRomV c P0 P1 P2 P3 T).x.bits = 0x7F800000#32 := by
  have a1 := ex_leaf (fins4 h0).1; have b1 := ex_leaf (fins4 h1).1; have d1 := ex_leaf (fins4 h2).1; have f1 := ex_leaf (fins4 h3).1
  have t1 : Ex T.x 0 := ⟨(fins4 ht).1, hT 0⟩
  have big : overflow ≤ 2 * val P1.x := by
    have : (2:ℝ)^127 ≤ val P1.x := h
    have := overflow_le; norm_num at this ⊢; linarith
  have k : ∀ x : F32 P, Ro x (2 * val P1.x) → (Lane.mul x (Lane.ofBits 0x3F000000#32)).bits = 0x7F800000#32 ∧ (Lane.mul (Lane.ofBits 0x3F000000#32) x).bits = 0x7F800000#32 := fun x hx => by
    have e := hx.top big
    exact ⟨(congrArg (fun b => IEEE.mul P b 0x3F000000#32) e).trans inf_half.1, (congrArg (fun b => IEEE.mul P 0x3F000000#32 b) e).trans inf_half.2⟩
  tolanes' [XMVectorCatmullRomV]
  · refine (k _ ?_).1; rob
  · refine (k _ ?_).1; rob
  · refine (k _ ?_).2; rob

/-! The hypotheses are met by points with small coordinates, and the overflow ones by ±2^127. -/
example : Fins 4 (exV : V4 (F32 P)) ∧ (∀ i, |vals (exV : V4 (F32 P)) i| < 2^126) ∧ Fins 4 (V4.splat (Lane.c0) : V4 (F32 P)) ∧ (∀ i, vals (V4.splat (Lane.c0) : V4 (F32 P)) i = 0) ∧
    Fins 4 (V4.splat (Lane.c1) : V4 (F32 P)) ∧ (∀ i, vals (V4.splat (Lane.c1) : V4 (F32 P)) i = 1) := by
  refine ⟨exV_fin 4, fun i => lt_of_le_of_lt (exV_le i) (by norm_num), fun i _ => ?_, fun i => ?_, fun i _ => ?_, fun i => ?_⟩
  · fin_cases i <;> exact ex_zero.1
  · fin_cases i <;> exact ex_zero.2
  · fin_cases i <;> exact ex_one.1
  · fin_cases i <;> exact ex_one.2
example : Fins 4 (V4.splat (Lane.ofBits 0x7F000000#32) : V4 (F32 P)) ∧ Fins 4 (V4.splat (Lane.ofBits 0xFF000000#32) : V4 (F32 P)) ∧
    2^127 ≤ vals (V4.splat (Lane.ofBits 0x7F000000#32) : V4 (F32 P)) 0 ∧
    ∀ i, overflow ≤ |vals (V4.splat (Lane.ofBits 0x7F000000#32) : V4 (F32 P)) i - vals (V4.splat (Lane.ofBits 0xFF000000#32) : V4 (F32 P)) i| := by
  have e1 : Ex (Lane.ofBits 0x7F000000#32 : F32 P) (2^127) := ex_lit (2^276) (2^127) (by decide) (by decide +kernel) (by
    rw [Int.cast_pow, Int.cast_ofNat, ← zpow_natCast, ← zpow_natCast, ← zpow_add₀ (by norm_num)]; norm_num)
  have e2 : Ex (Lane.ofBits 0xFF000000#32 : F32 P) (-2^127) := ex_lit (-2^276) (-2^127) (by decide) (by decide +kernel) (by
    rw [Int.cast_neg, Int.cast_pow, Int.cast_ofNat, neg_mul, ← zpow_natCast, ← zpow_natCast, ← zpow_add₀ (by norm_num)]; norm_num)
  have v1 : ∀ i, vals (V4.splat (Lane.ofBits 0x7F000000#32) : V4 (F32 P)) i = 2^127 := fun i => by fin_cases i <;> exact e1.2
  have v2 : ∀ i, vals (V4.splat (Lane.ofBits 0xFF000000#32) : V4 (F32 P)) i = -2^127 := fun i => by fin_cases i <;> exact e2.2
  refine ⟨fun i _ => by fin_cases i <;> exact e1.1, fun i _ => by fin_cases i <;> exact e2.1, (v1 0).ge, fun i => ?_⟩
  rw [v1, v2]
  refine overflow_le.trans ?_
  rw [abs_of_nonneg] <;> norm_num
end DXM.Props
