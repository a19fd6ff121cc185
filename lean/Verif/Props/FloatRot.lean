import Verif.Props.FloatTrig
import Verif.Props.FloatLen
import Verif.Props.Rotation
import Verif.Lemmas.RotForm

/-
C117: rotations on binary32 lanes (interpretation I).

The rounding part goes through the rules of `Lemmas/FErr.lean` with numeric magnitudes; the error of the sine and cosine is that of C110;
the exact part (what the entries would be) is that of C44, C45, C47, C59.
-/

set_option linter.all false

namespace DXM.Props
open DXM.Spec DXM.FErr DXM.IEEE Matrix
variable {P : Env}

/-- The 4x4 matrix `M` is finite and, as an affine map without translation, within `e` of the 3x3 matrix `R` in every entry; the last row and
column are exactly (0, 0, 0, 1). -/
def MClose (M : M4 (F32 P)) (R : Matrix (Fin 3) (Fin 3) ℝ) (e : ℝ) : Prop :=
  ∀ i j : Fin 4, FClose ((M.row i).lane j).bits (affine R 0 i j) (if i.val < 3 ∧ j.val < 3 then e else 0)

theorem MClose.mk {M : M4 (F32 P)} {R : Matrix (Fin 3) (Fin 3) ℝ} {e : ℝ}
    (h0 : FClose M.r0.x.bits (R 0 0) e ∧ FClose M.r0.y.bits (R 0 1) e ∧ FClose M.r0.z.bits (R 0 2) e)
    (h1 : FClose M.r1.x.bits (R 1 0) e ∧ FClose M.r1.y.bits (R 1 1) e ∧ FClose M.r1.z.bits (R 1 2) e)
    (h2 : FClose M.r2.x.bits (R 2 0) e ∧ FClose M.r2.y.bits (R 2 1) e ∧ FClose M.r2.z.bits (R 2 2) e)
    (hw : FClose M.r0.w.bits 0 0 ∧ FClose M.r1.w.bits 0 0 ∧ FClose M.r2.w.bits 0 0)
    (h3 : FClose M.r3.x.bits 0 0 ∧ FClose M.r3.y.bits 0 0 ∧ FClose M.r3.z.bits 0 0 ∧ FClose M.r3.w.bits 1 0) : MClose M R e := by
  obtain ⟨a1, a2, a3⟩ := h0; obtain ⟨b1, b2, b3⟩ := h1; obtain ⟨c1, c2, c3⟩ := h2; obtain ⟨w1, w2, w3⟩ := hw; obtain ⟨d1, d2, d3, d4⟩ := h3
  intro i j
  fin_cases i <;> fin_cases j <;> simp [affine] <;> assumption

theorem leafB {x : F32 P} {C : ℝ} (h : Fin' x) (hC : |val x| ≤ C) : Ap x (val x) C 0 := (leaf h).le rfl hC le_rfl
theorem oneB : Ap (Lane.ofBits 0x3F800000#32 : F32 P) 1 1 0 := by
  have := leafB (x := (Lane.ofBits 0x3F800000#32 : F32 P)) (C := 1) fin_one (by rw [val_one]; simp)
  rwa [val_one] at this
/-- Apply the rules with numeric magnitudes. -/
macro "apn" : tactic => `(tactic| ((repeat' with_reducible first
  | assumption | exact oneB | exact zeroAp | apply Ap.mul1 | apply Ap.mulN1 | apply Ap.fma1 | apply Ap.fmaN1 | apply Ap.add | apply Ap.sub | apply Ap.neg | apply Ap.mul | apply Ap.fma | apply Ap.fnma) <;> (norm_num [tiny])))
theorem Ap.fclose {x : F32 P} {v v' M e : ℝ} {k : ℕ} (h : Ap x v M k) (hk : k ≤ 2^20) (hM : M ≤ 2^127) (hv : v = v') (he : gam k * M ≤ e) : FClose x.bits v' e := by
  obtain ⟨a, b⟩ := (h hk).2.2 hM
  exact ⟨a, by rw [← hv]; exact b.trans he⟩
theorem zero_close : FClose (0#32) 0 0 := ⟨by decide, by rw [show value 0#32 = 0 by simp [value, expField, fracField]]; simp⟩
theorem one_close : FClose (0x3F800000#32) 1 0 := ⟨by decide, by rw [value_one]; simp⟩

/-- Masked lanes. -/
macro "unmask" : tactic => `(tactic| simp only [LawfulLane.band_ones_right, LawfulLane.band_zero_right, LawfulLane.bandn_ones_left, LawfulLane.bandn_zero_left, LawfulLane.bor_zero_left, LawfulLane.bor_zero_right])
/-- A lane in numeric magnitudes: value, magnitude and error. -/
macro "fcn" "[" f:Lean.Parser.Tactic.simpLemma,* "]" : tactic => `(tactic| refine Ap.fclose (by apn) (by norm_num) (by unfold tiny; norm_num) (by simp [$f,*, vals_0, vals_1, vals_2, vals_3]; try ring) (by unfold gam ulp2 tiny; norm_num))

theorem rotNormal_round (c : Cfg) (N : V4 (F32 P)) (hN : Fins 3 N) (hb : ∀ i : Fin 4, i.val < 3 → |vals N i| ≤ 101/100) (A s k : F32 P)
    (hsc : XMScalarSinCos A = (s, k)) (hs : Fin' s) (hk : Fin' k) (hs' : |val s| ≤ 11/10) (hk' : |val k| ≤ 11/10) :
    MClose (XMMatrixRotationNormal c N A) (rodM ![vals N 0, vals N 1, vals N 2] (val k) (val s)) (1/10^6) := by
  obtain ⟨n1, n2, n3⟩ := fins3 hN
  have b1 := leafB n1 (hb 0 (by decide)); have b2 := leafB n2 (hb 1 (by decide)); have b3 := leafB n3 (hb 2 (by decide))
  have c1 := leafB hs hs'; have c2 := leafB hk hk'
  by_cases hc : c.sse = true
  · rw [XMMatrixRotationNormal_sse c hc N A s k hsc]
    clear hsc; unmask
    exact MClose.mk ⟨by fcn [rodM], by fcn [rodM], by fcn [rodM]⟩ ⟨by fcn [rodM], by fcn [rodM], by fcn [rodM]⟩ ⟨by fcn [rodM], by fcn [rodM], by fcn [rodM]⟩
      ⟨zero_close, zero_close, zero_close⟩ ⟨zero_close, zero_close, zero_close, one_close⟩
  · rw [XMMatrixRotationNormal_noi c hc N A s k hsc]
    clear hsc; unmask
    exact MClose.mk ⟨by fcn [rodM], by fcn [rodM], by fcn [rodM]⟩ ⟨by fcn [rodM], by fcn [rodM], by fcn [rodM]⟩ ⟨by fcn [rodM], by fcn [rodM], by fcn [rodM]⟩
      ⟨zero_close, zero_close, zero_close⟩ ⟨zero_close, zero_close, zero_close, one_close⟩

theorem rotQuaternion_round (c : Cfg) (Q : V4 (F32 P)) (hQ : Fins 4 Q) (hb : ∀ i, |vals Q i| ≤ 101/100) :
    MClose (XMMatrixRotationQuaternion c Q) (rotM ⟨vals Q 3, vals Q 0, vals Q 1, vals Q 2⟩) (2/10^6) := by
  obtain ⟨n1, n2, n3, n4⟩ := fins4 hQ
  have b1 := leafB n1 (hb 0); have b2 := leafB n2 (hb 1); have b3 := leafB n3 (hb 2); have b4 := leafB n4 (hb 3)
  have hz : FClose (Lane.sub (Lane.sub (Lane.ofBits 0#32) (Lane.ofBits 0#32)) (Lane.ofBits 0#32) : F32 P).bits 0 0 := by
    refine Ap.fclose (by apn) (by norm_num) (by norm_num) (by norm_num) (by simp)
  by_cases hc : c.sse = true
  · rw [XMMatrixRotationQuaternion_sse c hc Q]
    unmask
    exact MClose.mk ⟨by fcn [rotM], by fcn [rotM], by fcn [rotM]⟩ ⟨by fcn [rotM], by fcn [rotM], by fcn [rotM]⟩ ⟨by fcn [rotM], by fcn [rotM], by fcn [rotM]⟩
      ⟨hz, hz, hz⟩ ⟨zero_close, zero_close, zero_close, one_close⟩
  · rw [XMMatrixRotationQuaternion_noi c hc Q]
    exact MClose.mk ⟨by fcn [rotM], by fcn [rotM], by fcn [rotM]⟩ ⟨by fcn [rotM], by fcn [rotM], by fcn [rotM]⟩ ⟨by fcn [rotM], by fcn [rotM], by fcn [rotM]⟩
      ⟨hz, hz, hz⟩ ⟨zero_close, zero_close, zero_close, one_close⟩

/-! ### the sine and cosine -/

/-- The error of the binary32 sine and cosine at `a` (C110). -/
noncomputable def rotErr (a : ℝ) : ℝ := 14/10^7 + 9/10^8 * |a|
theorem rotErr_pos (a : ℝ) : 0 < rotErr a := by unfold rotErr; positivity

/-- What is known of a computed sine and cosine. -/
structure SC (s k : F32 P) (a e : ℝ) : Prop where
  fs : Fin' s
  fk : Fin' k
  es : |val s - Real.sin a| ≤ e
  ek : |val k - Real.cos a| ≤ e
theorem SC.bs {s k : F32 P} {a e : ℝ} (h : SC s k a e) : |val s| ≤ 1 + e := by
  have := abs_add_le (val s - Real.sin a) (Real.sin a); rw [sub_add_cancel] at this; linarith [h.es, Real.abs_sin_le_one a]
theorem SC.bk {s k : F32 P} {a e : ℝ} (h : SC s k a e) : |val k| ≤ 1 + e := by
  have := abs_add_le (val k - Real.cos a) (Real.cos a); rw [sub_add_cancel] at this; linarith [h.ek, Real.abs_cos_le_one a]
theorem SC.le {s k : F32 P} {a e e' : ℝ} (h : SC s k a e) (he : e ≤ e') : SC s k a e' := ⟨h.fs, h.fk, h.es.trans he, h.ek.trans he⟩
theorem SC.move {s k : F32 P} {a b e d : ℝ} (h : SC s k a e) (hd : |a - b| ≤ d) : SC s k b (e + d) := by
  have h1 := Real.abs_sin_sub_sin_le a b
  have h2 := Real.abs_cos_sub_cos_le a b
  have h3 := abs_add_le (val s - Real.sin a) (Real.sin a - Real.sin b)
  have h4 := abs_add_le (val k - Real.cos a) (Real.cos a - Real.cos b)
  rw [sub_add_sub_cancel] at h3 h4
  exact ⟨h.fs, h.fk, by linarith [h.es], by linarith [h.ek]⟩
theorem sc_scalar (A : F32 P) (hA : Fin' A) (hb : |val A| ≤ 10^6) : SC (XMScalarSinCos A).1 (XMScalarSinCos A).2 (val A) (rotErr (val A)) := by
  obtain ⟨-, -, h3, h4⟩ := C110_scalar A hA hb
  exact ⟨h3.1, h4.1, h3.2.trans (by unfold rotErr; linarith), h4.2⟩
theorem sc_vector (c : Cfg) (hc : c.sse = true) (V : V4 (F32 P)) (i : Fin 4) (hA : Fin' (V.lane i)) (hb : |val (V.lane i)| ≤ 10^6) :
    SC ((XMVectorSinCos c V).1.lane i) ((XMVectorSinCos c V).2.lane i) (val (V.lane i)) (rotErr (val (V.lane i))) := by
  obtain ⟨-, -, h3, h4⟩ := C110_vector c hc V i hA hb
  exact ⟨h3.1, h4.1, h3.2.trans (by unfold rotErr; linarith), h4.2⟩
/-- The error of the sine and cosine of half the angle `a`, computed from the rounded half angle. -/
noncomputable def halfErr (a : ℝ) : ℝ := 15/10^7 + 8/10^8 * |a|
theorem halfErr_pos (a : ℝ) : 0 < halfErr a := by unfold halfErr; positivity
theorem half_mul {A h m : F32 P} (hA : Fin' A) (hb : |val A| ≤ 10^6) (hh : Fin' h) (hv : val h = 1/2) (hm : m = Lane.mul A h ∨ m = Lane.mul h A) :
    Fin' m ∧ |val m - val A / 2| ≤ 3/10^8 * |val A| + 1/10^30 ∧ |val m| ≤ 10^6 := by
  have h0 := abs_nonneg (val A)
  have ht : ulp2 * (|val A| / 2 + tiny) ≤ 3/10^8 * |val A| + 1/10^30 := by unfold ulp2 tiny; linarith
  have key : Fin' m ∧ |val m - val A / 2| ≤ ulp2 * (|val A| / 2 + tiny) := by
    rcases hm with rfl | rfl
    · obtain ⟨a, b, -⟩ := mul_abs (M := |val A| / 2) hA hh (by rw [hv, abs_mul, abs_of_pos (by norm_num : (0:ℝ) < 1/2)]; linarith) (by linarith)
      rw [hv] at b
      exact ⟨a, by convert b using 2; ring⟩
    · obtain ⟨a, b, -⟩ := mul_abs (M := |val A| / 2) hh hA (by rw [hv, abs_mul, abs_of_pos (by norm_num : (0:ℝ) < 1/2)]; linarith) (by linarith)
      rw [hv] at b
      exact ⟨a, by convert b using 2; ring⟩
  refine ⟨key.1, key.2.trans ht, ?_⟩
  have h1 := key.2.trans ht
  have h2 := abs_add_le (val m - val A / 2) (val A / 2)
  rw [sub_add_cancel, abs_div, abs_two] at h2
  linarith
theorem SC.half {A m s k : F32 P} (h : SC s k (val m) (rotErr (val m))) (hm : |val m - val A / 2| ≤ 3/10^8 * |val A| + 1/10^30) : SC s k (val A / 2) (halfErr (val A)) := by
  refine (h.move hm).le ?_
  have h2 := abs_add_le (val m - val A / 2) (val A / 2)
  rw [sub_add_cancel, abs_div, abs_two] at h2
  unfold rotErr halfErr
  linarith [abs_nonneg (val A)]

/-! ### C117 -/

theorem rodM_close' {n : Fin 3 → ℝ} (hn : ∀ i, |n i| ≤ 101/100) {k s l u e : ℝ} (h1 : |k - l| ≤ e) (h2 : |s - u| ≤ e) (i j : Fin 3) :
    |rodM n k s i j - rodM n l u i j| ≤ 21/10 * e := by
  have he : 0 ≤ e := (abs_nonneg _).trans h1
  have pr : ∀ i j, |n i * n j| ≤ 10201/10000 := fun i j => by
    rw [abs_mul]; have := mul_le_mul (hn i) (hn j) (abs_nonneg _) (by norm_num); linarith
  have off : ∀ p d : ℝ, |p| ≤ 10201/10000 → |d| ≤ 101/100 → |-(k - l) * p + (s - u) * d| ≤ 21/10 * e := by
    intro p d hp hd
    have a1 : |(-(k-l)) * p| ≤ e * (10201/10000) := by
      rw [abs_mul, abs_neg]; exact mul_le_mul h1 hp (abs_nonneg _) he
    have a2 : |(s - u) * d| ≤ e * (101/100) := by
      rw [abs_mul]; exact mul_le_mul h2 hd (abs_nonneg _) he
    have := abs_add_le (-(k - l) * p) ((s - u) * d)
    linarith
  have dia : ∀ i, |(k - l) * (1 - n i * n i)| ≤ 21/10 * e := by
    intro i
    have h := pr i i
    have h' : |1 - n i * n i| ≤ 1 := by
      rw [abs_le] at h ⊢
      constructor <;> nlinarith [mul_self_nonneg (n i), h.1, h.2]
    rw [abs_mul]
    have := mul_le_mul h1 h' (abs_nonneg _) he
    linarith
  have nd : ∀ i, |-n i| ≤ 101/100 := fun i => by rw [abs_neg]; exact hn i
  fin_cases i <;> fin_cases j <;> simp [rodM]
  · convert dia 0 using 2; ring
  · convert off _ _ (pr 0 1) (hn 2) using 2; ring
  · convert off _ _ (pr 0 2) (nd 1) using 2; ring
  · convert off _ _ (pr 0 1) (nd 2) using 2; ring
  · convert dia 1 using 2; ring
  · convert off _ _ (pr 1 2) (hn 0) using 2; ring
  · convert off _ _ (pr 0 2) (hn 1) using 2; ring
  · convert off _ _ (pr 1 2) (nd 0) using 2; ring
  · convert dia 2 using 2; ring
/-- Errors add up. -/
theorem MClose.trans {M : M4 (F32 P)} {R S : Matrix (Fin 3) (Fin 3) ℝ} {e d : ℝ} (h : MClose M R e) (hd : ∀ i j, |R i j - S i j| ≤ d) : MClose M S (e + d) := by
  have key : ∀ {x : BitVec 32} {a b : ℝ}, FClose x a e → |a - b| ≤ d → FClose x b (e + d) := by
    intro x a b h1 h2
    refine ⟨h1.1, ?_⟩
    have := abs_add_le (value x - a) (a - b)
    rw [sub_add_sub_cancel] at this
    linarith [h1.2]
  intro i j
  have h1 := h i j
  fin_cases i <;> fin_cases j <;> simp [affine] at h1 ⊢ <;> first | exact h1 | exact key h1 (hd _ _)
theorem MClose.le {M : M4 (F32 P)} {R : Matrix (Fin 3) (Fin 3) ℝ} {e d : ℝ} (h : MClose M R e) (hd : e ≤ d) : MClose M R d := by
  intro i j
  obtain ⟨h1, h2⟩ := h i j
  refine ⟨h1, ?_⟩
  split_ifs at h2 ⊢
  · exact h2.trans hd
  · exact h2

/-- The axis in the first three lanes. -/
noncomputable def axisOf (N : V4 (F32 P)) : Fin 3 → ℝ := ![vals N 0, vals N 1, vals N 2]
theorem axisOf_le {N : V4 (F32 P)} {C : ℝ} (hb : ∀ i : Fin 4, i.val < 3 → |vals N i| ≤ C) (i : Fin 3) : |axisOf N i| ≤ C := by
  fin_cases i
  · exact hb 0 (by decide)
  · exact hb 1 (by decide)
  · exact hb 2 (by decide)

/-- C117: `XMMatrixRotationNormal` on every finite axis with components up to 1.01 and every angle up to a million radians: Rodrigues' matrix of that axis. -/
theorem C117_rotationNormal (c : Cfg) (N : V4 (F32 P)) (hN : Fins 3 N) (hb : ∀ i : Fin 4, i.val < 3 → |vals N i| ≤ 101/100) (A : F32 P) (hA : IsFinite A.bits) (ha : |value A.bits| ≤ 10^6) :
    MClose (XMMatrixRotationNormal c N A) (axisRot (axisOf N) (value A.bits)) (1/10^6 + 21/10 * rotErr (value A.bits)) := by
  have h := sc_scalar A hA ha
  have he : rotErr (val A) ≤ 1/10 := by unfold rotErr; linarith
  have h1 := rotNormal_round c N hN hb A _ _ rfl h.fs h.fk (h.bs.trans (by linarith)) (h.bk.trans (by linarith))
  refine h1.trans fun i j => ?_
  rw [axisRot_eq]
  exact rodM_close' (axisOf_le hb) h.ek h.es i j

theorem ex_close {x : F32 P} {v M : ℝ} (h : Ap x v M 0) (hM : M ≤ 2^127) : FClose x.bits v 0 :=
  Ap.fclose h (by norm_num) hM rfl (by rw [gam_zero]; simp)
/-- Every entry of `M` is exactly that of `R`. -/
def MIs (M : M4 (F32 P)) (R : Matrix (Fin 4) (Fin 4) ℝ) : Prop := ∀ i j : Fin 4, IsFinite ((M.row i).lane j).bits ∧ value ((M.row i).lane j).bits = R i j
theorem is_of {x : BitVec 32} {v : ℝ} (h : FClose x v 0) : IsFinite x ∧ value x = v := ⟨h.1, by have := h.2; rw [abs_nonpos_iff] at this; linarith⟩
theorem is0 : IsFinite (Lane.ofBits 0#32 : F32 P).bits ∧ value (Lane.ofBits 0#32 : F32 P).bits = 0 := is_of zero_close
theorem is1 : IsFinite (Lane.ofBits 0x3F800000#32 : F32 P).bits ∧ value (Lane.ofBits 0x3F800000#32 : F32 P).bits = 1 := is_of one_close
theorem is01 : IsFinite (Lane.mul (Lane.ofBits 0#32) (Lane.ofBits 0x3F800000#32) : F32 P).bits ∧ value (Lane.mul (Lane.ofBits 0#32) (Lane.ofBits 0x3F800000#32) : F32 P).bits = 0 :=
  is_of (ex_close (Ap.mul1 zeroAp) (by norm_num))
/-- C117: the rotations about the coordinate axes hold the computed sine and cosine (negated exactly), and exact zeros and ones elsewhere. -/
theorem C117_xyz (c : Cfg) (A : F32 P) (hA : IsFinite A.bits) (ha : |value A.bits| ≤ 10^6) :
    ∃ s k : ℝ, |s - Real.sin (value A.bits)| ≤ rotErr (value A.bits) ∧ |k - Real.cos (value A.bits)| ≤ rotErr (value A.bits) ∧
      MIs (XMMatrixRotationX c A) !![1,0,0,0; 0,k,s,0; 0,-s,k,0; 0,0,0,1] ∧
      MIs (XMMatrixRotationY c A) !![k,0,-s,0; 0,1,0,0; s,0,k,0; 0,0,0,1] ∧
      MIs (XMMatrixRotationZ c A) !![k,s,0,0; -s,k,0,0; 0,0,1,0; 0,0,0,1] := by
  have h := sc_scalar A hA ha
  have he : rotErr (val A) ≤ 1/10 := by unfold rotErr; linarith
  obtain ⟨s, k, hsc⟩ : ∃ s k, XMScalarSinCos A = (s, k) := ⟨_, _, rfl⟩
  rw [hsc] at h
  have hs := leafB h.fs (h.bs.trans (by linarith : _ ≤ (2:ℝ))); have hk := leafB h.fk (h.bk.trans (by linarith : _ ≤ (2:ℝ)))
  have s1 := is_of (ex_close hs (by norm_num)); have k1 := is_of (ex_close hk (by norm_num))
  have k2 := is_of (ex_close (Ap.mul1 hk) (by norm_num)); have s2 := is_of (ex_close (Ap.mulN1 hs) (by norm_num)); have s3 := is_of (ex_close (Ap.neg hs) (by norm_num))
  have z := is0 (P := P); have o := is1 (P := P); have zo := is01 (P := P)
  refine ⟨val s, val k, h.es, h.ek, ?_⟩
  by_cases hc : c.sse = true
  · rw [XMMatrixRotationX_sse c hc A s k hsc, XMMatrixRotationY_sse c hc A s k hsc, XMMatrixRotationZ_sse c hc A s k hsc]
    refine ⟨?_, ?_, ?_⟩ <;> intro i j <;> fin_cases i <;> fin_cases j <;> assumption
  · rw [XMMatrixRotationX_noi c hc A s k hsc, XMMatrixRotationY_noi c hc A s k hsc, XMMatrixRotationZ_noi c hc A s k hsc]
    refine ⟨?_, ?_, ?_⟩ <;> intro i j <;> fin_cases i <;> fin_cases j <;> assumption

/-! The axis normalised first. -/

theorem rodM_axis {n u : Fin 3 → ℝ} {δ k s : ℝ} (hu : ∀ i, |u i| ≤ 1) (hd : ∀ i, |n i - u i| ≤ δ) (hδ : δ ≤ 1/100) (hk : |k| ≤ 1) (hs : |s| ≤ 1) (i j : Fin 3) :
    |rodM n k s i j - rodM u k s i j| ≤ 6 * δ := by
  have h0 : 0 ≤ δ := (abs_nonneg _).trans (hd 0)
  have pr : ∀ i j, |n i * n j - u i * u j| ≤ 201/100 * δ := fun i j => by
    have := prod_close (hu i) (hu j) (hd i) (hd j); nlinarith
  have k1 : |1 - k| ≤ 2 := by rw [abs_le] at *; constructor <;> linarith [hk.1, hk.2]
  have A1 : ∀ x : ℝ, |x| ≤ 201/100 * δ → |(1 - k) * x| ≤ 402/100 * δ := fun x hx => by
    rw [abs_mul]; have := mul_le_mul k1 hx (abs_nonneg _) (by norm_num); linarith
  have A2 : ∀ x : ℝ, |x| ≤ δ → |s * x| ≤ δ := fun x hx => by
    rw [abs_mul]; have := mul_le_mul hs hx (abs_nonneg _) (by norm_num); linarith
  have off : ∀ p d : ℝ, |p| ≤ 201/100 * δ → |d| ≤ δ → |(1 - k) * p + s * d| ≤ 6 * δ := fun p d hp hd => by
    have := abs_add_le ((1 - k) * p) (s * d); linarith [A1 p hp, A2 d hd]
  have dia : ∀ p : ℝ, |p| ≤ 201/100 * δ → |(1 - k) * p| ≤ 6 * δ := fun p hp => (A1 p hp).trans (by linarith)
  have nd : ∀ i, |-(n i - u i)| ≤ δ := fun i => by rw [abs_neg]; exact hd i
  fin_cases i <;> fin_cases j <;> simp [rodM]
  · convert dia _ (pr 0 0) using 2; ring
  · convert off _ _ (pr 0 1) (hd 2) using 2; ring
  · convert off _ _ (pr 0 2) (nd 1) using 2; ring
  · convert off _ _ (pr 0 1) (nd 2) using 2; ring
  · convert dia _ (pr 1 1) using 2; ring
  · convert off _ _ (pr 1 2) (hd 0) using 2; ring
  · convert off _ _ (pr 0 2) (hd 1) using 2; ring
  · convert off _ _ (pr 1 2) (nd 0) using 2; ring
  · convert dia _ (pr 2 2) using 2; ring
/-- The direction of a vector with three components. -/
noncomputable def dirOf (A : V4 (F32 P)) : Fin 3 → ℝ := (len (axisOf A))⁻¹ • axisOf A
theorem len_axisOf (A : V4 (F32 P)) : len (axisOf A) = Real.sqrt (sqs 3 A) := by
  unfold len axisOf; rw [dot3, sqs3]; simp [vals_0, vals_1, vals_2, sq]
theorem normalize_dir (c : Cfg) (A : V4 (F32 P)) (h : Fins 3 A) (hm : Mid (sqs 3 A)) :
    Fins 3 (XMVector3Normalize c A) ∧ (∀ i, |axisOf (XMVector3Normalize c A) i - dirOf A i| ≤ 8/10^7) ∧ (∀ i, |dirOf A i| ≤ 1) := by
  have hd : ∀ i : Fin 4, i.val < 3 → |vals A i / Real.sqrt (sqs 3 A)| ≤ 1 ∧ |vals A i| / Real.sqrt (sqs 3 A) ≤ 1 := by
    intro i hi
    have h1 := hm.comp hi
    have h2 : 0 < Real.sqrt (sqs 3 A) := Real.sqrt_pos.2 hm.pos
    have h3 : |vals A i| / Real.sqrt (sqs 3 A) ≤ 1 := (div_le_one h2).2 h1
    exact ⟨by rw [abs_div, abs_of_pos h2]; exact h3, h3⟩
  have key : ∀ i : Fin 4, i.val < 3 → FClose ((XMVector3Normalize c A).lane i).bits (vals A i / Real.sqrt (sqs 3 A)) (8/10^7) := by
    intro i hi
    have h1 := C95_normalize3 c A h hm i hi
    have h2 := (hd i hi).2
    obtain ⟨a, b⟩ := h1 (by have : tiny ≤ 1 := by unfold tiny; norm_num
                            linarith)
    refine ⟨a, b.trans ?_⟩
    have h3 : gam 13 * (|vals A i| / Real.sqrt (sqs 3 A) + tiny) ≤ gam 13 * (1 + tiny) := mul_le_mul_of_nonneg_left (by linarith) (gam_nonneg (by norm_num))
    refine h3.trans ?_
    unfold gam ulp2 tiny; norm_num
  refine ⟨fun i hi => (key i hi).1, fun i => ?_, fun i => ?_⟩
  · unfold dirOf; rw [len_axisOf]
    fin_cases i
    · convert (key 0 (by decide)).2 using 2; simp [axisOf, vals]; ring
    · convert (key 1 (by decide)).2 using 2; simp [axisOf, vals]; ring
    · convert (key 2 (by decide)).2 using 2; simp [axisOf, vals]; ring
  · unfold dirOf; rw [len_axisOf]
    fin_cases i
    · convert (hd 0 (by decide)).1 using 2; simp [axisOf, vals]; ring
    · convert (hd 1 (by decide)).1 using 2; simp [axisOf, vals]; ring
    · convert (hd 2 (by decide)).1 using 2; simp [axisOf, vals]; ring
theorem normalize_le (c : Cfg) (A : V4 (F32 P)) (h : Fins 3 A) (hm : Mid (sqs 3 A)) (i : Fin 4) (hi : i.val < 3) : |vals (XMVector3Normalize c A) i| ≤ 101/100 := by
  obtain ⟨-, h1, h2⟩ := normalize_dir c A h hm
  have key : ∀ i, |axisOf (XMVector3Normalize c A) i| ≤ 101/100 := fun i => by
    have := abs_add_le (axisOf (XMVector3Normalize c A) i - dirOf A i) (dirOf A i)
    rw [sub_add_cancel] at this
    linarith [h1 i, h2 i]
  match i, hi with
  | 0, _ => exact key 0
  | 1, _ => exact key 1
  | 2, _ => exact key 2
/-- C117: `XMMatrixRotationAxis` on every finite axis, of any length neither tiny nor huge, and every angle up to a million radians. -/
theorem C117_rotationAxis (c : Cfg) (N : V4 (F32 P)) (hN : Fins 3 N) (hm : Mid (sqs 3 N)) (A : F32 P) (hA : IsFinite A.bits) (ha : |value A.bits| ≤ 10^6) :
    MClose (XMMatrixRotationAxis c N A) (axisRot (dirOf N) (value A.bits)) (6/10^6 + 21/10 * rotErr (value A.bits)) := by
  obtain ⟨h1, h2, h3⟩ := normalize_dir c N hN hm
  have h := C117_rotationNormal c _ h1 (normalize_le c N hN hm) A hA ha
  refine (h.trans fun i j => ?_).le (by linarith : 1/10^6 + 21/10 * rotErr (value A.bits) + 6 * (8/10^7) ≤ _)
  rw [axisRot_eq, axisRot_eq]
  exact rodM_axis h3 h2 (by norm_num) (Real.abs_cos_le_one _) (Real.abs_sin_le_one _) i j

/-! ### quaternions -/

/-- The quaternion held in the four lanes (vector part first). -/
noncomputable def quatOf (Q : V4 (F32 P)) : Quaternion ℝ := ⟨vals Q 3, vals Q 0, vals Q 1, vals Q 2⟩
/-- The lanes are finite and within `e` of the components of `q`. -/
def QFClose (Q : V4 (F32 P)) (q : Quaternion ℝ) (e : ℝ) : Prop := Fins 4 Q ∧ QClose (quatOf Q) q e
theorem QFClose.mk {Q : V4 (F32 P)} {q : Quaternion ℝ} {e : ℝ} (h0 : FClose Q.x.bits q.imI e) (h1 : FClose Q.y.bits q.imJ e) (h2 : FClose Q.z.bits q.imK e) (h3 : FClose Q.w.bits q.re e) :
    QFClose Q q e := by
  refine ⟨fun i _ => ?_, h0.2, h1.2, h2.2, h3.2⟩
  fin_cases i
  · exact h0.1
  · exact h1.1
  · exact h2.1
  · exact h3.1
theorem QFClose.trans {Q : V4 (F32 P)} {q r : Quaternion ℝ} {e d : ℝ} (h : QFClose Q q e) (hd : QClose q r d) : QFClose Q r (e + d) := by
  have key : ∀ {a b c : ℝ}, |a - b| ≤ e → |b - c| ≤ d → |a - c| ≤ e + d := fun {a b c} h1 h2 => by
    have := abs_add_le (a - b) (b - c); rw [sub_add_sub_cancel] at this; linarith
  obtain ⟨h0, h1, h2, h3, h4⟩ := h; obtain ⟨d1, d2, d3, d4⟩ := hd
  exact ⟨h0, key h1 d1, key h2 d2, key h3 d3, key h4 d4⟩
theorem QFClose.le {Q : V4 (F32 P)} {q : Quaternion ℝ} {e d : ℝ} (h : QFClose Q q e) (hd : e ≤ d) : QFClose Q q d := by
  obtain ⟨h0, h1, h2, h3, h4⟩ := h
  exact ⟨h0, h1.trans hd, h2.trans hd, h3.trans hd, h4.trans hd⟩
theorem QFClose.bound {Q : V4 (F32 P)} {q : Quaternion ℝ} {e : ℝ} (h : QFClose Q q e) (hq : Quaternion.normSq q = 1) (i : Fin 4) : |vals Q i| ≤ 1 + e := by
  obtain ⟨u1, u2, u3, u4⟩ := unitQ_le hq
  obtain ⟨h0, h1, h2, h3, h4⟩ := h
  have key : ∀ {a b : ℝ}, |a - b| ≤ e → |b| ≤ 1 → |a| ≤ 1 + e := fun {a b} k1 k2 => by
    have := abs_add_le (a - b) b; rw [sub_add_cancel] at this; linarith
  fin_cases i
  · exact key h1 u1
  · exact key h2 u2
  · exact key h3 u3
  · exact key h4 u4

theorem mul_sc {a s : F32 P} {t e : ℝ} (ha : Fin' a) (hs : Fin' s) (hb : |val a| ≤ 101/100) (he : |val s - t| ≤ e) (hs' : |val s| ≤ 11/10) :
    FClose (Lane.mul a s).bits (t * val a) (102/100 * e + 1/10^7) := by
  have h1 := leafB ha hb; have h2 := leafB hs hs'
  have h3 : FClose (Lane.mul a s).bits (val a * val s) (1/10^7) := by fcn [vals_0]
  refine ⟨h3.1, ?_⟩
  have h4 : |val a * val s - t * val a| ≤ 101/100 * e := by
    rw [show val a * val s - t * val a = val a * (val s - t) by ring, abs_mul]
    exact mul_le_mul hb he (abs_nonneg _) (by norm_num)
  have := abs_add_le (val (Lane.mul a s) - val a * val s) (val a * val s - t * val a)
  rw [sub_add_sub_cancel] at this
  have h5 := h3.2
  change |val (Lane.mul a s) - val a * val s| ≤ _ at h5
  linarith [(abs_nonneg _).trans he]
theorem halfL : Fin' (Lane.cHalf : F32 P) ∧ val (Lane.cHalf : F32 P) = 1/2 := ⟨fin_half, val_half⟩
/-- C117: `XMQuaternionRotationNormal` in every build: the quaternion `cos(a/2) + sin(a/2) n`. -/
theorem C117_quaternionRotationNormal (c : Cfg) (N : V4 (F32 P)) (hN : Fins 3 N) (hb : ∀ i : Fin 4, i.val < 3 → |vals N i| ≤ 101/100) (A : F32 P) (hA : IsFinite A.bits) (ha : |value A.bits| ≤ 10^6) :
    QFClose (XMQuaternionRotationNormal c N A) (axisQ (axisOf N) (value A.bits)) (102/100 * halfErr (value A.bits) + 1/10^7) := by
  obtain ⟨n1, n2, n3⟩ := fins3 hN
  have he : halfErr (val A) ≤ 1/10 := by unfold halfErr; linarith
  obtain ⟨m1, m2, m3⟩ := half_mul hA ha halfL.1 halfL.2 (m := Lane.mul Lane.cHalf A) (Or.inr rfl)
  have one : |val (Lane.ofBits 0x3F800000#32 : F32 P)| ≤ 101/100 := by rw [val_one]; norm_num
  have w1 : val (Lane.ofBits 0x3F800000#32 : F32 P) = 1 := val_one
  by_cases hc : c.sse = true
  · have g : ∀ i : Fin 4, SC ((XMVectorSinCos c (.splat (Lane.mul Lane.cHalf A))).1.lane i) ((XMVectorSinCos c (.splat (Lane.mul Lane.cHalf A))).2.lane i) (val A / 2) (halfErr (val A)) := by
      intro i
      have e : ((.splat (Lane.mul Lane.cHalf A) : V4 (F32 P))).lane i = Lane.mul Lane.cHalf A := by fin_cases i <;> rfl
      have := sc_vector c hc (.splat (Lane.mul Lane.cHalf A)) i (by rw [e]; exact m1) (by rw [e]; exact m3)
      rw [e] at this
      exact this.half m2
    obtain ⟨S, K, hsc⟩ : ∃ S K, XMVectorSinCos c (.splat (Lane.mul Lane.cHalf A)) = (S, K) := ⟨_, _, rfl⟩
    rw [hsc] at g
    rw [XMQuaternionRotationNormal_sse c hc N A S K hsc]
    clear hsc
    refine QFClose.mk (mul_sc n1 (g 0).fs (hb 0 (by decide)) (g 0).es ((g 0).bs.trans (by linarith))) (mul_sc n2 (g 1).fs (hb 1 (by decide)) (g 1).es ((g 1).bs.trans (by linarith)))
      (mul_sc n3 (g 2).fs (hb 2 (by decide)) (g 2).es ((g 2).bs.trans (by linarith))) ?_
    have := mul_sc fin_one (g 3).fk one (g 3).ek ((g 3).bk.trans (by linarith))
    rw [w1, mul_one] at this
    exact this
  · have g := (sc_scalar _ m1 m3).half m2
    obtain ⟨s, k, hsc⟩ : ∃ s k, XMScalarSinCos (Lane.mul Lane.cHalf A) = (s, k) := ⟨_, _, rfl⟩
    rw [hsc] at g
    rw [XMQuaternionRotationNormal_noi c hc N A s k hsc]
    clear hsc
    refine QFClose.mk (mul_sc n1 g.fs (hb 0 (by decide)) g.es (g.bs.trans (by linarith))) (mul_sc n2 g.fs (hb 1 (by decide)) g.es (g.bs.trans (by linarith)))
      (mul_sc n3 g.fs (hb 2 (by decide)) g.es (g.bs.trans (by linarith))) ?_
    have := mul_sc fin_one g.fk one g.ek (g.bk.trans (by linarith))
    rw [w1, mul_one] at this
    exact this
/-- C117: `XMQuaternionRotationAxis` normalises the axis first. -/
theorem C117_quaternionRotationAxis (c : Cfg) (N : V4 (F32 P)) (hN : Fins 3 N) (hm : Mid (sqs 3 N)) (A : F32 P) (hA : IsFinite A.bits) (ha : |value A.bits| ≤ 10^6) :
    QFClose (XMQuaternionRotationAxis c N A) (axisQ (dirOf N) (value A.bits)) (102/100 * halfErr (value A.bits) + 9/10^7) := by
  obtain ⟨h1, h2, h3⟩ := normalize_dir c N hN hm
  have h := C117_quaternionRotationNormal c _ h1 (normalize_le c N hN hm) A hA ha
  refine (h.trans (r := axisQ (dirOf N) (value A.bits)) (d := 8/10^7) ?_).le (by linarith)
  have key : ∀ i, |Real.sin (value A.bits / 2) * axisOf (XMVector3Normalize c N) i - Real.sin (value A.bits / 2) * dirOf N i| ≤ 8/10^7 := fun i => by
    rw [← mul_sub, abs_mul]
    have := mul_le_mul (Real.abs_sin_le_one (value A.bits / 2)) (h2 i) (abs_nonneg _) zero_le_one
    linarith
  exact ⟨key 0, key 1, key 2, by simp [axisQ]; norm_num⟩
/-- C117: `XMMatrixRotationQuaternion`: the nine entries of the rotation matrix of a quaternion. -/
theorem C117_rotationQuaternion (c : Cfg) (Q : V4 (F32 P)) (hQ : Fins 4 Q) (hb : ∀ i, |vals Q i| ≤ 101/100) :
    MClose (XMMatrixRotationQuaternion c Q) (rotM (quatOf Q)) (2/10^6) := rotQuaternion_round c Q hQ hb

/-! Roll, pitch and yaw. -/

theorem rpy_close {s0 s1 s2 k0 k1 k2 pitch yaw roll e : ℝ} (he1 : e ≤ 1/50)
    (s0' : |s0 - Real.sin (pitch/2)| ≤ e) (k0' : |k0 - Real.cos (pitch/2)| ≤ e) (s1' : |s1 - Real.sin (yaw/2)| ≤ e) (k1' : |k1 - Real.cos (yaw/2)| ≤ e)
    (s2' : |s2 - Real.sin (roll/2)| ≤ e) (k2' : |k2 - Real.cos (roll/2)| ≤ e) :
    QClose (mkQ k1 0 s1 0 * mkQ k0 s0 0 0 * mkQ k2 0 0 s2) (axisQ ey yaw * axisQ ex pitch * axisQ ez roll) (7 * e) := by
  obtain ⟨x0, x1, x2⟩ := ex_val
  obtain ⟨y0, y1, y2⟩ := ey_val
  obtain ⟨z0, z1, z2⟩ := ez_val
  have S' := Real.abs_sin_le_one
  have C' := Real.abs_cos_le_one
  have t1 := triple_close (C' _) (S' _) (C' _) k1' s0' k2' he1
  have t2 := triple_close (S' _) (C' _) (S' _) s1' k0' s2' he1
  have t3 := triple_close (S' _) (C' _) (C' _) s1' k0' k2' he1
  have t4 := triple_close (C' _) (S' _) (S' _) k1' s0' s2' he1
  have t5 := triple_close (C' _) (C' _) (S' _) k1' k0' s2' he1
  have t6 := triple_close (S' _) (S' _) (C' _) s1' s0' k2' he1
  have t7 := triple_close (C' _) (C' _) (C' _) k1' k0' k2' he1
  have t8 := triple_close (S' _) (S' _) (S' _) s1' s0' s2' he1
  have he0 : 0 ≤ e := (abs_nonneg _).trans s0'
  have d : ∀ x y u v : ℝ, |x - y| ≤ 31/10*e → |u - v| ≤ 31/10*e → |(x + u) - (y + v)| ≤ 7*e ∧ |(x - u) - (y - v)| ≤ 7*e := by
    intro x y u v a b
    rw [abs_le] at a b
    refine ⟨?_, ?_⟩ <;> rw [abs_le] <;> constructor <;> linarith [a.1, a.2, b.1, b.2]
  unfold QClose
  have aq : ∀ n a, axisQ n a = mkQ (Real.cos (a/2)) (Real.sin (a/2) * n 0) (Real.sin (a/2) * n 1) (Real.sin (a/2) * n 2) := fun _ _ => rfl
  simp [aq, x0, x1, x2, y0, y1, y2, z0, z1, z2]
  refine ⟨?_, ?_, ?_, ?_⟩
  · convert (d _ _ _ _ t1 t2).1 using 2
  · convert (d _ _ _ _ t3 t4).2 using 2; ring
  · convert (d _ _ _ _ t5 t6).2 using 2; ring
  · convert (d _ _ _ _ t7 t8).1 using 2
theorem rpy_round (c : Cfg) (A S K : V4 (F32 P)) (h : XMVectorSinCos c (XMVectorMultiply A g_XMOneHalf) = (S, K)) (hS : Fins 3 S) (hK : Fins 3 K)
    (bS : ∀ i : Fin 4, i.val < 3 → |vals S i| ≤ 11/10) (bK : ∀ i : Fin 4, i.val < 3 → |vals K i| ≤ 11/10) :
    QFClose (XMQuaternionRotationRollPitchYawFromVector c A)
      (mkQ (vals K 1) 0 (vals S 1) 0 * mkQ (vals K 0) (vals S 0) 0 0 * mkQ (vals K 2) 0 0 (vals S 2)) (1/10^6) := by
  obtain ⟨f0, f1, f2⟩ := fins3 hS; obtain ⟨g0, g1, g2⟩ := fins3 hK
  have a0 := leafB f0 (bS 0 (by decide)); have a1 := leafB f1 (bS 1 (by decide)); have a2 := leafB f2 (bS 2 (by decide))
  have b0 := leafB g0 (bK 0 (by decide)); have b1 := leafB g1 (bK 1 (by decide)); have b2 := leafB g2 (bK 2 (by decide))
  rw [XMQuaternionRotationRollPitchYaw_form c A S K h]
  clear h
  simp only [XMVectorMultiplyAdd, SSE.fmadd, SSE.add, SSE.mul, V4.map3, V4.map2]
  split_ifs
  · exact QFClose.mk (by fcn [vals_0]) (by fcn [vals_0]) (by fcn [vals_0]) (by fcn [vals_0])
  · exact QFClose.mk (by fcn [vals_0]) (by fcn [vals_0]) (by fcn [vals_0]) (by fcn [vals_0])
  · exact QFClose.mk (by fcn [vals_0]) (by fcn [vals_0]) (by fcn [vals_0]) (by fcn [vals_0])
/-- C117: roll, pitch and yaw as a quaternion (SSE builds), for angles up to 10⁴ radians. -/
theorem C117_quaternionRollPitchYaw (c : Cfg) (hc : c.sse = true) (A : V4 (F32 P)) (M : ℝ) (hA : Fins 3 A) (hM : ∀ i : Fin 4, i.val < 3 → |vals A i| ≤ M) (hM' : M ≤ 10^4) :
    QFClose (XMQuaternionRotationRollPitchYawFromVector c A) (axisQ ey (vals A 1) * axisQ ex (vals A 0) * axisQ ez (vals A 2)) (7 * halfErr M + 1/10^6) := by
  have hM0 : 0 ≤ M := (abs_nonneg _).trans (hM 0 (by decide))
  have hh : halfErr M ≤ 1/50 := by unfold halfErr; rw [abs_of_nonneg hM0]; linarith
  have g : ∀ i : Fin 4, i.val < 3 → SC ((XMVectorSinCos c (XMVectorMultiply A g_XMOneHalf)).1.lane i) ((XMVectorSinCos c (XMVectorMultiply A g_XMOneHalf)).2.lane i) (vals A i / 2) (halfErr M) := by
    intro i hi
    have hb := hM i hi
    obtain ⟨m1, m2, m3⟩ := half_mul (hA i hi) (hb.trans (by linarith)) halfL.1 halfL.2 (m := Lane.mul (A.lane i) Lane.cHalf) (Or.inl rfl)
    have e : (XMVectorMultiply A g_XMOneHalf).lane i = Lane.mul (A.lane i) Lane.cHalf := by fin_cases i <;> rfl
    have := sc_vector c hc (XMVectorMultiply A g_XMOneHalf) i (by rw [e]; exact m1) (by rw [e]; exact m3)
    rw [e] at this
    refine (this.half m2).le ?_
    unfold halfErr; rw [abs_of_nonneg hM0]
    have : |val (A.lane i)| ≤ M := hb
    linarith
  obtain ⟨S, K, hsc⟩ : ∃ S K, XMVectorSinCos c (XMVectorMultiply A g_XMOneHalf) = (S, K) := ⟨_, _, rfl⟩
  rw [hsc] at g
  have h := rpy_round c A S K hsc (fun i hi => (g i hi).fs) (fun i hi => (g i hi).fk) (fun i hi => (g i hi).bs.trans (by linarith)) (fun i hi => (g i hi).bk.trans (by linarith))
  have g0 := g 0 (by decide); have g1 := g 1 (by decide); have g2 := g 2 (by decide)
  exact (h.trans (rpy_close hh g0.es g0.ek g1.es g1.ek g2.es g2.ek)).le (by linarith)
/-- C117: the matrix of roll, pitch and yaw (SSE builds): the product Rz(roll) Rx(pitch) Ry(yaw). -/
theorem C117_rotationRollPitchYaw (c : Cfg) (hc : c.sse = true) (A : V4 (F32 P)) (M : ℝ) (hA : Fins 3 A) (hM : ∀ i : Fin 4, i.val < 3 → |vals A i| ≤ M) (hM' : M ≤ 10^4) :
    MClose (XMMatrixRotationRollPitchYawFromVector c A) (axisRot ez (vals A 2) * axisRot ex (vals A 0) * axisRot ey (vals A 1)) (57 * halfErr M + 12/10^6) := by
  have hM0 : 0 ≤ M := (abs_nonneg _).trans (hM 0 (by decide))
  have hh : halfErr M ≤ 9/10^4 := by unfold halfErr; rw [abs_of_nonneg hM0]; linarith
  have hp := halfErr_pos M
  have hq := C117_quaternionRollPitchYaw c hc A M hA hM hM'
  have uz := axisQ_normSq ez ez_unit (vals A 2)
  have ux := axisQ_normSq ex ex_unit (vals A 0)
  have uy := axisQ_normSq ey ey_unit (vals A 1)
  have uyx : Quaternion.normSq (axisQ ey (vals A 1) * axisQ ex (vals A 0)) = 1 := by rw [map_mul, uy, ux, one_mul]
  have hu : Quaternion.normSq (axisQ ey (vals A 1) * axisQ ex (vals A 0) * axisQ ez (vals A 2)) = 1 := by rw [map_mul, uyx, uz, one_mul]
  have h := C117_rotationQuaternion c _ hq.1 (fun i => (hq.bound hu i).trans (by linarith))
  have hr := rotM_close hu hq.2
  rw [rotM_mul _ _ uyx uz, rotM_mul _ _ uy ux, rotM_axisQ _ ez_unit, rotM_axisQ _ ex_unit, rotM_axisQ _ ey_unit, ← Matrix.mul_assoc] at hr
  refine (h.trans hr).le ?_
  nlinarith

/-! Rotation of a vector by a quaternion. -/

/-- The four lanes approximate the components of `q`. -/
def QAp (Q : V4 (F32 P)) (q : Quaternion ℝ) (M : ℝ) (k : ℕ) : Prop := Ap Q.x q.imI M k ∧ Ap Q.y q.imJ M k ∧ Ap Q.z q.imK M k ∧ Ap Q.w q.re M k
/-- Apply the rules with symbolic magnitudes. -/
macro "qap" : tactic => `(tactic| (repeat' with_reducible first
  | assumption | apply Ap.mul1 | apply Ap.mulN1 | apply Ap.fma1 | apply Ap.fmaN1 | apply Ap.add | apply Ap.sub | apply Ap.mul))
theorem QAp.mul (c : Cfg) {A B : V4 (F32 P)} {p q : Quaternion ℝ} {M N : ℝ} {j k : ℕ} (hA : QAp A p M j) (hB : QAp B q N k) (hM : M ≤ 2^127) (hN : N ≤ 2^127) :
    QAp (XMQuaternionMultiply c A B) (q * p) (4 * (N * M) + 4 * tiny) (k + j + 4) := by
  obtain ⟨a1, a2, a3, a4⟩ := hA; obtain ⟨b1, b2, b3, b4⟩ := hB
  simp only [QAp, XMQuaternionMultiply, SSE.fmadd]
  split_ifs <;> simp only [SSE.perm, SSE.mul, SSE.add, V4.lane, V4.map2, V4.map3] <;>
    exact ⟨Ap.le (by qap) (by simp; try ring) (by linarith) (by omega), Ap.le (by qap) (by simp; try ring) (by linarith) (by omega),
      Ap.le (by qap) (by simp; try ring) (by linarith) (by omega), Ap.le (by qap) (by simp; try ring) (by linarith) (by omega)⟩
theorem QAp.conj (c : Cfg) {A : V4 (F32 P)} {p : Quaternion ℝ} {M : ℝ} {j : ℕ} (hA : QAp A p M j) : QAp (XMQuaternionConjugate c A) (star p) M j := by
  obtain ⟨a1, a2, a3, a4⟩ := hA
  unfold XMQuaternionConjugate
  split_ifs
  · refine ⟨Ap.le (Ap.mulN1 a1) (by simp) le_rfl le_rfl, Ap.le (Ap.mulN1 a2) (by simp) le_rfl le_rfl, Ap.le (Ap.mulN1 a3) (by simp) le_rfl le_rfl, Ap.le (Ap.mul1 a4) (by simp) le_rfl le_rfl⟩
  · exact ⟨by simpa using a1.neg, by simpa using a2.neg, by simpa using a3.neg, by simpa using a4⟩
theorem QAp.close {A : V4 (F32 P)} {p : Quaternion ℝ} {M e : ℝ} {j : ℕ} (h : QAp A p M j) (hk : j ≤ 2^20) (hM : M ≤ 2^127) (he : gam j * M ≤ e) : QFClose A p e :=
  QFClose.mk (Ap.fclose h.1 hk hM rfl he) (Ap.fclose h.2.1 hk hM rfl he) (Ap.fclose h.2.2.1 hk hM rfl he) (Ap.fclose h.2.2.2 hk hM rfl he)
theorem QAp.leaf {Q : V4 (F32 P)} {M : ℝ} (h : Fins 4 Q) (hb : ∀ i, |vals Q i| ≤ M) : QAp Q (quatOf Q) M 0 := by
  obtain ⟨h1, h2, h3, h4⟩ := fins4 h
  exact ⟨leafB h1 (hb 0), leafB h2 (hb 1), leafB h3 (hb 2), leafB h4 (hb 3)⟩
theorem QAp.pure {V : V4 (F32 P)} {M : ℝ} (h : Fins 3 V) (hb : ∀ i : Fin 4, i.val < 3 → |vals V i| ≤ M) : QAp ⟨V.x, V.y, V.z, Lane.ofBits 0#32⟩ (pureQ (axisOf V)) M 0 := by
  obtain ⟨h1, h2, h3⟩ := fins3 h
  have : 0 ≤ M := (abs_nonneg _).trans (hb 0 (by decide))
  exact ⟨leafB h1 (hb 0 (by decide)), leafB h2 (hb 1 (by decide)), leafB h3 (hb 2 (by decide)), zeroAp.le rfl this le_rfl⟩
/-- C117: `XMVector3Rotate`: `q v q*`, for a quaternion with components up to 1.01. -/
theorem C117_rotate (c : Cfg) (V Q : V4 (F32 P)) (N : ℝ) (hV : Fins 3 V) (hQ : Fins 4 Q) (hb : ∀ i, |vals Q i| ≤ 101/100) (hN : ∀ i : Fin 4, i.val < 3 → |vals V i| ≤ N) (hN' : N ≤ 2^100) :
    QFClose (XMVector3Rotate c V Q) (quatOf Q * pureQ (axisOf V) * star (quatOf Q)) (8/10^6 * N + 1/10^40) := by
  have h0 : 0 ≤ N := (abs_nonneg _).trans (hN 0 (by decide))
  rw [XMVector3Rotate_form, mul_assoc]
  have hq := QAp.leaf hQ hb
  have := QAp.mul c (QAp.mul c (hq.conj c) (QAp.pure hV hN) (by norm_num) (hN'.trans (by norm_num))) hq (by unfold tiny; linarith) (by norm_num)
  exact this.close (by norm_num) (by unfold tiny; linarith) (by unfold gam ulp2 tiny; norm_num; linarith)
/-- C117: `XMVector3InverseRotate`: `q* v q`. -/
theorem C117_inverseRotate (c : Cfg) (V Q : V4 (F32 P)) (N : ℝ) (hV : Fins 3 V) (hQ : Fins 4 Q) (hb : ∀ i, |vals Q i| ≤ 101/100) (hN : ∀ i : Fin 4, i.val < 3 → |vals V i| ≤ N) (hN' : N ≤ 2^100) :
    QFClose (XMVector3InverseRotate c V Q) (star (quatOf Q) * pureQ (axisOf V) * quatOf Q) (8/10^6 * N + 1/10^40) := by
  have h0 : 0 ≤ N := (abs_nonneg _).trans (hN 0 (by decide))
  rw [XMVector3InverseRotate_form, mul_assoc]
  have hq := QAp.leaf hQ hb
  have := QAp.mul c (QAp.mul c hq (QAp.pure hV hN) (by norm_num) (hN'.trans (by norm_num))) (hq.conj c) (by unfold tiny; linarith) (by norm_num)
  exact this.close (by norm_num) (by unfold tiny; linarith) (by unfold gam ulp2 tiny; norm_num; linarith)

/-! ### the hypotheses are met -/

/-- An almost unit vector (0.5, 0.5, 0.70703125, 0), also the quaternion of a half turn about it. -/
def exN : V4 (F32 P) := ⟨Lane.ofBits 0x3F000000#32, Lane.ofBits 0x3F000000#32, Lane.ofBits 0x3F350000#32, Lane.ofBits 0#32⟩
/-- 13 radians. -/
def exA : F32 P := Lane.ofBits 0x41500000#32
theorem exN_fin (n : ℕ) : Fins n (exN : V4 (F32 P)) := by
  intro i _; fin_cases i
  · exact fin_half
  · exact fin_half
  · show IsFinite 0x3F350000#32; decide
  · show IsFinite 0#32; decide
theorem exN_le (i : Fin 4) : |vals (exN : V4 (F32 P)) i| ≤ 101/100 := by
  fin_cases i
  · show |val (Lane.ofBits 0x3F000000#32 : F32 P)| ≤ _; rw [val_half]; norm_num [abs_of_pos]
  · show |val (Lane.ofBits 0x3F000000#32 : F32 P)| ≤ _; rw [val_half]; norm_num [abs_of_pos]
  · show |value 0x3F350000#32| ≤ _
    have e1 : signBit 0x3F350000#32 = false := by decide
    have e2 : expField 0x3F350000#32 = 126 := by decide
    have e3 : fracField 0x3F350000#32 = 3473408 := by decide
    unfold value; rw [e1, e2, e3]; norm_num [abs_of_pos]
  · show |value 0#32| ≤ _
    rw [show value 0#32 = 0 by simp [value, expField, fracField]]; norm_num
theorem exA_val : IsFinite (exA : F32 P).bits ∧ value (exA : F32 P).bits = 13 := by
  refine ⟨by show IsFinite 0x41500000#32; decide, ?_⟩
  show value 0x41500000#32 = 13
  have e1 : signBit 0x41500000#32 = false := by decide
  have e2 : expField 0x41500000#32 = 130 := by decide
  have e3 : fracField 0x41500000#32 = 5242880 := by decide
  unfold value; rw [e1, e2, e3]; norm_num
example (c : Cfg) : MClose (XMMatrixRotationNormal c (exN : V4 (F32 P)) exA) (axisRot (axisOf (exN : V4 (F32 P))) 13) (7/10^6) := by
  obtain ⟨h1, h2⟩ := exA_val (P := P)
  have := C117_rotationNormal c (exN : V4 (F32 P)) (exN_fin 3) (fun i _ => exN_le i) exA h1 (by rw [h2]; norm_num)
  rw [h2] at this
  exact this.le (by unfold rotErr; norm_num [abs_of_pos])
example (c : Cfg) : QFClose (XMQuaternionRotationNormal c (exN : V4 (F32 P)) exA) (axisQ (axisOf (exN : V4 (F32 P))) 13) (3/10^6) := by
  obtain ⟨h1, h2⟩ := exA_val (P := P)
  have := C117_quaternionRotationNormal c (exN : V4 (F32 P)) (exN_fin 3) (fun i _ => exN_le i) exA h1 (by rw [h2]; norm_num)
  rw [h2] at this
  exact this.le (by unfold halfErr; norm_num [abs_of_pos])
theorem exV_le (i : Fin 4) : |vals (exV : V4 (F32 P)) i| ≤ 3 := by
  obtain ⟨e0, e1, e2, e3⟩ := exV_vals (P := P)
  fin_cases i
  · simp [e0]
  · simp [e1]; norm_num
  · simp [e2]; norm_num [abs_of_pos]
  · simp [e3]
example (c : Cfg) (hc : c.sse = true) : MClose (XMMatrixRotationRollPitchYawFromVector c (exV : V4 (F32 P))) (axisRot ez (3/2) * axisRot ex 3 * axisRot ey (-2)) (12/10^5) := by
  obtain ⟨e0, e1, e2, e3⟩ := exV_vals (P := P)
  have := C117_rotationRollPitchYaw c hc (exV : V4 (F32 P)) 3 (exV_fin 3) (fun i _ => exV_le i) (by norm_num)
  rw [e0, e1, e2] at this
  exact this.le (by unfold halfErr; norm_num [abs_of_pos])
example (c : Cfg) : QFClose (XMVector3Rotate c (exV : V4 (F32 P)) exN) (quatOf (exN : V4 (F32 P)) * pureQ (axisOf (exV : V4 (F32 P))) * star (quatOf (exN : V4 (F32 P)))) (25/10^6) :=
  (C117_rotate c exV exN 3 (exV_fin 3) (exN_fin 4) exN_le (fun i _ => exV_le i) (by norm_num)).le (by norm_num)
example : Fins 3 (exV : V4 (F32 P)) ∧ Mid (sqs 3 (exV : V4 (F32 P))) := by
  obtain ⟨e0, e1, e2, e3⟩ := exV_vals (P := P)
  refine ⟨exV_fin 3, ?_⟩
  rw [sqs3, ← vals_0, ← vals_1, ← vals_2, e0, e1, e2]; constructor <;> norm_num
end DXM.Props
