import Verif.Lemmas.ExpErr

/-
Rounding error of one Horner step, in any of the forms the code uses (fused, multiply then add, multiply then subtract),
with a perturbed variable.
-/

set_option linter.all false

namespace DXM
open DXM.Spec DXM.IEEE DXM.FErr
variable {P : Env}

/-- `r` is computed as `a*y + δ`, `δ` a constant. -/
def HStep (r a y : F32 P) (δ : ℝ) : Prop :=
  ∃ d : F32 P, Fin' d ∧ ((val d = δ ∧ (r = Lane.fma a y d ∨ r = Lane.add (Lane.mul a y) d)) ∨ (val d = -δ ∧ r = Lane.sub (Lane.mul a y) d))

theorem HStep.fm (c : Cfg) {a y d : F32 P} (hd : Fin' d) : HStep (fm c a y d) a y (val d) := by
  refine ⟨d, hd, Or.inl ⟨rfl, ?_⟩⟩
  unfold DXM.fm; split_ifs
  · exact Or.inl rfl
  · exact Or.inr rfl
theorem HStep.add {a y d : F32 P} (hd : Fin' d) : HStep (Lane.add (Lane.mul a y) d) a y (val d) := ⟨d, hd, Or.inl ⟨rfl, Or.inr rfl⟩⟩
theorem HStep.sub {a y d : F32 P} (hd : Fin' d) : HStep (Lane.sub (Lane.mul a y) d) a y (-val d) := ⟨d, hd, Or.inr ⟨by simp, rfl⟩⟩

/-- One rounding of a product, absolute form. -/
theorem mul_abs {a y : F32 P} {M : ℝ} (ha : Fin' a) (hy : Fin' y) (h : |val a * val y| ≤ M) (hM : M ≤ 2^40) :
    Fin' (Lane.mul a y) ∧ |val (Lane.mul a y) - val a * val y| ≤ ulp2 * (M + tiny) ∧ |val (Lane.mul a y)| ≤ M + ulp2 * (M + tiny) := by
  have hu := u_pos
  have r := rounds_err (mul_rounds P ha hy) (lt_of_le_of_lt (h.trans hM) (by unfold overflow; norm_num))
  have h4 : |val (Lane.mul a y) - val a * val y| ≤ ulp2 * (|val a * val y| + tiny) := r.2
  have h5 := h4.trans (mul_le_mul_of_nonneg_left (show _ ≤ M + tiny by linarith) hu.le)
  refine ⟨r.1, h5, ?_⟩
  have h3 := abs_add_le (val (Lane.mul a y) - val a * val y) (val a * val y)
  rw [sub_add_cancel] at h3
  linarith
/-- One rounding of a sum or difference, absolute form (no underflow). -/
theorem add_abs {a d : F32 P} {M : ℝ} (ha : Fin' a) (hd : Fin' d) (h : |val a + val d| ≤ M) (hM : M ≤ 2^40) :
    Fin' (Lane.add a d) ∧ |val (Lane.add a d) - (val a + val d)| ≤ ulp2 * M := by
  obtain ⟨n, hn⟩ := int_val a; obtain ⟨k, hk⟩ := int_val d
  have r := rounds_err' (add_rounds P ha hd) (lt_of_le_of_lt (h.trans hM) (by unfold overflow; norm_num)) (n + k) (by
      push_cast; rw [add_mul]; exact congrArg₂ (· + ·) hn hk)
  exact ⟨r.1, r.2.trans (mul_le_mul_of_nonneg_left h u_pos.le)⟩
theorem sub_abs {a d : F32 P} {M : ℝ} (ha : Fin' a) (hd : Fin' d) (h : |val a - val d| ≤ M) (hM : M ≤ 2^40) :
    Fin' (Lane.sub a d) ∧ |val (Lane.sub a d) - (val a - val d)| ≤ ulp2 * M := by
  obtain ⟨n, hn⟩ := int_val a; obtain ⟨k, hk⟩ := int_val d
  have r := rounds_err' (sub_rounds P ha hd) (lt_of_le_of_lt (h.trans hM) (by unfold overflow; norm_num)) (n - k) (by
      push_cast; rw [sub_mul]; exact congrArg₂ (· - ·) hn hk)
  exact ⟨r.1, r.2.trans (mul_le_mul_of_nonneg_left h u_pos.le)⟩

theorem horner2 {r a y : F32 P} {δ v z B K e Y ez : ℝ} (hr : HStep r a y δ) (ha : Fin' a) (hy : Fin' y) (he : |val a - v| ≤ e) (hv : |v| ≤ B)
    (hY : |val y| ≤ Y) (hz : |val y - z| ≤ ez) (hzY : |z| ≤ Y) (hK : |δ| ≤ K) (hs : Y * (B + e) + K ≤ 1000) :
    Fin' r ∧ |val r - (v * z + δ)| ≤ Y * e + B * ez + ulp2 * (Y * (B + e) + tiny) + ulp2 * (Y * (B + e) + K + ulp2 * (Y * (B + e) + tiny)) ∧
      |v * z + δ| ≤ Y * B + K := by
  have hu := u_pos; have ht := tiny_pos
  have hu1 : ulp2 ≤ 1/8 := by unfold ulp2; norm_num
  have ht1 : tiny ≤ 1/8 := by unfold tiny; norm_num
  have hB : 0 ≤ B := (abs_nonneg _).trans hv
  have hK0 : 0 ≤ K := (abs_nonneg _).trans hK
  have he0 : 0 ≤ e := (abs_nonneg _).trans he
  have hY0 : 0 ≤ Y := (abs_nonneg _).trans hY
  have hva : |val a| ≤ B + e := by
    have := abs_add_le (val a - v) v
    rw [sub_add_cancel] at this; linarith
  have hp : |val a * val y| ≤ Y * (B + e) := by
    rw [abs_mul, mul_comm Y]; exact mul_le_mul hva hY (abs_nonneg _) (by linarith)
  have hq : |v * z| ≤ Y * B := by
    rw [abs_mul, mul_comm Y]; exact mul_le_mul hv hzY (abs_nonneg _) hB
  have hd1 : |val a * val y - v * z| ≤ Y * e + B * ez := by
    rw [show val a * val y - v * z = (val a - v) * val y + v * (val y - z) by ring]
    refine (abs_add_le _ _).trans ?_
    rw [abs_mul, abs_mul, mul_comm Y]
    exact add_le_add (mul_le_mul he hY (abs_nonneg _) he0) (mul_le_mul hv hz (abs_nonneg _) hB)
  have hbig : Y * (B + e) ≤ 2^40 := by norm_num; linarith
  have hYB : 0 ≤ Y * (B + e) := by positivity
  suffices h : Fin' r ∧ |val r - (val a * val y + δ)| ≤ ulp2 * (Y * (B + e) + tiny) + ulp2 * (Y * (B + e) + K + ulp2 * (Y * (B + e) + tiny)) by
    refine ⟨h.1, ?_, (abs_add_le _ _).trans (by linarith)⟩
    rw [show val r - (v * z + δ) = (val r - (val a * val y + δ)) + (val a * val y - v * z) by ring]
    refine (abs_add_le _ _).trans ?_
    linarith [h.2]
  have hpos : 0 ≤ ulp2 * (ulp2 * (Y * (B + e) + tiny)) := by positivity
  have hpos2 : 0 ≤ ulp2 * (Y * (B + e)) := by positivity
  obtain ⟨m1, m2, m3⟩ := mul_abs ha hy hp hbig
  obtain ⟨d, hd, ⟨e1, h | h⟩ | ⟨e1, h⟩⟩ := hr
  · subst h
    have hsum : |val a * val y + val d| ≤ Y * (B + e) + K := (abs_add_le _ _).trans (add_le_add hp (by rw [e1]; exact hK))
    have m := rounds_err (fma_rounds P ha hy hd) (lt_of_le_of_lt (hsum.trans hs) (by unfold overflow; norm_num))
    refine ⟨m.1, ?_⟩
    have m' : |val (Lane.fma a y d) - (val a * val y + val d)| ≤ ulp2 * (|val a * val y + val d| + tiny) := m.2
    rw [e1] at m' hsum
    have := mul_le_mul_of_nonneg_left hsum hu.le
    nlinarith
  · subst h
    have hb : |val (Lane.mul a y) + val d| ≤ Y * (B + e) + K + ulp2 * (Y * (B + e) + tiny) := by
      refine (abs_add_le _ _).trans ?_
      rw [e1]; linarith
    obtain ⟨g1, g2⟩ := add_abs m1 hd hb (by norm_num; nlinarith)
    refine ⟨g1, ?_⟩
    rw [show val (Lane.add (Lane.mul a y) d) - (val a * val y + δ) = (val (Lane.add (Lane.mul a y) d) - (val (Lane.mul a y) + val d)) + (val (Lane.mul a y) - val a * val y) by rw [← e1]; ring]
    refine (abs_add_le _ _).trans ?_
    linarith
  · subst h
    have hb : |val (Lane.mul a y) - val d| ≤ Y * (B + e) + K + ulp2 * (Y * (B + e) + tiny) := by
      refine (abs_sub _ _).trans ?_
      rw [e1, abs_neg]; linarith
    obtain ⟨g1, g2⟩ := sub_abs m1 hd hb (by norm_num; nlinarith)
    refine ⟨g1, ?_⟩
    rw [show val (Lane.sub (Lane.mul a y) d) - (val a * val y + δ) = (val (Lane.sub (Lane.mul a y) d) - (val (Lane.mul a y) - val d)) + (val (Lane.mul a y) - val a * val y) by rw [e1]; ring]
    refine (abs_add_le _ _).trans ?_
    linarith

end DXM
