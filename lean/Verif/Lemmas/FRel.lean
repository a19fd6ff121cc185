import Verif.Lemmas.FErr

/-
Relative errors: rules for `RelNear` through products, quotients, sums and differences of given numbers.  Products and quotients must
vanish or stay in the normal range; sums and differences of given numbers need no lower bound.
-/

set_option linter.all false

namespace DXM.FErr
open DXM.Spec DXM.IEEE
variable {P : Env}

/-- The common step: `x` is near `v` before the last rounding. -/
theorem rel_step {r : BitVec 32} {x v : ℝ} {k : ℕ} (hk : k + 1 ≤ 2^20) (h : |x - v| ≤ gam k * |v|) (hB : |v| ≤ 2^127) (hr : |x| < overflow → IsFinite r ∧ |value r - x| ≤ ulp2 * |x|) :
    RelNear r v (k + 1) := by
  have hg := gam_le (k := k) (by omega)
  have g0 := gam_nonneg (k := k) (by omega)
  have hx : |x| ≤ |v| * (1 + gam k) := by
    have : |x| ≤ |v| + |x - v| := by have := abs_add_le v (x - v); simpa using this
    linarith
  have hv := abs_nonneg v
  obtain ⟨f, e⟩ := hr (lt_of_le_of_lt (hx.trans (mul_le_mul hB (by linarith) (by linarith) (by norm_num))) big_lt)
  refine ⟨f, ?_⟩
  have t := abs_add_le (value r - x) (x - v)
  rw [sub_add_sub_cancel] at t
  have u := mul_le_mul_of_nonneg_left hx (u_pos).le
  have s := mul_le_mul_of_nonneg_right (gam_succ hk) hv
  nlinarith
theorem rel_leaf {a : F32 P} (h : Fin' a) : RelNear a.bits (val a) 0 := ⟨h, by rw [sub_self, abs_zero, gam_zero, zero_mul]⟩
theorem rel_le {r : BitVec 32} {v : ℝ} {j k : ℕ} (h : RelNear r v j) (hj : j ≤ k) (hk : k ≤ 2^20 := by norm_num) : RelNear r v k :=
  ⟨h.1, h.2.trans (mul_le_mul_of_nonneg_right (gam_mono hj hk) (abs_nonneg v))⟩
theorem rel_add {a b : F32 P} (ha : Fin' a) (hb : Fin' b) (hB : |val a + val b| ≤ 2^127) : RelNear (Lane.add a b).bits (val a + val b) 1 := by
  refine rel_step (k := 0) (x := val a + val b) (by norm_num) (by rw [sub_self, abs_zero, gam_zero, zero_mul]) hB fun hx => ?_
  obtain ⟨m, hm⟩ := int_val a; obtain ⟨n, hn⟩ := int_val b
  exact rounds_err' (add_rounds P ha hb) hx (m + n) (by push_cast; rw [add_mul, ← hm, ← hn])
theorem rel_sub {a b : F32 P} (ha : Fin' a) (hb : Fin' b) (hB : |val a - val b| ≤ 2^127) : RelNear (Lane.sub a b).bits (val a - val b) 1 := by
  refine rel_step (k := 0) (x := val a - val b) (by norm_num) (by rw [sub_self, abs_zero, gam_zero, zero_mul]) hB fun hx => ?_
  obtain ⟨m, hm⟩ := int_val a; obtain ⟨n, hn⟩ := int_val b
  exact rounds_err' (sub_rounds P ha hb) hx (m - n) (by push_cast; rw [sub_mul, ← hm, ← hn])
theorem rel_neg {a : F32 P} {v : ℝ} {k : ℕ} (h : RelNear a.bits v k) : RelNear (Lane.neg a).bits (-v) k := by
  refine ⟨finite_neg.2 h.1, ?_⟩
  have : value (Lane.neg a).bits = - value a.bits := neg_value _
  rw [this, show -value a.bits - -v = -(value a.bits - v) by ring, abs_neg, abs_neg]; exact h.2
/-- A value known with a relative error vanishes with its approximation. -/
theorem rel_zero {r : BitVec 32} {v : ℝ} {k : ℕ} (h : RelNear r v k) (hv : v = 0) : value r = 0 := by
  have := h.2; rw [hv, abs_zero, mul_zero, sub_zero] at this
  exact abs_eq_zero.1 (le_antisymm this (abs_nonneg _))
theorem value_z : value 0#32 = 0 := by simp [value, expField, fracField]
/-- Rounding zero, or a number in the normal range. -/
theorem rounds_rel {x : ℝ} {r : BitVec 32} (h : Rounds x r) (hx : |x| < overflow) (ht : x = 0 ∨ tiny ≤ |x|) : IsFinite r ∧ |value r - x| ≤ ulp2 * |x| := by
  rcases ht with rfl | ht
  · have z : IsFinite 0#32 := by decide
    obtain ⟨f, e⟩ := rounds_exact z (by rw [value_z]; exact h)
    exact ⟨f, by rw [e, value_z]; simp⟩
  · exact rounds_err'' h hx ht
theorem low_of {x v : ℝ} {k : ℕ} (hk : k ≤ 2^20) (h : |x - v| ≤ gam k * |v|) (hv : 1/2^120 ≤ |v|) : tiny ≤ |x| := by
  have := gam_le hk
  have h1 : |v| ≤ |x| + |x - v| := by
    have := abs_sub_abs_le_abs_sub v x; rw [abs_sub_comm] at this; linarith
  have : |x| ≥ 7/8 * |v| := by nlinarith [abs_nonneg v]
  have : tiny ≤ 7/8 * (1/2^120) := by unfold tiny; norm_num
  linarith
theorem rel_mul {a b : F32 P} {v w : ℝ} {j k : ℕ} (ha : RelNear a.bits v j) (hb : RelNear b.bits w k) (hr : v * w = 0 ∨ 1/2^120 ≤ |v * w|) (hB : |v * w| ≤ 2^127) (hk : j + k + 1 ≤ 2^20 := by norm_num) :
    RelNear (Lane.mul a b).bits (v * w) (j + k + 1) := by
  have e : |val a * val b - v * w| ≤ gam (j + k) * |v * w| := by
    have : val a * val b - v * w = (val a - v) * (val b - w) + (val a - v) * w + v * (val b - w) := by ring
    rw [this]
    refine (abs_add_three _ _ _).trans ?_
    rw [abs_mul, abs_mul, abs_mul, abs_mul]
    have g := gg_mul (a := j) (b := k) (by omega)
    have h1 := gam_eq (k := j) (by omega); have h2 := gam_eq (k := k) (by omega); have h3 := gam_eq (k := j + k) (by omega)
    have g1 := gam_nonneg (k := j) (by omega); have g2 := gam_nonneg (k := k) (by omega)
    have q1 := mul_le_mul ha.2 hb.2 (abs_nonneg _) (mul_nonneg g1 (abs_nonneg v))
    have q2 := mul_le_mul_of_nonneg_right ha.2 (abs_nonneg w)
    have q3 := mul_le_mul_of_nonneg_left hb.2 (abs_nonneg v)
    have q4 : gam j * gam k + gam j + gam k ≤ gam (j + k) := by rw [h1, h2, h3]; linarith
    have q5 := mul_le_mul_of_nonneg_right q4 (mul_nonneg (abs_nonneg v) (abs_nonneg w))
    calc _ ≤ gam j * |v| * (gam k * |w|) + gam j * |v| * |w| + |v| * (gam k * |w|) := by linarith
      _ = (gam j * gam k + gam j + gam k) * (|v| * |w|) := by ring
      _ ≤ _ := q5
  refine rel_step hk e hB fun hx => rounds_rel (mul_rounds P ha.1 hb.1) hx ?_
  rcases hr with hr | hr
  · left
    rcases mul_eq_zero.1 hr with h | h
    · rw [show val a = 0 from rel_zero ha h, zero_mul]
    · rw [show val b = 0 from rel_zero hb h, mul_zero]
  · exact Or.inr (low_of (by omega) e hr)
theorem rel_div {a b : F32 P} {v w : ℝ} {j k : ℕ} (ha : RelNear a.bits v j) (hb : RelNear b.bits w k) (hw : w ≠ 0) (hr : v / w = 0 ∨ 1/2^120 ≤ |v / w|) (hB : |v / w| ≤ 2^127) (hk : j + 2 * k + 1 ≤ 2^20 := by norm_num) :
    RelNear (Lane.div a b).bits (v / w) (j + 2 * k + 1) := by
  have hw0 : 0 < |w| := abs_pos.2 hw
  have gk := gam_le (k := k) (by omega)
  have hb1 : |w| * (1 - gam k) ≤ |val b| := by
    have : |w| ≤ |val b| + |val b - w| := by have := abs_sub_le w (val b) 0; rw [sub_zero, sub_zero, abs_sub_comm w] at this; linarith
    nlinarith [hb.2]
  have hb0 : 0 < |val b| := lt_of_lt_of_le (mul_pos hw0 (by linarith)) hb1
  have hbne : val b ≠ 0 := abs_pos.1 hb0
  have e : |val a / val b - v / w| ≤ gam (j + 2 * k) * |v / w| := by
    have e : val a / val b - v / w = ((val a - v) * w - v * (val b - w)) / (val b * w) := by field_simp; ring
    rw [e, abs_div, abs_mul, abs_div v w]
    have hn : |(val a - v) * w - v * (val b - w)| ≤ (gam j + gam k) * |v| * |w| := by
      refine (abs_sub _ _).trans ?_
      rw [abs_mul, abs_mul]
      have t1 := mul_le_mul_of_nonneg_right ha.2 hw0.le
      have t2 := mul_le_mul_of_nonneg_left hb.2 (abs_nonneg v)
      nlinarith
    rw [div_le_iff₀ (mul_pos hb0 hw0)]
    refine hn.trans ?_
    have key := div_key (j := j) (k := k) (by omega)
    have e2 : gam (j + 2 * k) * (|v| / |w|) * (|val b| * |w|) = gam (j + 2 * k) * |val b| * |v| := by field_simp
    rw [e2]
    have t1 : (gam j + gam k) * |w| ≤ gam (j + 2 * k) * |val b| := by
      have := mul_le_mul_of_nonneg_right key hw0.le
      have := mul_le_mul_of_nonneg_left hb1 (gam_nonneg (k := j + 2 * k) (by omega))
      nlinarith
    nlinarith [mul_le_mul_of_nonneg_right t1 (abs_nonneg v)]
  refine rel_step hk e hB fun hx => rounds_rel (div_rounds P ha.1 hb.1 hbne) hx ?_
  rcases hr with hr | hr
  · left
    rcases div_eq_zero_iff.1 hr with h | h
    · rw [show val a = 0 from rel_zero ha h, zero_div]
    · exact absurd h hw
  · exact Or.inr (low_of (by omega) e hr)

/-! ### ranges -/

/-- `x` lies between 2^-e and 2^e in magnitude. -/
def Rng (e : ℕ) (x : ℝ) : Prop := 1/2^e ≤ |x| ∧ |x| ≤ 2^e
theorem Rng.ne {e : ℕ} {x : ℝ} (h : Rng e x) : x ≠ 0 := abs_pos.1 (lt_of_lt_of_le (by positivity) h.1)
theorem Rng.neg {e : ℕ} {x : ℝ} (h : Rng e x) : Rng e (-x) := by unfold Rng; rw [abs_neg]; exact h
theorem Rng.mul {e f : ℕ} {x y : ℝ} (h : Rng e x) (g : Rng f y) : Rng (e + f) (x * y) := by
  unfold Rng; rw [abs_mul, pow_add]
  refine ⟨?_, mul_le_mul h.2 g.2 (abs_nonneg _) (by positivity)⟩
  rw [← one_div_mul_one_div]
  exact mul_le_mul h.1 g.1 (by positivity) (abs_nonneg _)
theorem Rng.inv {e : ℕ} {x : ℝ} (h : Rng e x) : Rng e x⁻¹ := by
  have hx := abs_pos.2 h.ne
  unfold Rng; rw [abs_inv]
  refine ⟨?_, ?_⟩
  · rw [one_div]; exact (inv_le_inv₀ (by positivity) hx).2 h.2
  · rw [inv_le_comm₀ hx (by positivity), ← one_div]; exact h.1
theorem Rng.div {e f : ℕ} {x y : ℝ} (h : Rng e x) (g : Rng f y) : Rng (e + f) (x / y) := by
  rw [div_eq_mul_inv]; exact h.mul g.inv
theorem Rng.low {e : ℕ} {x : ℝ} (h : Rng e x) (he : e ≤ 120) : x = 0 ∨ 1/2^120 ≤ |x| :=
  Or.inr (le_trans (one_div_le_one_div_of_le (by positivity) (pow_le_pow_right₀ (by norm_num) he)) h.1)
theorem Rng.high {e : ℕ} {x : ℝ} (h : Rng e x) (he : e ≤ 120) : |x| ≤ 2^127 :=
  h.2.trans (pow_le_pow_right₀ (by norm_num) (by omega))
theorem Rng.le {e f : ℕ} {x : ℝ} (h : Rng e x) (he : e ≤ f) : Rng f x :=
  ⟨le_trans (one_div_le_one_div_of_le (by positivity) (pow_le_pow_right₀ (by norm_num) he)) h.1, h.2.trans (pow_le_pow_right₀ (by norm_num) he)⟩
theorem Rng.one : Rng 0 1 := by unfold Rng; norm_num
theorem Rng.two : Rng 1 2 := by unfold Rng; norm_num

end DXM.FErr
