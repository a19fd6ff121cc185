import Verif.Props.Slerp
import Verif.Props.Quat

/-
C58 (logarithm for acute angles) and C108 (control points for squad).  Exact-real lanes.
-/

set_option linter.all false

namespace DXM.Props
open DXM.E DXM.Spec DXM.Trig Matrix Real

theorem sin_quot' (θ θ' s S : ℝ) (hS : 7/10^4 ≤ S) (hθ0 : 0 ≤ θ) (hθ : θ ≤ 158/100 * S) (h1 : |θ' - θ| ≤ 3/10^7) (h2 : |s - S| ≤ 7/10^7) :
    |θ' / s * S - θ| ≤ 2/10^6 := by
  have h2' := abs_le.1 h2
  have hs : 999/1000 * S ≤ s := by norm_num at *; linarith
  have hSpos : 0 < S := by linarith
  have hs0 : 0 < s := by linarith
  have : θ' / s * S - θ = (S * (θ' - θ) - θ * (s - S)) / s := by field_simp; ring
  rw [this, abs_div, abs_of_pos hs0, div_le_iff₀ hs0]
  refine (abs_sub _ _).trans ?_
  rw [abs_mul, abs_mul, abs_of_pos hSpos, abs_of_nonneg hθ0]
  have e1 : S * |θ' - θ| ≤ S * (3/10^7) := mul_le_mul_of_nonneg_left h1 hSpos.le
  have e2 : θ * |s - S| ≤ (158/100 * S) * (7/10^7) := mul_le_mul hθ h2 (abs_nonneg _) (by linarith)
  norm_num at *; linarith

/-- C58: for angles up to a quarter turn the logarithm is accurate to 2e-6 in every component. -/
theorem C58_ln_acute (c : Cfg) (v : Fin 3 → ℝ) (hl : len v ≤ π/2) :
    ∃ r, XMQuaternionLn c (quat (NormedSpace.exp (pureQ v))) = vec3 r (num 0) ∧ ∀ i, |r i - v i| ≤ 2/10^6 := by
  have hl0 : 0 ≤ len v := Real.sqrt_nonneg _
  have hb := pi_lt_d2
  have hb' := pi_gt_d2
  have hcl : |cos (len v)| ≤ 1 := abs_cos_le_one _
  have hcpos : 0 ≤ cos (len v) := cos_nonneg_of_neg_pi_div_two_le_of_le (by linarith) hl
  obtain ⟨⟨th, a1, a2⟩, -⟩ := C67_arc c (fun _ => cos (len v)) (fun _ => hcl)
  rw [arccos_cos hl0 (by linarith)] at a2
  have thb : ∀ i, |th i| ≤ 32/10 := by
    intro i; have := abs_le.1 (a2 i); norm_num at this hb; rw [abs_le]; constructor <;> norm_num <;> linarith
  obtain ⟨s, k, s1, -, -, s2⟩ := C67_sincos c th (fun i => (thb i).trans (by norm_num))
  have s3 : ∀ i, |s i - sin (len v)| ≤ 7/10^7 := by
    intro i
    have e1 := (s2 i).1
    have e2 := sin_lip (th i) (len v)
    have e3 := abs_sub_le (s i) (sin (th i)) (sin (len v))
    have := thb i; have := a2 i
    norm_num at *; linarith
  have a1' : XMVectorACos c (all (cos (len v))) = vec4 th := a1
  rw [exp_pureQ]
  have hQW : XMVectorSplatW c (quat (mkQ (cos (len v)) (sin (len v) / len v * v 0) (sin (len v) / len v * v 1) (sin (len v) / len v * v 2))) = all (cos (len v)) := by
    simp
  have hQ0 : XMVectorSelect g_XMSelect1110 (quat (mkQ (cos (len v)) (sin (len v) / len v * v 0) (sin (len v) / len v * v 1) (sin (len v) / len v * v 2))) g_XMSelect1110 =
     ⟨num (sin (len v) / len v * v 0), num (sin (len v) / len v * v 1), num (sin (len v) / len v * v 2), num 0⟩ := by
    simp
  by_cases h : cos (len v) ≤ nearOne
  · have hw : -nearOne ≤ cos (len v) := by unfold nearOne at *; linarith
    have hctl : XMVectorInBounds c (all (cos (len v))) oneMinusEpsilon = ⟨ones, ones, ones, ones⟩ := ctl_in c _ hw h
    have hpos : 0 ≤ sin (len v) := sin_nonneg_of_nonneg_of_le_pi hl0 (by linarith)
    have hsq : (4/10^3)^2 ≤ sin (len v) ^ 2 := by
      have := sin_sq_add_cos_sq (len v)
      unfold nearOne at h hw
      nlinarith
    have hS1 : 4/10^3 ≤ sin (len v) := by nlinarith
    have h0 : 0 < len v := by
      rcases hl0.lt_or_eq with h0 | h0
      · exact h0
      · rw [← h0, sin_zero] at hS1; norm_num at hS1
    have hne := h0.ne'
    have hj : len v ≤ 158/100 * sin (len v) := by
      have := Real.mul_le_sin hl0 hl
      rw [div_mul_eq_mul_div, div_le_iff₀ pi_pos] at this
      norm_num at hb
      nlinarith
    have sne : ∀ i, s i ≠ 0 := by
      intro i h0; have := s3 i; rw [h0] at this; have := abs_le.1 this; norm_num at this hS1; linarith
    refine ⟨fun i => (sin (len v) / len v * v i) * (th (i.castLE (by norm_num)) / s (i.castLE (by norm_num))), ?_, ?_⟩
    · unfold XMQuaternionLn
      simp only [hQW, hQ0, hctl, a1', s1]
      simp [vec3, div_num _ _ (sne _)]
    · intro i
      have hq := sin_quot' (len v) (th (i.castLE (by norm_num))) (s (i.castLE (by norm_num))) (sin (len v)) (by linarith) h0.le hj (a2 _) (s3 _)
      have e : (sin (len v) / len v * v i) * (th (i.castLE (by norm_num)) / s (i.castLE (by norm_num))) - v i =
        (th (i.castLE (by norm_num)) / s (i.castLE (by norm_num)) * sin (len v) - len v) / len v * v i := by
        have := sne (i.castLE (by norm_num)); field_simp
      rw [e]
      have := scaled_le v i ((th (i.castLE (by norm_num)) / s (i.castLE (by norm_num)) * sin (len v) - len v) / len v) 0
      rw [zero_mul, sub_zero, sub_zero, abs_div, abs_of_pos h0, div_mul_cancel₀ _ hne] at this
      exact this.trans hq
  · have hctl : XMVectorInBounds c (all (cos (len v))) oneMinusEpsilon = ⟨num 0, num 0, num 0, num 0⟩ :=
      ctl_out c _ (Or.inr (not_le.1 h))
    refine ⟨fun i => sin (len v) / len v * v i, ?_, ?_⟩
    · unfold XMQuaternionLn
      simp only [hQW, hQ0, hctl]
      simp [vec3]
    · intro i
      rcases hl0.lt_or_eq with h0 | h0
      swap
      · have hv := comp_le_len v i
        rw [← h0] at hv
        have := abs_nonpos_iff.1 hv
        simp [this]; norm_num
      have hne := h0.ne'
      have := scaled_le v i (sin (len v) / len v) 1
      rw [one_mul] at this
      refine this.trans ?_
      have e : |sin (len v) / len v - 1| * len v = |len v - sin (len v)| := by
        rw [← abs_of_pos h0, ← abs_mul, abs_of_pos h0, sub_mul, one_mul, div_mul_cancel₀ _ hne, abs_sub_comm]
      rw [e]
      have e2 := abs_sub_sin_le (len v)
      rw [abs_of_pos h0] at e2
      have hq := Real.cos_le_one_sub_mul_cos_sq (x := len v) (by rw [abs_of_pos h0]; linarith)
      have hpi3 := pi_gt_three
      have hx2 : len v ^2 ≤ 5/10^5 := by
        have : 2 / π^2 * len v ^2 ≤ 2748779 / 274877906944 := by unfold nearOne at h; linarith
        rw [div_mul_eq_mul_div, div_le_iff₀ (by positivity)] at this
        norm_num at hb
        nlinarith
      have hx1 : len v ≤ 1/100 := by nlinarith
      nlinarith
example : len ![1, 1/2, 0] ≤ π/2 := by
  rw [len, dot3, Real.sqrt_le_left (by positivity)]; simp; nlinarith [pi_gt_three]

/-! ### C108: the specification -/

/-- The logarithm of a unit quaternion (angle in [0, π)): the rotation vector whose exponential it is. -/
noncomputable def logQ (q : Quaternion ℝ) : Fin 3 → ℝ :=
  fun i => arccos q.re / sin (arccos q.re) * ![q.imI, q.imJ, q.imK] i
/-- Shoemake's control point for the quaternion `q` between its neighbours `p` and `r`; products in the order of the API
(XMQuaternionMultiply a b is b * a). -/
noncomputable def squadPoint (p q r : Quaternion ℝ) : Quaternion ℝ :=
  NormedSpace.exp (pureQ (-(1/4 : ℝ) • (logQ (p * q⁻¹) + logQ (r * q⁻¹)))) * q

theorem len_logQ (q : Quaternion ℝ) (hq : Quaternion.normSq q = 1) (h : -1 < q.re) : len (logQ q) = arccos q.re := by
  have h4 := hq
  rw [normSq4] at h4
  have hr : q.re ≤ 1 := by nlinarith [sq_nonneg q.imI, sq_nonneg q.imJ, sq_nonneg q.imK]
  have hs : sin (arccos q.re) ^ 2 = q.imI^2 + q.imJ^2 + q.imK^2 := by
    rw [sin_arccos, Real.sq_sqrt (by nlinarith)]; linarith
  have hk0 : 0 ≤ arccos q.re := arccos_nonneg _
  by_cases h0 : arccos q.re = 0
  · rw [h0, len, dot3]; simp [logQ, h0]
  · have hlt : arccos q.re < π := by
      rcases (arccos_le_pi q.re).lt_or_eq with h1 | h1
      · exact h1
      · rw [arccos_eq_pi] at h1; linarith
    have hsp : 0 < sin (arccos q.re) := sin_pos_of_pos_of_lt_pi (lt_of_le_of_ne hk0 (Ne.symm h0)) hlt
    rw [← Real.sqrt_sq hk0, len, dot3]
    congr 1
    simp only [logQ]
    simp
    have hn : sin (arccos q.re) ≠ 0 := hsp.ne'
    generalize sin (arccos q.re) = S at *
    field_simp
    linear_combination -hs

/-- The specification is what the words say: the exponential of `logQ q` is `q`. -/
theorem exp_logQ (q : Quaternion ℝ) (hq : Quaternion.normSq q = 1) (h : -1 < q.re) : NormedSpace.exp (pureQ (logQ q)) = q := by
  have h4 := hq
  rw [normSq4] at h4
  have hr : q.re ≤ 1 := by nlinarith [sq_nonneg q.imI, sq_nonneg q.imJ, sq_nonneg q.imK]
  have hs : sin (arccos q.re) ^ 2 = q.imI^2 + q.imJ^2 + q.imK^2 := by
    rw [sin_arccos, Real.sq_sqrt (by nlinarith)]; linarith
  have hk0 : 0 ≤ arccos q.re := arccos_nonneg _
  rw [exp_pureQ, len_logQ q hq h, cos_arccos h.le hr]
  by_cases h0 : arccos q.re = 0
  · rw [h0, sin_zero] at hs
    have e1 : q.imI = 0 := by nlinarith [sq_nonneg q.imI, sq_nonneg q.imJ, sq_nonneg q.imK]
    have e2 : q.imJ = 0 := by nlinarith [sq_nonneg q.imI, sq_nonneg q.imJ, sq_nonneg q.imK]
    have e3 : q.imK = 0 := by nlinarith [sq_nonneg q.imI, sq_nonneg q.imJ, sq_nonneg q.imK]
    ext <;> simp [logQ, h0, e1, e2, e3]
  · have hlt : arccos q.re < π := by
      rcases (arccos_le_pi q.re).lt_or_eq with h1 | h1
      · exact h1
      · rw [arccos_eq_pi] at h1; linarith
    have hsp : sin (arccos q.re) ≠ 0 := (sin_pos_of_pos_of_lt_pi (lt_of_le_of_ne hk0 (Ne.symm h0)) hlt).ne'
    ext <;> simp [logQ] <;> field_simp

/-! ### The proof -/

/-- The exponential does not increase distances. -/
theorem exp_chord (v w : Fin 3 → ℝ) :
    Quaternion.normSq (NormedSpace.exp (pureQ v) - NormedSpace.exp (pureQ w)) ≤ (v 0 - w 0)^2 + (v 1 - w 1)^2 + (v 2 - w 2)^2 := by
  rw [exp_pureQ, exp_pureQ, normSq4]
  have hv := len_sq3 v; have hw := len_sq3 w
  have hv0 : 0 ≤ len v := Real.sqrt_nonneg _
  have hw0 : 0 ≤ len w := Real.sqrt_nonneg _
  have p1 := sin_sq_add_cos_sq (len v); have p2 := sin_sq_add_cos_sq (len w)
  have sa : sin (len v) / len v * len v = sin (len v) := by
    by_cases h : len v = 0
    · rw [h]; simp
    · field_simp
  have sb : sin (len w) / len w * len w = sin (len w) := by
    by_cases h : len w = 0
    · rw [h]; simp
    · field_simp
  have ca : |sin (len v) / len v| ≤ 1 := by
    by_cases h : len v = 0
    · rw [h]; simp
    · rw [abs_div, div_le_one (abs_pos.2 h)]; simpa using sin_lip (len v) 0
  have cb : |sin (len w) / len w| ≤ 1 := by
    by_cases h : len w = 0
    · rw [h]; simp
    · rw [abs_div, div_le_one (abs_pos.2 h)]; simpa using sin_lip (len w) 0
  have cd := Real.one_sub_sq_div_two_le_cos (x := len v - len w)
  rw [cos_sub] at cd
  have hab : |sin (len v) / len v * (sin (len w) / len w)| ≤ 1 := by rw [abs_mul]; exact mul_le_one₀ ca (abs_nonneg _) cb
  set A := sin (len v) / len v
  set B := sin (len w) / len w
  have hCS : v 0 * w 0 + v 1 * w 1 + v 2 * w 2 ≤ len v * len w := by
    refine Trig.le_of_sq_le_sq ?_ (by positivity)
    rw [mul_pow, hv, hw]
    nlinarith [sq_nonneg (v 0 * w 1 - v 1 * w 0), sq_nonneg (v 0 * w 2 - v 2 * w 0), sq_nonneg (v 1 * w 2 - v 2 * w 1)]
  have hk : A * B * (len v * len w - (v 0 * w 0 + v 1 * w 1 + v 2 * w 2)) ≤ 1 * (len v * len w - (v 0 * w 0 + v 1 * w 1 + v 2 * w 2)) :=
    mul_le_mul_of_nonneg_right (abs_le.1 hab).2 (by linarith)
  simp only [Quaternion.re_sub, Quaternion.imI_sub, Quaternion.imJ_sub, Quaternion.imK_sub, mkQ_re, mkQ_imI, mkQ_imJ, mkQ_imK]
  have e : (cos (len v) - cos (len w))^2 + (A * v 0 - B * w 0)^2 + (A * v 1 - B * w 1)^2 + (A * v 2 - B * w 2)^2 =
      2 - 2 * (cos (len v) * cos (len w) + sin (len v) * sin (len w)) + 2 * (A * B * (len v * len w - (v 0 * w 0 + v 1 * w 1 + v 2 * w 2))) := by
    have : A^2 * len v^2 = sin (len v)^2 := by rw [← mul_pow, sa]
    have : B^2 * len w^2 = sin (len w)^2 := by rw [← mul_pow, sb]
    have h3 : A * len v * (B * len w) = sin (len v) * sin (len w) := by rw [sa, sb]
    rw [hv] at *
    rw [hw] at *
    nlinarith
  rw [e]
  nlinarith

theorem QClose.mul_right {p p' q : Quaternion ℝ} {e : ℝ} (h : QClose p p' e) (hq : Quaternion.normSq q = 1) : QClose (p * q) (p' * q) (2 * e) := by
  obtain ⟨h1, h2, h3, h4⟩ := h
  rw [normSq4] at hq
  have he : 0 ≤ e := (abs_nonneg _).trans h1
  have hsum : |q.re| + |q.imI| + |q.imJ| + |q.imK| ≤ 2 := by
    have a1 := sq_abs q.re; have a2 := sq_abs q.imI; have a3 := sq_abs q.imJ; have a4 := sq_abs q.imK
    refine Trig.le_of_sq_le_sq ?_ (by norm_num)
    nlinarith [sq_nonneg (|q.re| - |q.imI|), sq_nonneg (|q.re| - |q.imJ|), sq_nonneg (|q.re| - |q.imK|), sq_nonneg (|q.imI| - |q.imJ|),
      sq_nonneg (|q.imI| - |q.imK|), sq_nonneg (|q.imJ| - |q.imK|)]
  have key : ∀ a b c d x y z w s : ℝ, |a| ≤ e → |b| ≤ e → |c| ≤ e → |d| ≤ e → |x| + |y| + |z| + |w| ≤ 2 → s = a * x + b * y + c * z + d * w → |s| ≤ 2 * e := by
    intro a b c d x y z w s ha hb hc hd hs e0
    rw [e0]
    have t1 := abs_add_le (a * x + b * y + c * z) (d * w)
    have t2 := abs_add_le (a * x + b * y) (c * z)
    have t3 := abs_add_le (a * x) (b * y)
    rw [abs_mul a x, abs_mul b y] at t3
    rw [abs_mul c z] at t2
    rw [abs_mul d w] at t1
    have := mul_le_mul_of_nonneg_right ha (abs_nonneg x); have := mul_le_mul_of_nonneg_right hb (abs_nonneg y)
    have := mul_le_mul_of_nonneg_right hc (abs_nonneg z); have := mul_le_mul_of_nonneg_right hd (abs_nonneg w)
    nlinarith
  refine ⟨?_, ?_, ?_, ?_⟩
  · exact key (p.re - p'.re) (p.imI - p'.imI) (p.imJ - p'.imJ) (p.imK - p'.imK) q.imI q.re q.imK (-q.imJ) _ h4 h1 h2 h3 (by rw [abs_neg]; linarith) (by simp; ring)
  · exact key (p.re - p'.re) (p.imI - p'.imI) (p.imJ - p'.imJ) (p.imK - p'.imK) q.imJ (-q.imK) q.re q.imI _ h4 h1 h2 h3 (by rw [abs_neg]; linarith) (by simp; ring)
  · exact key (p.re - p'.re) (p.imI - p'.imI) (p.imJ - p'.imJ) (p.imK - p'.imK) q.imK q.imJ (-q.imI) q.re _ h4 h1 h2 h3 (by rw [abs_neg]; linarith) (by simp; ring)
  · exact key (p.re - p'.re) (p.imI - p'.imI) (p.imJ - p'.imJ) (p.imK - p'.imK) q.re (-q.imI) (-q.imJ) (-q.imK) _ h4 h1 h2 h3 (by rw [abs_neg, abs_neg, abs_neg]; linarith) (by simp; ring)

theorem squad_sel (c : Cfg) (p q r : Quaternion ℝ) :
    XMVectorSelect (quat r) (XMVectorNegate c (quat r)) (XMVectorLess (XMQuaternionLengthSq c (XMVectorAdd (quat p) (quat q)))
      (XMQuaternionLengthSq c (XMVectorSubtract (quat p) (quat q)))) = quat (arcSign p q • r) := by
  have h1 : XMVectorAdd (quat p) (quat q) = quat (p + q) := by simp [quat]
  have h2 : XMVectorSubtract (quat p) (quat q) = quat (p - q) := by simp [quat]
  have h3 : (Quaternion.normSq (p + q) < Quaternion.normSq (p - q)) = (qdot p q < 0) := by
    rw [normSq4, normSq4, qdot4]; simp only [Quaternion.re_sub, Quaternion.imI_sub, Quaternion.imJ_sub, Quaternion.imK_sub, Quaternion.re_add, Quaternion.imI_add, Quaternion.imJ_add, Quaternion.imK_add]
    apply propext; constructor <;> intro h <;> nlinarith
  rw [h1, h2, (C55_norm c _ 0).1, (C55_norm c _ 0).1]
  unfold arcSign
  by_cases h : qdot p q < 0
  · rw [if_pos h]; rw [← h3] at h; simp [h]
  · rw [if_neg h]; rw [← h3] at h; simp [h]

theorem qdot_sign (p q : Quaternion ℝ) : 0 ≤ qdot p (arcSign p q • q) ∧ 0 ≤ qdot (arcSign p q • p) q := by
  unfold arcSign
  constructor <;> split_ifs with h <;> rw [qdot4] at * <;> simp <;> linarith
theorem sign_unit (p q r : Quaternion ℝ) (h : Quaternion.normSq r = 1) : Quaternion.normSq (arcSign p q • r) = 1 := by
  unfold arcSign; rw [normSq4] at *; split_ifs <;> simp <;> linarith

theorem ln_step (c : Cfg) (p q : Quaternion ℝ) (hp : Quaternion.normSq p = 1) (hq : Quaternion.normSq q = 1) (h : 0 ≤ qdot p q) :
    len (logQ (p * q⁻¹)) ≤ π/2 ∧
    ∃ r, XMQuaternionLn c (XMQuaternionMultiply c (XMQuaternionInverse c (quat q)) (quat p)) = vec3 r (num 0) ∧ ∀ i, |r i - logQ (p * q⁻¹) i| ≤ 2/10^6 := by
  have hu : Quaternion.normSq (p * q⁻¹) = 1 := by rw [map_mul, map_inv₀, hp, hq]; norm_num
  have hre : (p * q⁻¹).re = qdot p q := by
    have : q⁻¹ = star q := by
      have e : q⁻¹ = (Quaternion.normSq q)⁻¹ • star q := rfl
      rw [e, hq, inv_one, one_smul]
    rw [this, qdot]
  have hl : len (logQ (p * q⁻¹)) ≤ π/2 := by
    rw [len_logQ _ hu (by rw [hre]; linarith), arccos_le_pi_div_two, hre]; exact h
  refine ⟨hl, ?_⟩
  have hL := C58_ln_acute c (logQ (p * q⁻¹)) hl
  rw [exp_logQ _ hu (by rw [hre]; linarith)] at hL
  rwa [C56_inverse, if_neg (by rw [hq]; norm_num), C55_hamilton]

theorem exp_step (c : Cfg) (u v r s : Fin 3 → ℝ) (hu : len u ≤ π/2) (hv : len v ≤ π/2) (h1 : ∀ i, |r i - u i| ≤ 2/10^6) (h2 : ∀ i, |s i - v i| ≤ 2/10^6) :
    ∃ a, XMQuaternionExp c (XMVectorMultiply (XMVectorAdd (vec3 r (num 0)) (vec3 s (num 0))) (all (-(1/4)))) = quat a ∧
      QClose a (NormedSpace.exp (pureQ (-(1/4 : ℝ) • (u + v)))) (25/10^7) := by
  set z : Fin 3 → ℝ := -(1/4 : ℝ) • (r + s) with hz
  set w : Fin 3 → ℝ := -(1/4 : ℝ) • (u + v) with hw
  have ez : XMVectorMultiply (XMVectorAdd (vec3 r (num 0)) (vec3 s (num 0))) (all (-(1/4))) = vec3 z (num 0) := by
    simp [vec3, all, hz]; refine ⟨?_, ?_, ?_⟩ <;> ring
  have hd : ∀ i, |z i - w i| ≤ 1/10^6 := by
    intro i
    have e : z i - w i = -(1/4) * ((r i - u i) + (s i - v i)) := by simp [hz, hw]; ring
    rw [e, abs_mul]
    have := abs_add_le (r i - u i) (s i - v i)
    have := h1 i; have := h2 i
    rw [abs_neg, abs_of_pos (by norm_num : (0:ℝ) < 1/4)]
    norm_num at *; linarith
  have hpi := pi_lt_d2
  have hub : ∀ i, |z i| ≤ 1 := by
    intro i
    have h := hd i
    have e : w i = -(1/4) * (u i + v i) := by simp [hw]; ring
    have := comp_le_len u i; have := comp_le_len v i
    have := abs_add_le (u i) (v i)
    have e2 : |w i| ≤ 79/100 := by
      rw [e, abs_mul, abs_neg, abs_of_pos (by norm_num : (0:ℝ) < 1/4)]; norm_num at *; linarith
    have := abs_sub_abs_le_abs_sub (z i) (w i)
    norm_num at *; linarith
  have hlz : len z ≤ 2 := by
    refine Trig.le_of_sq_le_sq ?_ (by norm_num)
    rw [len_sq3]
    have := sq_le_one_iff_abs_le_one (z 0) |>.2 (hub 0); have := sq_le_one_iff_abs_le_one (z 1) |>.2 (hub 1); have := sq_le_one_iff_abs_le_one (z 2) |>.2 (hub 2)
    linarith
  obtain ⟨a, e1, e2⟩ := C58_exp c z (num 0) (hlz.trans (by norm_num))
  refine ⟨a, by rw [ez, e1], ?_⟩
  have hch := exp_chord z w
  have hb : Quaternion.normSq (NormedSpace.exp (pureQ z) - NormedSpace.exp (pureQ w)) ≤ (18/10^7)^2 := by
    refine hch.trans ?_
    have k : ∀ i, (z i - w i)^2 ≤ (1/10^6)^2 := fun i => by rw [← sq_abs]; exact pow_le_pow_left₀ (abs_nonneg _) (hd i) 2
    have := k 0; have := k 1; have := k 2
    norm_num at *; linarith
  rw [normSq4] at hb
  simp only [Quaternion.re_sub, Quaternion.imI_sub, Quaternion.imJ_sub, Quaternion.imK_sub] at hb
  have n1 := sq_nonneg ((NormedSpace.exp (pureQ z)).re - (NormedSpace.exp (pureQ w)).re)
  have n2 := sq_nonneg ((NormedSpace.exp (pureQ z)).imI - (NormedSpace.exp (pureQ w)).imI)
  have n3 := sq_nonneg ((NormedSpace.exp (pureQ z)).imJ - (NormedSpace.exp (pureQ w)).imJ)
  have n4 := sq_nonneg ((NormedSpace.exp (pureQ z)).imK - (NormedSpace.exp (pureQ w)).imK)
  have m : ∀ x : ℝ, x^2 ≤ (18/10^7)^2 → |x| ≤ 18/10^7 := fun x h => abs_le_of_sq_le_sq h (by norm_num)
  have m1 := m _ (show ((NormedSpace.exp (pureQ z)).re - (NormedSpace.exp (pureQ w)).re)^2 ≤ _ by linarith)
  have m2 := m _ (show ((NormedSpace.exp (pureQ z)).imI - (NormedSpace.exp (pureQ w)).imI)^2 ≤ _ by linarith)
  have m3 := m _ (show ((NormedSpace.exp (pureQ z)).imJ - (NormedSpace.exp (pureQ w)).imJ)^2 ≤ _ by linarith)
  have m4 := m _ (show ((NormedSpace.exp (pureQ z)).imK - (NormedSpace.exp (pureQ w)).imK)^2 ≤ _ by linarith)
  obtain ⟨b1, b2, b3, b4⟩ := e2
  have tri : ∀ x y t : ℝ, |x - y| ≤ 3/10^7 + 29/10^9 * len z → |y - t| ≤ 18/10^7 → |x - t| ≤ 25/10^7 := by
    intro x y t h1 h2
    have := abs_sub_le x y t
    norm_num at *; linarith
  exact ⟨tri _ _ _ b1 m2, tri _ _ _ b2 m3, tri _ _ _ b3 m4, tri _ _ _ b4 m1⟩

theorem quarter (c : Cfg) (hc : c.sse = true) : (XMVectorSplatConstant c (-1) 2 : V4 E) = all (-(1/4)) := by
  have hb : (Lane.ofBits (BitVec.ofInt 32 (-1)) : E) = ones := by
    show E.ofBits _ = _
    simp [E.ofBits]
  have h3 : (Lane.i2f ones : E) = num (-1) := rfl
  unfold XMVectorSplatConstant
  rw [if_pos hc, hb, h3]
  have hq : (Lane.ofBits 0x3E800000#32 : E) = num (1/4) := by
    show E.ofBits _ = _
    simp [E.ofBits, E.valQ]; norm_num
  have e : (0x3F800000#32 - BitVec.ofNat 32 (2 * 2^23)) = 0x3E800000#32 := by decide
  rw [e, hq]
  simp [all]

/-- C108 (partial: the SSE builds): the third result is Q2 with its sign chosen so that it lies on the same hemisphere as Q1; the first
two are Shoemake's control points for Q1 and that Q2, with the neighbours' signs chosen likewise, within 5e-6. -/
theorem C108_squadSetup_partial (c : Cfg) (hc : c.sse = true) (q0 q1 q2 q3 : Quaternion ℝ) (h0 : Quaternion.normSq q0 = 1) (h1 : Quaternion.normSq q1 = 1)
    (h2 : Quaternion.normSq q2 = 1) (h3 : Quaternion.normSq q3 = 1) :
    ∃ a b : Quaternion ℝ, XMQuaternionSquadSetup c (quat q0) (quat q1) (quat q2) (quat q3) = (quat a, quat b, quat (arcSign q1 q2 • q2)) ∧
      QClose a (squadPoint (arcSign q0 q1 • q0) q1 (arcSign q1 q2 • q2)) (5/10^6) ∧
      QClose b (squadPoint q1 (arcSign q1 q2 • q2) (arcSign (arcSign q1 q2 • q2) q3 • q3)) (5/10^6) := by
  have u0 := sign_unit q0 q1 q0 h0
  have u2 := sign_unit q1 q2 q2 h2
  have u3 := sign_unit (arcSign q1 q2 • q2) q3 q3 h3
  have comm : ∀ p q : Quaternion ℝ, qdot p q = qdot q p := fun p q => by rw [qdot4, qdot4]; ring
  set s0 := arcSign q0 q1 • q0
  set s2 := arcSign q1 q2 • q2 with hs2
  set s3 := arcSign s2 q3 • q3 with hs3
  obtain ⟨l0, r0, e0, b0⟩ := ln_step c s0 q1 u0 h1 (qdot_sign q0 q1).2
  obtain ⟨l2, r2, e2, b2⟩ := ln_step c s2 q1 u2 h1 (by rw [comm]; exact (qdot_sign q1 q2).1)
  obtain ⟨l1, r1, e1, b1⟩ := ln_step c q1 s2 h1 u2 (qdot_sign q1 q2).1
  obtain ⟨l3, r3, e3, b3⟩ := ln_step c s3 s2 u3 u2 (by rw [comm]; exact (qdot_sign s2 q3).1)
  obtain ⟨a, f1, g1⟩ := exp_step c _ _ _ _ l0 l2 b0 b2
  obtain ⟨b, f2, g2⟩ := exp_step c _ _ _ _ l1 l3 b1 b3
  refine ⟨a * q1, b * s2, ?_, ?_, ?_⟩
  · unfold XMQuaternionSquadSetup
    simp only [squad_sel, quarter c hc]
    rw [← hs2]
    rw [← hs3, e0, e1, e2, e3, f1, f2, C55_hamilton, C55_hamilton]
  · have := QClose.mul_right g1 h1; rwa [show (2 * (25/10^7) : ℝ) = 5/10^6 by norm_num] at this
  · have := QClose.mul_right g2 u2; rwa [show (2 * (25/10^7) : ℝ) = 5/10^6 by norm_num] at this

/-- The hypotheses of C108 on four unit quaternions; the second is more than a quarter turn from the first. -/
example : Quaternion.normSq (mkQ 1 0 0 0) = 1 ∧ Quaternion.normSq (mkQ (-(3/5)) (4/5) 0 0) = 1 ∧ Quaternion.normSq (mkQ (1/2) (1/2) (-(1/2)) (1/2)) = 1 ∧
    Quaternion.normSq (mkQ 0 0 (3/5) (4/5)) = 1 ∧ arcSign (mkQ 1 0 0 0) (mkQ (-(3/5)) (4/5) 0 0) = -1 := by
  refine ⟨?_, ?_, ?_, ?_, ?_⟩ <;> first | (rw [normSq4]; norm_num) | (unfold arcSign; rw [qdot4]; norm_num)

end DXM.Props
