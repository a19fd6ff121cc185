import Mathlib.Analysis.Normed.Algebra.QuaternionExponential
import Verif.Lemmas.Slerp
import Verif.Props.Vector

/-
C57, C58, C60: spherical interpolation, exponential/logarithm, squad and barycentric interpolation of quaternions.
Exact-real lanes; the trigonometric functions are the code's own polynomials in the SSE builds (error of the method included) and
the standard library's (read as exact) in the no-intrinsics build.
-/

set_option linter.all false

namespace DXM.Props
open DXM.E DXM.Spec DXM.Trig Matrix Real

/-! ### The specification: the point at fraction `t` of the great arc from `p` to `q`. -/

/-- The angle between two unit quaternions. -/
noncomputable def angleQ (p q : Quaternion ℝ) : ℝ := arccos (qdot p q)
/-- The point at fraction `t` on the great arc. -/
noncomputable def arcQ (p q : Quaternion ℝ) (t : ℝ) : Quaternion ℝ :=
  if angleQ p q = 0 then p else (sin ((1 - t) * angleQ p q) / sin (angleQ p q)) • p + (sin (t * angleQ p q) / sin (angleQ p q)) • q

theorem qdot_le_one (p q : Quaternion ℝ) (hp : Quaternion.normSq p = 1) (hq : Quaternion.normSq q = 1) : |qdot p q| ≤ 1 := by
  rw [normSq4] at hp hq
  rw [qdot4, abs_le]
  constructor
  · nlinarith [sq_nonneg (p.re + q.re), sq_nonneg (p.imI + q.imI), sq_nonneg (p.imJ + q.imJ), sq_nonneg (p.imK + q.imK)]
  · nlinarith [sq_nonneg (p.re - q.re), sq_nonneg (p.imI - q.imI), sq_nonneg (p.imJ - q.imJ), sq_nonneg (p.imK - q.imK)]

/-- The specification is what the words say: the arc starts at `p`, ends at `q`, stays on the unit sphere and
its point at fraction `t` makes the angle `t Ω` with `p`. -/
theorem arcQ_spec (p q : Quaternion ℝ) (hp : Quaternion.normSq p = 1) (hq : Quaternion.normSq q = 1) (h : |qdot p q| < 1) (t : ℝ) :
    arcQ p q 0 = p ∧ arcQ p q 1 = q ∧ Quaternion.normSq (arcQ p q t) = 1 ∧ qdot p (arcQ p q t) = cos (t * angleQ p q) := by
  obtain ⟨h1, h2⟩ := abs_lt.1 h
  have hO : angleQ p q ≠ 0 := by
    unfold angleQ; intro h0; rw [arccos_eq_zero] at h0; linarith
  have hs : sin (angleQ p q) ≠ 0 := by
    unfold angleQ; rw [sin_arccos]; exact (Real.sqrt_pos.2 (by nlinarith)).ne'
  have hc : cos (angleQ p q) = qdot p q := cos_arccos h1.le h2.le
  have hsc := sin_sq_add_cos_sq (angleQ p q)
  have hst := sin_sq_add_cos_sq (t * angleQ p q)
  have e1 : sin ((1 - t) * angleQ p q) = sin (angleQ p q) * cos (t * angleQ p q) - cos (angleQ p q) * sin (t * angleQ p q) := by
    rw [← sin_sub]; congr 1; ring
  refine ⟨?_, ?_, ?_, ?_⟩
  · simp [arcQ, hO, hs]
  · simp [arcQ, hO, hs]
  · rw [arcQ, if_neg hO, normSq4]
    rw [normSq4] at hp hq
    rw [hc] at e1 hsc
    rw [qdot4] at e1 hsc
    simp only [e1]
    generalize sin (angleQ p q) = S at *
    generalize sin (t * angleQ p q) = u at *
    generalize cos (t * angleQ p q) = v at *
    simp
    field_simp
    clear hc e1 h h1 h2 hO
    grind
  · rw [arcQ, if_neg hO, qdot4]
    rw [normSq4] at hp
    rw [hc, qdot4] at e1
    simp only [e1]
    generalize sin (angleQ p q) = S at *
    generalize sin (t * angleQ p q) = u at *
    generalize cos (t * angleQ p q) = v at *
    simp
    field_simp
    clear hc e1 h h1 h2 hO hsc hst
    grind

theorem sin_ratio (x : ℝ) (h0 : 0 < x) (h1 : nearOne ≤ cos x) (hx : x ≤ π/2) (s : ℝ) (hs : 0 ≤ s ∧ s ≤ 1) : |s - sin (s * x) / sin x| ≤ 15/10^6 := by
  have hq := Real.cos_le_one_sub_mul_cos_sq (x := x) (by rw [abs_of_pos h0]; linarith [pi_pos])
  have hpi := pi_lt_d2
  have hpi3 := pi_gt_three
  have hx2 : x^2 ≤ 5/10^5 := by
    have : 2 / π^2 * x^2 ≤ 2748779 / 274877906944 := by unfold nearOne at h1; linarith
    rw [div_mul_eq_mul_div, div_le_iff₀ (by positivity)] at this
    nlinarith
  have hx1 : x ≤ 1 := by nlinarith
  have hs1 := Real.sin_gt_sub_cube h0
  have hsx : sin (s * x) ≤ s * x := sin_le (by nlinarith)
  have hpos : 0 < sin x := sin_pos_of_pos_of_lt_pi h0 (by linarith)
  have hlow : s * sin x ≤ sin (s * x) := by
    have := (strictConcaveOn_sin_Icc.concaveOn).2 (show (0:ℝ) ∈ Set.Icc 0 π from ⟨le_rfl, by linarith⟩) (show x ∈ Set.Icc 0 π from ⟨h0.le, by linarith⟩)
      (show 0 ≤ 1 - s by linarith) hs.1 (by ring)
    simpa using this
  rw [abs_le]
  have e1 : s ≤ sin (s * x) / sin x := (le_div_iff₀ hpos).2 hlow
  have e2 : sin (s * x) / sin x ≤ s + 15/10^6 := by
    rw [div_le_iff₀ hpos]
    nlinarith [mul_nonneg hs.1 h0.le]
  constructor <;> linarith

/-- The error allowed to the code: the polynomials' absolute error relative to the sine of the angle, or, when the
quaternions are closer than the switch-over threshold, that of linear interpolation. -/
noncomputable def slerpErr (d : ℝ) : ℝ := if |d| < nearOne then 16/10^7 / √(1 - d^2) else 3/10^5

theorem comp_le_one (p : Quaternion ℝ) (hp : Quaternion.normSq p = 1) : |p.re| ≤ 1 ∧ |p.imI| ≤ 1 ∧ |p.imJ| ≤ 1 ∧ |p.imK| ≤ 1 := by
  rw [normSq4] at hp
  have := sq_nonneg p.re; have := sq_nonneg p.imI; have := sq_nonneg p.imJ; have := sq_nonneg p.imK
  refine ⟨?_, ?_, ?_, ?_⟩ <;> rw [← sq_le_one_iff_abs_le_one] <;> linarith

theorem comb_close (a b a' b' x y e : ℝ) (hx : |x| ≤ 1) (hy : |y| ≤ 1) (h1 : |a - a'| ≤ e) (h2 : |b - b'| ≤ e) :
    |(a * x + b * y) - (a' * x + b' * y)| ≤ 2 * e := by
  rw [show (a * x + b * y) - (a' * x + b' * y) = (a - a') * x + (b - b') * y by ring]
  refine (abs_add_le _ _).trans ?_
  rw [abs_mul, abs_mul]
  nlinarith [abs_nonneg (a - a'), abs_nonneg (b - b'), abs_nonneg x, abs_nonneg y]

theorem QClose_comb (p q : Quaternion ℝ) (hp : Quaternion.normSq p = 1) (hq : Quaternion.normSq q = 1) (a b a' b' e e2 : ℝ) 
    (h1 : |a - a'| ≤ e) (h2 : |b - b'| ≤ e) (he : 2 * e = e2) : QClose (a • p + b • q) (a' • p + b' • q) e2 := by
  subst he
  obtain ⟨p1, p2, p3, p4⟩ := comp_le_one p hp
  obtain ⟨q1, q2, q3, q4⟩ := comp_le_one q hq
  refine ⟨?_, ?_, ?_, ?_⟩ <;> simp <;> apply comb_close <;> assumption

/-! ### C57 -/

/-- C57: for unit quaternions and `t` in [0,1] the result is the point at fraction `t` of the shorter great arc (from `p` to
`q` or to `-q`), to within `slerpErr`; the vector and the scalar form agree. -/
theorem C57_slerp (c : Cfg) (p q : Quaternion ℝ) (hp : Quaternion.normSq p = 1) (hq : Quaternion.normSq q = 1) (t : ℝ) (h0 : 0 ≤ t) (h1 : t ≤ 1) :
    ∃ r, XMQuaternionSlerp c (quat p) (quat q) (num t) = quat r ∧ XMQuaternionSlerpV c (quat p) (quat q) (all t) = quat r ∧
      QClose r (arcQ p (arcSign p q • q) t) (slerpErr (qdot p q)) := by
  have hsgn : arcSign p q = 1 ∨ arcSign p q = -1 := by unfold arcSign; split_ifs <;> simp
  have hd : qdot p (arcSign p q • q) = |qdot p q| := by
    have : qdot p (arcSign p q • q) = arcSign p q * qdot p q := by simp [qdot4]; ring
    rw [this, arcSign]; split_ifs with h
    · rw [abs_of_neg h]; ring
    · rw [abs_of_nonneg (not_lt.1 h)]; ring
  have hq' : Quaternion.normSq (arcSign p q • q) = 1 := by
    rw [normSq4] at hq ⊢; simp; rcases hsgn with h | h <;> rw [h] <;> linarith
  have hab := qdot_le_one p q hp hq
  refine exists_congr (fun r => ?_) |>.1 (?_ : ∃ r, XMQuaternionSlerpV c (quat p) (quat q) (all t) = quat r ∧ 
      QClose r (arcQ p (arcSign p q • q) t) (slerpErr (qdot p q)))
  · have : XMQuaternionSlerp c (quat p) (quat q) (num t) = XMQuaternionSlerpV c (quat p) (quat q) (all t) := rfl
    rw [this]; tauto
  by_cases h : |qdot p q| < nearOne
  · obtain ⟨s0, s1, e, b0, b1, -, -⟩ := slerp_arc c p q t ⟨h0, h1⟩ h
    refine ⟨_, e, ?_⟩
    have hlt : |qdot p q| < 1 := h.trans (by unfold nearOne; norm_num)
    have hO : angleQ p (arcSign p q • q) = arccos (|qdot p q|) := by rw [angleQ, hd]
    have hO0 : arccos (|qdot p q|) ≠ 0 := by intro h0; rw [arccos_eq_zero] at h0; linarith
    have hS : sin (arccos (|qdot p q|)) = √(1 - qdot p q ^ 2) := by rw [sin_arccos, sq_abs]
    have hpos : 0 < √(1 - qdot p q ^ 2) := Real.sqrt_pos.2 (by have := (sq_lt_one_iff_abs_lt_one (qdot p q)).2 hlt; linarith)
    rw [arcQ, hO, if_neg hO0, hS, slerpErr, if_pos h, mul_comm (arcSign p q), ← smul_smul _ (arcSign p q) q]
    refine QClose_comb p _ hp hq' _ _ _ _ (8/10^7 / √(1 - qdot p q ^ 2)) _ ?_ ?_ (by ring)
    · rw [← sub_div, abs_div, abs_of_pos hpos]; gcongr
    · rw [← sub_div, abs_div, abs_of_pos hpos]; gcongr
  · rw [not_lt] at h
    refine ⟨_, slerp_linear c p q t h, ?_⟩
    rw [slerpErr, if_neg (not_lt.2 h), arcQ, angleQ, hd, mul_comm (arcSign p q), ← smul_smul _ (arcSign p q) q]
    split_ifs with hz
    · have h1' : |qdot p q| = 1 := le_antisymm hab (by rwa [arccos_eq_zero] at hz)
      have hpq : arcSign p q • q = p := by
        rw [h1'] at hd
        rw [normSq4] at hp hq'
        rw [qdot4] at hd
        generalize arcSign p q • q = z at *
        have : (p.re - z.re)^2 + (p.imI - z.imI)^2 + (p.imJ - z.imJ)^2 + (p.imK - z.imK)^2 = 0 := by nlinarith
        have := sq_nonneg (p.re - z.re); have := sq_nonneg (p.imI - z.imI); have := sq_nonneg (p.imJ - z.imJ); have := sq_nonneg (p.imK - z.imK)
        have e1 : p.re - z.re = 0 := by apply pow_eq_zero_iff (two_ne_zero) |>.1; linarith
        have e2 : p.imI - z.imI = 0 := by apply pow_eq_zero_iff (two_ne_zero) |>.1; linarith
        have e3 : p.imJ - z.imJ = 0 := by apply pow_eq_zero_iff (two_ne_zero) |>.1; linarith
        have e4 : p.imK - z.imK = 0 := by apply pow_eq_zero_iff (two_ne_zero) |>.1; linarith
        ext <;> linarith
      rw [hpq]
      refine ⟨?_, ?_, ?_, ?_⟩ <;> simp <;> ring_nf <;> norm_num
    · have hx0 : 0 < arccos (|qdot p q|) := lt_of_le_of_ne (arccos_nonneg _) (Ne.symm hz)
      have hx1 : arccos (|qdot p q|) ≤ π/2 := arccos_le_pi_div_two.2 (abs_nonneg _)
      have hcos : cos (arccos (|qdot p q|)) = |qdot p q| := cos_arccos (by linarith [abs_nonneg (qdot p q)]) hab
      refine QClose_comb p _ hp hq' _ _ _ _ (15/10^6) _ ?_ ?_ (by norm_num)
      · exact sin_ratio _ hx0 (by rw [hcos]; exact h) hx1 (1 - t) ⟨by linarith, by linarith⟩
      · exact sin_ratio _ hx0 (by rw [hcos]; exact h) hx1 t ⟨by linarith, by linarith⟩

/-- C57: the error never exceeds 4/10^4. -/
theorem C57_error (d : ℝ) (hd : |d| ≤ 1) : slerpErr d ≤ 4/10^4 := by
  unfold slerpErr
  split_ifs with h
  · rw [div_le_iff₀ (Real.sqrt_pos.2 ?_)]
    · have : (4/10^3 : ℝ) ≤ √(1 - d^2) := by
        apply Real.le_sqrt_of_sq_le
        unfold nearOne at h
        rw [← sq_abs d]; nlinarith [abs_nonneg d]
      nlinarith
    · have := (sq_lt_one_iff_abs_lt_one d).2 (h.trans (by unfold nearOne; norm_num)); linarith
  · norm_num

example : 0 < len ![1, 2, 2] ∧ len ![0, 1, 0] < π ∧ -nearOne ≤ cos (len ![0, 1, 0]) := by
  have h : len ![0, 1, 0] = 1 := by rw [len, dot3]; simp
  refine ⟨?_, ?_, ?_⟩
  · rw [len, dot3]; simp; norm_num
  · rw [h]; linarith [pi_gt_three]
  · rw [h]; have := cos_one_pos; unfold nearOne; norm_num; linarith
example : Quaternion.normSq (mkQ 1 0 0 0) = 1 ∧ Quaternion.normSq (mkQ 0 1 0 0) = 1 ∧ |qdot (mkQ 1 0 0 0) (mkQ 0 1 0 0)| < 1 := by
  simp [normSq4, qdot4]


/-! ### C60 -/

theorem slerp_zero (c : Cfg) (p q : Quaternion ℝ) : ∃ s : ℝ, |s - 1| ≤ 2/10^4 ∧ XMQuaternionSlerpV c (quat p) (quat q) (all 0) = quat (s • p) := by
  by_cases h : |qdot p q| < nearOne
  · obtain ⟨s0, s1, e, b0, b1, z, -⟩ := slerp_arc c p q 0 ⟨le_rfl, by norm_num⟩ h
    have hlt : |qdot p q| < 1 := h.trans (by unfold nearOne; norm_num)
    have hS : (4/10^3 : ℝ) ≤ √(1 - qdot p q ^ 2) := by
      apply Real.le_sqrt_of_sq_le
      unfold nearOne at h
      rw [← sq_abs (qdot p q)]; nlinarith [abs_nonneg (qdot p q)]
    rw [z rfl, zero_div, mul_zero, zero_smul, add_zero] at e
    refine ⟨_, ?_, e⟩
    rw [sub_zero, one_mul, sin_arccos, sq_abs] at b0
    generalize √(1 - qdot p q ^ 2) = S at *
    have : s0 / S - 1 = (s0 - S) / S := by field_simp
    rw [this, abs_div, abs_of_pos (by linarith : 0 < S), div_le_iff₀ (by linarith)]
    nlinarith
  · refine ⟨1, by norm_num, ?_⟩
    rw [slerp_linear c p q 0 (not_lt.1 h), mul_zero, zero_smul, add_zero, sub_zero]
theorem slerp_one (c : Cfg) (p q : Quaternion ℝ) : ∃ s : ℝ, |s - 1| ≤ 2/10^4 ∧ XMQuaternionSlerpV c (quat p) (quat q) (all 1) = quat ((arcSign p q * s) • q) := by
  by_cases h : |qdot p q| < nearOne
  · obtain ⟨s0, s1, e, b0, b1, -, z⟩ := slerp_arc c p q 1 ⟨by norm_num, le_rfl⟩ h
    have hlt : |qdot p q| < 1 := h.trans (by unfold nearOne; norm_num)
    have hS : (4/10^3 : ℝ) ≤ √(1 - qdot p q ^ 2) := by
      apply Real.le_sqrt_of_sq_le
      unfold nearOne at h
      rw [← sq_abs (qdot p q)]; nlinarith [abs_nonneg (qdot p q)]
    rw [z rfl, zero_div, zero_smul, zero_add] at e
    refine ⟨_, ?_, e⟩
    rw [one_mul, sin_arccos, sq_abs] at b1
    generalize √(1 - qdot p q ^ 2) = S at *
    have : s1 / S - 1 = (s1 - S) / S := by field_simp
    rw [this, abs_div, abs_of_pos (by linarith : 0 < S), div_le_iff₀ (by linarith)]
    nlinarith
  · refine ⟨1, by norm_num, ?_⟩
    rw [slerp_linear c p q 1 (not_lt.1 h), sub_self, zero_smul, zero_add]
theorem arcSign_cases (p q : Quaternion ℝ) : arcSign p q = 1 ∨ arcSign p q = -1 := by unfold arcSign; split_ifs <;> simp

theorem scales_close {s t : ℝ} (hs : |s - 1| ≤ 2/10^4) (ht : |t - 1| ≤ 2/10^4) : |t * s - 1| ≤ 5/10^4 := by
  rw [show t * s - 1 = (t - 1) * (s - 1) + (t - 1) + (s - 1) by ring]
  have h1 := abs_add_le ((t - 1) * (s - 1) + (t - 1)) (s - 1)
  have h2 := abs_add_le ((t - 1) * (s - 1)) (t - 1)
  rw [abs_mul] at h2
  nlinarith [abs_nonneg (s - 1), abs_nonneg (t - 1)]

theorem squad_T (c : Cfg) (t : ℝ) : XMVectorMultiply (XMVectorNegativeMultiplySubtract c (all t) (all t) (all t)) (XMVectorSplatConstant c 2 0) = all (2 * (t - t * t)) := by
  have h2 : ∃ n : ℕ, n < 2^23 ∧ (2 / 2^149 : ℝ) = n / 2^149 := ⟨2, by norm_num, by norm_num⟩
  have hk : (XMVectorSplatConstant c 2 0 : V4 E) = all 2 := by
    have hb : (Lane.ofBits 2#32 : E) = num (2 / 2^149) := by
      show E.ofBits 2#32 = _
      simp [E.ofBits, E.valQ]
    have h3 : (Lane.i2f (num (2 / 2^149)) : E) = num 2 := by
      show E.i2f _ = _
      rw [E.i2f, if_pos h2, div_mul_cancel₀ _ (by positivity)]
    have h4 : (Lane.u2f (num (2 / 2^149)) : E) = num 2 := by
      show E.u2f _ = _
      rw [E.u2f, if_pos h2, div_mul_cancel₀ _ (by positivity)]
    unfold XMVectorSplatConstant
    by_cases hc : c.sse
    · simp [hc, hb, h3]
    · simp [hc, hb, h4, div_num]
  rw [hk]
  simp [all]; ring

/-- C60: Squad starts at its first and ends (up to sign) at its last control quaternion, to within a relative error 5/10^4;
for arbitrary quaternions. -/
theorem C60_squad_start (c : Cfg) (q0 q1 q2 q3 : Quaternion ℝ) :
    ∃ s : ℝ, |s - 1| ≤ 5/10^4 ∧ XMQuaternionSquad c (quat q0) (quat q1) (quat q2) (quat q3) (num 0) = quat (s • q0) := by
  obtain ⟨s1, h1, e1⟩ := slerp_zero c q0 q3
  obtain ⟨s2, h2, e2⟩ := slerp_zero c q1 q2
  obtain ⟨s3, h3, e3⟩ := slerp_zero c (s1 • q0) (s2 • q1)
  refine ⟨s3 * s1, scales_close h1 h3, ?_⟩
  have : XMQuaternionSquad c (quat q0) (quat q1) (quat q2) (quat q3) (num 0) = XMQuaternionSquadV c (quat q0) (quat q1) (quat q2) (quat q3) (all 0) := rfl
  rw [this]
  simp only [XMQuaternionSquadV, squad_T, mul_zero, sub_zero, e1, e2, e3, smul_smul]
theorem C60_squad_end (c : Cfg) (q0 q1 q2 q3 : Quaternion ℝ) :
    ∃ s : ℝ, (|s - 1| ≤ 5/10^4 ∨ |s + 1| ≤ 5/10^4) ∧ XMQuaternionSquad c (quat q0) (quat q1) (quat q2) (quat q3) (num 1) = quat (s • q3) := by
  obtain ⟨s1, h1, e1⟩ := slerp_one c q0 q3
  obtain ⟨s2, h2, e2⟩ := slerp_one c q1 q2
  obtain ⟨s3, h3, e3⟩ := slerp_zero c ((arcSign q0 q3 * s1) • q3) ((arcSign q1 q2 * s2) • q2)
  refine ⟨s3 * (arcSign q0 q3 * s1), ?_, ?_⟩
  · have := scales_close h1 h3
    rcases arcSign_cases q0 q3 with h | h <;> rw [h]
    · left; rwa [one_mul]
    · right; rw [show s3 * (-1 * s1) + 1 = -(s3 * s1 - 1) by ring, abs_neg]; exact this
  · have : XMQuaternionSquad c (quat q0) (quat q1) (quat q2) (quat q3) (num 1) = XMQuaternionSquadV c (quat q0) (quat q1) (quat q2) (quat q3) (all 1) := rfl
    rw [this]
    simp only [XMQuaternionSquadV, squad_T, mul_one, sub_self, mul_zero, e1, e2, e3, smul_smul]

/-- C60: BaryCentric with a vanishing total weight is its first quaternion. -/
theorem C60_bary_origin (c : Cfg) (q0 q1 q2 : Quaternion ℝ) (f g : ℝ) (h : |f + g| < 1/10^5 - 1/10^10) :
    XMQuaternionBaryCentric c (quat q0) (quat q1) (quat q2) (num f) (num g) = quat q0 := by
  have := abs_lt.1 h
  have h1 : f + g < 2748779 / 274877906944 := by norm_num at *; linarith
  have h2 : -2748779 / 274877906944 < f + g := by norm_num at *; linarith
  simp [XMQuaternionBaryCentric, h1, Lane.gt, h2]
/-- C60: at the other two corners it is (up to sign and a relative error 5/10^4) the quaternion of the corner. -/
theorem C60_bary_corners (c : Cfg) (q0 q1 q2 : Quaternion ℝ) :
    (∃ s : ℝ, (|s - 1| ≤ 5/10^4 ∨ |s + 1| ≤ 5/10^4) ∧ XMQuaternionBaryCentric c (quat q0) (quat q1) (quat q2) (num 1) (num 0) = quat (s • q1)) ∧
    (∃ s : ℝ, (|s - 1| ≤ 5/10^4 ∨ |s + 1| ≤ 5/10^4) ∧ XMQuaternionBaryCentric c (quat q0) (quat q1) (quat q2) (num 0) (num 1) = quat (s • q2)) := by
  have hb : ∀ f g : ℝ, f + g = 1 → XMQuaternionBaryCentric c (quat q0) (quat q1) (quat q2) (num f) (num g) = 
      XMQuaternionSlerpV c (XMQuaternionSlerpV c (quat q0) (quat q1) (all 1)) (XMQuaternionSlerpV c (quat q0) (quat q2) (all 1)) (all g) := by
    intro f g h
    have h1 : ¬ (1:ℝ) < 2748779 / 274877906944 := by norm_num
    simp [XMQuaternionBaryCentric, h, h1, div_num, XMQuaternionSlerp]
  constructor
  · obtain ⟨s1, h1, e1⟩ := slerp_one c q0 q1
    obtain ⟨s2, h2, e2⟩ := slerp_one c q0 q2
    obtain ⟨s3, h3, e3⟩ := slerp_zero c ((arcSign q0 q1 * s1) • q1) ((arcSign q0 q2 * s2) • q2)
    refine ⟨s3 * (arcSign q0 q1 * s1), ?_, ?_⟩
    · have := scales_close h1 h3
      rcases arcSign_cases q0 q1 with h | h <;> rw [h]
      · left; rwa [one_mul]
      · right; rw [show s3 * (-1 * s1) + 1 = -(s3 * s1 - 1) by ring, abs_neg]; exact this
    · rw [hb 1 0 (by norm_num), e1, e2, e3, smul_smul]
  · obtain ⟨s1, h1, e1⟩ := slerp_one c q0 q1
    obtain ⟨s2, h2, e2⟩ := slerp_one c q0 q2
    obtain ⟨s3, h3, e3⟩ := slerp_one c ((arcSign q0 q1 * s1) • q1) ((arcSign q0 q2 * s2) • q2)
    refine ⟨arcSign ((arcSign q0 q1 * s1) • q1) ((arcSign q0 q2 * s2) • q2) * s3 * (arcSign q0 q2 * s2), ?_, ?_⟩
    · have := scales_close h2 h3
      rcases arcSign_cases q0 q2 with h | h <;> rcases arcSign_cases ((arcSign q0 q1 * s1) • q1) ((arcSign q0 q2 * s2) • q2) with h' | h' <;> rw [h'] <;> rw [h]
      · left; rwa [one_mul, one_mul]
      · right; rw [show -1 * s3 * (1 * s2) + 1 = -(s3 * s2 - 1) by ring, abs_neg]; exact this
      · right; rw [show 1 * s3 * (-1 * s2) + 1 = -(s3 * s2 - 1) by ring, abs_neg]; exact this
      · left; rw [show -1 * s3 * (-1 * s2) - 1 = (s3 * s2 - 1) by ring]; exact this
    · rw [hb 0 1 (by norm_num), e1, e2, e3, smul_smul]


/-! ### C58 -/

theorem norm_pureQ (v : Fin 3 → ℝ) : ‖pureQ v‖ = len v := by
  rw [len, dot3]
  have : ‖pureQ v‖ * ‖pureQ v‖ = v 0 * v 0 + v 1 * v 1 + v 2 * v 2 := by
    rw [← Quaternion.normSq_eq_norm_mul_self, normSq4]; simp; ring
  rw [← this, Real.sqrt_mul_self (norm_nonneg _)]

theorem exp_pureQ (v : Fin 3 → ℝ) : NormedSpace.exp (pureQ v) = 
    mkQ (cos (len v)) (sin (len v) / len v * v 0) (sin (len v) / len v * v 1) (sin (len v) / len v * v 2) := by
  rw [Quaternion.exp_of_re_eq_zero _ (pureQ_re v), norm_pureQ]
  ext <;> simp

theorem len_sq3 (v : Fin 3 → ℝ) : len v ^ 2 = v 0 ^ 2 + v 1 ^ 2 + v 2 ^ 2 := by
  rw [len, dot3, Real.sq_sqrt (by nlinarith [mul_self_nonneg (v 0), mul_self_nonneg (v 1), mul_self_nonneg (v 2)])]; ring
theorem comp_le_len (v : Fin 3 → ℝ) (i : Fin 3) : |v i| ≤ len v := by
  apply abs_le_of_sq_le_sq _ (Real.sqrt_nonneg _)
  have := len_sq3 v
  have h0 := sq_nonneg (v 0); have h1 := sq_nonneg (v 1); have h2 := sq_nonneg (v 2)
  show _ ≤ len v ^ 2
  rw [this]; fin_cases i <;> simp <;> linarith

theorem scaled_le (v : Fin 3 → ℝ) (i : Fin 3) (a b : ℝ) : |a * v i - b * v i| ≤ |a - b| * len v := by
  rw [← sub_mul, abs_mul]; exact mul_le_mul_of_nonneg_left (comp_le_len v i) (abs_nonneg _)

/-- C58: XMQuaternionExp of a pure quaternion (the w lane is ignored) is the quaternion exponential
`cos|v| + sin|v| v/|v|`, a unit quaternion, up to the error of the code's sine and cosine. -/
theorem C58_exp (c : Cfg) (v : Fin 3 → ℝ) (w : E) (hv : len v ≤ 10^7) :
    ∃ r, XMQuaternionExp c (vec3 v w) = quat r ∧ QClose r (NormedSpace.exp (pureQ v)) (3/10^7 + 29/10^9 * len v) := by
  have hl0 : 0 ≤ len v := Real.sqrt_nonneg _
  obtain ⟨s, k, -, -, h3, h4⟩ := C67_sincos c (fun _ => len v) (fun i => by rw [abs_of_nonneg hl0]; exact hv)
  have hL : XMVector3Length c (vec3 v w) = all (len v) := C25_length3 c v w
  have h3' : XMVectorSinCos c (all (len v)) = (⟨num (s 0), num (s 1), num (s 2), num (s 3)⟩, ⟨num (k 0), num (k 1), num (k 2), num (k 3)⟩) := h3
  rw [exp_pureQ]
  have hk := (h4 3).2
  simp only [abs_of_nonneg hl0] at h4 hk
  by_cases h : len v ≤ 1/8388608
  · have h' : len v ≤ (8388608:ℝ)⁻¹ := by rw [← one_div]; exact h
    refine ⟨mkQ (k 3) (v 0) (v 1) (v 2), ?_, ?_⟩
    · unfold XMQuaternionExp
      simp only [hL, h3']
      simp [all, abs_of_nonneg hl0, h', vec3]
    · have hc : ∀ i, |v i - sin (len v) / len v * v i| ≤ 3/10^7 + 29/10^9 * len v := by
        intro i
        have := scaled_le v i 1 (sin (len v) / len v)
        rw [one_mul] at this
        refine this.trans ?_
        have e : |len v - sin (len v)| ≤ len v ^ 3 / 6 := by have := abs_sub_sin_le (len v); rwa [abs_of_nonneg hl0] at this
        by_cases h0 : len v = 0
        · rw [h0]; norm_num
        · have : |1 - sin (len v) / len v| * len v = |len v - sin (len v)| := by
            rw [← abs_of_nonneg hl0, ← abs_mul, abs_of_nonneg hl0, sub_mul, one_mul, div_mul_cancel₀ _ h0]
          rw [this]; nlinarith [sq_nonneg (len v)]
      exact ⟨hc 0, hc 1, hc 2, hk⟩
  · have h' : ¬ len v ≤ (8388608:ℝ)⁻¹ := by rw [← one_div]; exact h
    have hne : len v ≠ 0 := by intro h0; rw [h0] at h; norm_num at h
    refine ⟨mkQ (k 3) (s 0 / len v * v 0) (s 1 / len v * v 1) (s 2 / len v * v 2), ?_, ?_⟩
    · unfold XMQuaternionExp
      simp only [hL, h3']
      simp [all, abs_of_nonneg hl0, h', vec3, div_num _ _ hne]
      refine ⟨?_, ?_, ?_⟩ <;> ring
    · have hc : ∀ i, ∀ j, |s j / len v * v i - sin (len v) / len v * v i| ≤ 3/10^7 + 29/10^9 * len v := by
        intro i j
        refine (scaled_le v i _ _).trans (le_trans (le_of_eq ?_) (h4 j).1)
        rw [← abs_of_nonneg hl0, ← abs_mul, abs_of_nonneg hl0, sub_mul, div_mul_cancel₀ _ hne, div_mul_cancel₀ _ hne]
      exact ⟨hc 0 0, hc 1 1, hc 2 2, hk⟩
theorem C58_exp_unit (v : Fin 3 → ℝ) : Quaternion.normSq (NormedSpace.exp (pureQ v)) = 1 := by
  rw [Quaternion.normSq_exp]; simp
example : len ![3, 4, 0] ≤ 10^7 := by rw [len, dot3]; simp; norm_num [Real.sqrt_le_iff]

/-- C58, the full claim on the logarithm: it inverts the exponential for every angle in (0, π), within a tolerance `e`. -/
def C58_ln_claim (c : Cfg) (e : ℝ) : Prop := ∀ v : Fin 3 → ℝ, 0 < len v → len v < π →
  ∃ r, XMQuaternionLn c (quat (NormedSpace.exp (pureQ v))) = vec3 r (num 0) ∧ ∀ i, |r i - v i| ≤ e

theorem sin_quot (θ θ' s S e1 e2 : ℝ) (hS : 7/10^4 ≤ S) (hθ0 : 0 ≤ θ) (hθ : θ ≤ 315/100) (hS1 : S ≤ 1) (h1 : |θ' - θ| ≤ 3/10^7) (h2 : |s - S| ≤ 7/10^7) :
    |θ' / s * S - θ| ≤ 3/10^6 / S := by
  have hs : 0 < s := by have := abs_le.1 h2; norm_num at *; linarith
  have hSpos : 0 < S := by linarith
  have : θ' / s * S - θ = (S * (θ' - θ) - θ * (s - S)) / s := by field_simp; ring
  rw [this, abs_div, abs_of_pos hs, div_le_div_iff₀ hs hSpos]
  have e : |S * (θ' - θ) - θ * (s - S)| ≤ 25052/10^10 := by
    refine (abs_sub _ _).trans ?_
    rw [abs_mul, abs_mul, abs_of_pos hSpos, abs_of_nonneg hθ0]
    have := abs_nonneg (θ' - θ); have := abs_nonneg (s - S)
    nlinarith
  have hs2 : S - 7/10^7 ≤ s := by have := abs_le.1 h2; linarith
  nlinarith [abs_nonneg (S * (θ' - θ) - θ * (s - S))]

theorem ctl_in (c : Cfg) (x : ℝ) (h : -nearOne ≤ x) (h' : x ≤ nearOne) : XMVectorInBounds c (all x) oneMinusEpsilon = ⟨ones, ones, ones, ones⟩ := by
  have e : (oneMinusEpsilon : V4 E) = ⟨num nearOne, num nearOne, num nearOne, num nearOne⟩ := by simp [oneMinusEpsilon, nearOne]
  rw [e, all, XMVectorInBounds_num]
  simp [h, h']
theorem ctl_out (c : Cfg) (x : ℝ) (h : x < -nearOne ∨ nearOne < x) : XMVectorInBounds c (all x) oneMinusEpsilon = ⟨num 0, num 0, num 0, num 0⟩ := by
  have e : (oneMinusEpsilon : V4 E) = ⟨num nearOne, num nearOne, num nearOne, num nearOne⟩ := by simp [oneMinusEpsilon, nearOne]
  rw [e, all, XMVectorInBounds_num]
  have : ¬ (-nearOne ≤ x ∧ x ≤ nearOne) := by rintro ⟨a, b⟩; rcases h with h | h <;> linarith
  have hb : (decide (x ≤ nearOne) && decide (-nearOne ≤ x)) = false := by rw [Bool.eq_false_iff]; intro hh; simp at hh; exact this ⟨hh.2, hh.1⟩
  simp [hb]

/-- C58: the logarithm inverts the exponential wherever the real part is at least -(1 - 0.00001)
(angles up to about π - 0.0045); the bound is relative to the sine of the angle. -/
theorem C58_ln_partial (c : Cfg) (v : Fin 3 → ℝ) (h0 : 0 < len v) (hpi : len v < π) (hw : -nearOne ≤ cos (len v)) :
    ∃ r, XMQuaternionLn c (quat (NormedSpace.exp (pureQ v))) = vec3 r (num 0) ∧ ∀ i, |r i - v i| ≤ 3/10^6 / sin (len v) := by
  have hS : 0 < sin (len v) := sin_pos_of_pos_of_lt_pi h0 hpi
  have hcl : |cos (len v)| ≤ 1 := abs_cos_le_one _
  obtain ⟨⟨th, a1, a2⟩, -⟩ := C67_arc c (fun _ => cos (len v)) (fun _ => hcl)
  rw [arccos_cos h0.le hpi.le] at a2
  have hb := pi_lt_d2
  have thb : ∀ i, |th i| ≤ 32/10 := by
    intro i; have := abs_le.1 (a2 i); norm_num at this hb; rw [abs_le]; constructor <;> norm_num <;> linarith
  obtain ⟨s, k, s1, -, -, s2⟩ := C67_sincos c th (fun i => (thb i).trans (by norm_num))
  have s3 : ∀ i, |s i - sin (len v)| ≤ 7/10^7 := by
    intro i
    have e1 := (s2 i).1
    have e2 := sin_lip (th i) (len v)
    have e3 := abs_sub_le (s i) (sin (th i)) (sin (len v))
    have := thb i; have := a2 i
    norm_num at *; linarith
  have a1' : XMVectorACos c (all (cos (len v))) = vec4 th := a1
  rw [exp_pureQ]
  have hQW : XMVectorSplatW c (quat (mkQ (cos (len v)) (sin (len v) / len v * v 0) (sin (len v) / len v * v 1) (sin (len v) / len v * v 2))) = all (cos (len v)) := by
    simp
  have hQ0 : XMVectorSelect g_XMSelect1110 (quat (mkQ (cos (len v)) (sin (len v) / len v * v 0) (sin (len v) / len v * v 1) (sin (len v) / len v * v 2))) g_XMSelect1110 =
     ⟨num (sin (len v) / len v * v 0), num (sin (len v) / len v * v 1), num (sin (len v) / len v * v 2), num 0⟩ := by
    simp
  have hne := h0.ne'
  by_cases h : cos (len v) ≤ nearOne
  · have hctl : XMVectorInBounds c (all (cos (len v))) oneMinusEpsilon = ⟨ones, ones, ones, ones⟩ :=
      ctl_in c _ hw h
    have hsq : (4/10^3)^2 ≤ sin (len v) ^ 2 := by
      have := sin_sq_add_cos_sq (len v)
      unfold nearOne at h hw
      nlinarith
    have hS1 : 4/10^3 ≤ sin (len v) := by nlinarith
    have sne : ∀ i, s i ≠ 0 := by
      intro i h0; have := s3 i; rw [h0] at this; have := abs_le.1 this; norm_num at this hS1; linarith
    refine ⟨fun i => (sin (len v) / len v * v i) * (th (i.castLE (by norm_num)) / s (i.castLE (by norm_num))), ?_, ?_⟩
    · unfold XMQuaternionLn
      simp only [hQW, hQ0, hctl, a1', s1]
      simp [vec3, div_num _ _ (sne _)]
    · intro i
      have hq := sin_quot (len v) (th (i.castLE (by norm_num))) (s (i.castLE (by norm_num))) (sin (len v)) 0 0 (by linarith) h0.le (by norm_num at hb; linarith) (sin_le_one _) (a2 _) (s3 _)
      have e : (sin (len v) / len v * v i) * (th (i.castLE (by norm_num)) / s (i.castLE (by norm_num))) - v i =
        (th (i.castLE (by norm_num)) / s (i.castLE (by norm_num)) * sin (len v) - len v) / len v * v i := by
        have := sne (i.castLE (by norm_num)); field_simp
      rw [e]
      have := scaled_le v i ((th (i.castLE (by norm_num)) / s (i.castLE (by norm_num)) * sin (len v) - len v) / len v) 0
      rw [zero_mul, sub_zero, sub_zero, abs_div, abs_of_pos h0, div_mul_cancel₀ _ hne] at this
      exact this.trans hq
  · have hctl : XMVectorInBounds c (all (cos (len v))) oneMinusEpsilon = ⟨num 0, num 0, num 0, num 0⟩ :=
      ctl_out c _ (Or.inr (not_le.1 h))
    refine ⟨fun i => sin (len v) / len v * v i, ?_, ?_⟩
    · unfold XMQuaternionLn
      simp only [hQW, hQ0, hctl]
      simp [vec3]
    · intro i
      have := scaled_le v i (sin (len v) / len v) 1
      rw [one_mul] at this
      refine this.trans ?_
      have e : |sin (len v) / len v - 1| * len v = |len v - sin (len v)| := by
        rw [← abs_of_pos h0, ← abs_mul, abs_of_pos h0, sub_mul, one_mul, div_mul_cancel₀ _ hne, abs_sub_comm]
      rw [e]
      have e2 := abs_sub_sin_le (len v)
      rw [abs_of_pos h0] at e2
      have hq := Real.cos_le_one_sub_mul_cos_sq (x := len v) (by rw [abs_of_pos h0]; linarith)
      have hpi3 := pi_gt_three
      have hx2 : len v ^2 ≤ 5/10^5 := by
        have : 2 / π^2 * len v ^2 ≤ 2748779 / 274877906944 := by unfold nearOne at h; linarith
        rw [div_mul_eq_mul_div, div_le_iff₀ (by positivity)] at this
        norm_num at hb
        nlinarith
      rw [le_div_iff₀ hS]
      have hx1 : len v ≤ 1/100 := by nlinarith
      have : sin (len v) ≤ 1 := sin_le_one _
      nlinarith [abs_nonneg (len v - sin (len v))]

/-- C58 fails next to the angle π: there the code returns the vector part itself (length `sin θ`), not the logarithm. -/
theorem C58_ln_fails (c : Cfg) : ¬ C58_ln_claim c 3 := by
  intro H
  have hb := pi_gt_d2
  have hL : len ![π - 1/1000, 0, 0] = π - 1/1000 := by
    rw [len, dot3]; simp; rw [Real.sqrt_mul_self]; norm_num at *; linarith
  obtain ⟨r, e, hr⟩ := H ![π - 1/1000, 0, 0] (by rw [hL]; norm_num at *; linarith) (by rw [hL]; norm_num)
  rw [exp_pureQ, hL, cos_pi_sub, sin_pi_sub] at e
  have hc : -cos (1/1000) < -nearOne := by
    have := one_sub_sq_div_two_le_cos (x := 1/1000); unfold nearOne; norm_num at *; linarith
  have hctl : XMVectorInBounds c (all (-cos (1/1000))) oneMinusEpsilon = ⟨num 0, num 0, num 0, num 0⟩ :=
    ctl_out c _ (Or.inl hc)
  have hn : π - 1/1000 ≠ 0 := by norm_num at *; linarith
  have hr0 : sin (1/1000) = r 0 := by
    unfold XMQuaternionLn at e
    have hQW : XMVectorSplatW c (quat (mkQ (-cos (1/1000)) (sin (1/1000) / (π - 1/1000) * (![π - 1/1000, 0, 0] : Fin 3 → ℝ) 0) (sin (1/1000) / (π - 1/1000) * (![π - 1/1000, 0, 0] : Fin 3 → ℝ) 1) 
      (sin (1/1000) / (π - 1/1000) * (![π - 1/1000, 0, 0] : Fin 3 → ℝ) 2))) = all (-cos (1/1000)) := by simp
    simp only [hQW, hctl] at e
    simp [vec3] at e
    rw [← e.1, div_mul_cancel₀]; · norm_num
    · norm_num at hn ⊢; exact hn
  have h1 := hr 0
  rw [← hr0] at h1
  have h2 := sin_le (x := 1/1000) (by norm_num)
  have := (abs_le.1 h1).1
  simp at this; norm_num at *; linarith
end DXM.Props
