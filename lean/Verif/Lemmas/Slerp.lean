import Verif.Lemmas.Quat
import Verif.Lemmas.Arc
import Verif.Props.Trig
import Verif.Props.Movement
import Verif.Model.Space

/-
Spherical interpolation, exponential and logarithm of quaternions on exact-real lanes.
-/

set_option linter.all false

namespace DXM
open DXM.E DXM.Spec DXM.Trig DXM.Props Matrix Real

/-- The inner product of two quaternions. -/
noncomputable def qdot (p q : Quaternion ℝ) : ℝ := (p * star q).re
theorem qdot4 (p q : Quaternion ℝ) : qdot p q = p.re * q.re + p.imI * q.imI + p.imJ * q.imJ + p.imK * q.imK := by
  simp [qdot]
/-- -1 if the shorter arc from `p` leads to `-q`, else 1. -/
noncomputable def arcSign (p q : Quaternion ℝ) : ℝ := if qdot p q < 0 then -1 else 1
/-- The threshold 1 - 0.00001f. -/
noncomputable def nearOne : ℝ := 1 - 2748779 / 274877906944

theorem XMVectorSin_zero (c : Cfg) (a : Fin 4 → ℝ) (ha : ∀ i, |a i| ≤ 10^7) (s : Fin 4 → ℝ) (h : XMVectorSin c (vec4 a) = vec4 s) (i : Fin 4) (h0 : a i = 0) : s i = 0 := by
  by_cases hc : c.sse = true
  · have e : XMVectorSin c (vec4 a) = vec4 (fun i => vsin (a i)) := by
      simp only [XMVectorSin, hc, if_true, vec4, trigReduce_num c hc _ _ _ _ (ha 0) (ha 1) (ha 2) (ha 3), sinPoly_num]; rfl
    have e2 : s i = vsin (a i) := by
      rw [e] at h; simp [vec4] at h
      obtain ⟨h1, h2, h3, h4⟩ := h
      fin_cases i <;> simp [h1, h2, h3, h4]
    rw [e2, h0]
    have : redR (modR 0) = 0 := by simp [redR, modR, rintR]; unfold piF; norm_num
    simp [vsin, this]
  · have e : XMVectorSin c (vec4 a) = vec4 (fun i => sin (a i)) := by
      simp only [XMVectorSin, hc]; rfl
    have e2 : s i = sin (a i) := by
      rw [e] at h; simp [vec4] at h
      obtain ⟨h1, h2, h3, h4⟩ := h
      fin_cases i <;> simp [h1, h2, h3, h4]
    rw [e2, h0, sin_zero]

theorem quat_smul_add (p q : Quaternion ℝ) (a b : ℝ) : quat (a • p + b • q) =
    ⟨num (a * p.imI + b * q.imI), num (a * p.imJ + b * q.imJ), num (a * p.imK + b * q.imK), num (a * p.re + b * q.re)⟩ := by
  simp [quat]

theorem shl2 (c : Cfg) (A B D : V4 E) : (XMVectorShiftLeft c false A B 2).getD D = ⟨A.z, A.w, B.x, B.y⟩ := by
  have := C04_shift c false A B 2
  simp [Spec.pick] at this; rw [this]; rfl
theorem shl3 (c : Cfg) (A B D : V4 E) : (XMVectorShiftLeft c false A B 3).getD D = ⟨A.w, B.x, B.y, B.z⟩ := by
  have := C04_shift c false A B 3
  simp [Spec.pick] at this; rw [this]; rfl

theorem slerp_linear (c : Cfg) (p q : Quaternion ℝ) (t : ℝ) (h : nearOne ≤ |qdot p q|) :
    XMQuaternionSlerpV c (quat p) (quat q) (all t) = quat ((1 - t) • p + (arcSign p q * t) • q) := by
  have hd : XMQuaternionDot c (quat p) (quat q) = all (qdot p q) := by
    rw [qdot4]; simp [XMQuaternionDot]; ring
  have hs : XMVectorSelect g_XMOne g_XMNegativeOne (XMVectorLess (all (qdot p q)) g_XMZero) = all (arcSign p q) := by
    unfold arcSign; split_ifs with h <;> simp [h]
  have hm : XMVectorMultiply (all (qdot p q)) (all (arcSign p q)) = all |qdot p q| := by
    unfold arcSign; split_ifs with h <;> simp [abs_of_neg, abs_of_nonneg, not_lt.1, h]
  have hl : XMVectorLess (all |qdot p q|) oneMinusEpsilon = ⟨num 0, num 0, num 0, num 0⟩ := by
    unfold nearOne at h; simp [oneMinusEpsilon, h, not_lt.2]
  rw [quat_smul_add]
  unfold XMQuaternionSlerpV
  simp only [hd, hs, hm, hl]
  split_ifs with hc
  · simp [all]
    refine ⟨?_, ?_, ?_, ?_⟩ <;> ring
  · simp [all, shl2, shl3]
    refine ⟨?_, ?_, ?_, ?_⟩ <;> ring

theorem arg_arccos (d : ℝ) (h0 : 0 ≤ d) (h1 : d < 1) : Complex.arg ⟨d, √(1 - d^2)⟩ = arccos d := by
  have hp : 0 ≤ 1 - d^2 := by nlinarith
  have e : (⟨d, √(1 - d^2)⟩ : ℂ) = Complex.cos (arccos d : ℂ) + Complex.sin (arccos d : ℂ) * Complex.I := by
    rw [← Complex.ofReal_cos, ← Complex.ofReal_sin, cos_arccos (by linarith) h1.le, sin_arccos]
    apply Complex.ext <;> simp
  rw [e, Complex.arg_cos_add_sin_mul_I]
  have := arccos_nonneg d; have := arccos_le_pi d; have := pi_pos
  constructor <;> linarith

theorem arg_congr (x : ℝ) : √(1 - x^2) = √(1 - |x|^2) := by rw [sq_abs]
theorem slerp_arc (c : Cfg) (p q : Quaternion ℝ) (t : ℝ) (ht : 0 ≤ t ∧ t ≤ 1) (h : |qdot p q| < nearOne) :
    ∃ s0 s1 : ℝ, XMQuaternionSlerpV c (quat p) (quat q) (all t) = 
      quat ((s0 / √(1 - qdot p q ^ 2)) • p + (arcSign p q * (s1 / √(1 - qdot p q ^ 2))) • q) ∧
      |s0 - sin ((1 - t) * arccos |qdot p q|)| ≤ 8/10^7 ∧ |s1 - sin (t * arccos |qdot p q|)| ≤ 8/10^7 ∧ (t = 0 → s1 = 0) ∧ (t = 1 → s0 = 0) := by
  have hd : XMQuaternionDot c (quat p) (quat q) = all (qdot p q) := by
    rw [qdot4]; simp [XMQuaternionDot]; ring
  have hs : XMVectorSelect g_XMOne g_XMNegativeOne (XMVectorLess (all (qdot p q)) g_XMZero) = all (arcSign p q) := by
    unfold arcSign; split_ifs with h <;> simp [h]
  have hm : XMVectorMultiply (all (qdot p q)) (all (arcSign p q)) = all |qdot p q| := by
    unfold arcSign; split_ifs with h <;> simp [abs_of_neg, abs_of_nonneg, not_lt.1, h]
  have hl : XMVectorLess (all |qdot p q|) oneMinusEpsilon = ⟨ones, ones, ones, ones⟩ := by
    unfold nearOne at h; simp [oneMinusEpsilon, h, not_lt.2]
  have h1 : |qdot p q| < 1 := h.trans (by unfold nearOne; norm_num)
  have hsq : |qdot p q| * |qdot p q| = qdot p q ^ 2 := by rw [abs_mul_abs_self]; ring
  have hpos : 0 < 1 - qdot p q ^ 2 := by have := (sq_lt_one_iff_abs_lt_one (qdot p q)).2 h1; linarith
  set S := √(1 - qdot p q ^ 2) with hS
  have hS0 : S ≠ 0 := (Real.sqrt_pos.2 hpos).ne'
  obtain ⟨w, hw1, hw2⟩ := C67_atan2 c (fun _ => S) (fun _ => |qdot p q|)
  have hw3 : ∀ i, |w i - arccos (|qdot p q|)| ≤ 4/10^7 := by
    intro i; have := hw2 i; simp only [hS] at this; rwa [arg_congr (qdot p q), arg_arccos _ (abs_nonneg _) h1] at this
  have hO0 := arccos_nonneg |qdot p q|
  have hO1 : arccos |qdot p q| ≤ π/2 := arccos_le_pi_div_two.2 (abs_nonneg _)
  have hpi := pi_lt_d2
  have hwb : ∀ i, |w i| ≤ 2 := by
    intro i; have := abs_le.1 (hw3 i); norm_num at this; exact abs_le.2 ⟨by linarith, by linarith⟩
  have ha : ∀ i, |![(1 - t) * w 0, t * w 1, 0, 0] i| ≤ 2 := by
    intro i
    have h0 : |1 - t| ≤ 1 := abs_le.2 ⟨by linarith, by linarith⟩
    have h1 : |t| ≤ 1 := abs_le.2 ⟨by linarith, by linarith⟩
    fin_cases i <;> simp [abs_mul]
    · have := hwb 0; nlinarith [abs_nonneg (1 - t), abs_nonneg (w 0)]
    · have := hwb 1; nlinarith [abs_nonneg t, abs_nonneg (w 1)]
  obtain ⟨s, k, hs1, -, -, hs2⟩ := C67_sincos c _ (fun i => (ha i).trans (by norm_num))
  have hz := XMVectorSin_zero c _ (fun i => (ha i).trans (by norm_num)) s hs1
  refine ⟨s 0, s 1, ?_, ?_, ?_, ?_, ?_⟩
  · rw [quat_smul_add]
    have hq : Lane.sqrt (num (1 - |qdot p q| * |qdot p q|)) = num S := by
      rw [hsq, sqrt_num _ hpos.le]
    have hw1' : XMVectorATan2 c ⟨num S, num S, num S, num S⟩ ⟨num |qdot p q|, num |qdot p q|, num |qdot p q|, num |qdot p q|⟩ = ⟨num (w 0), num (w 1), num (w 2), num (w 3)⟩ := hw1
    have hs1' : XMVectorSin c ⟨num ((1 - t) * w 0), num (t * w 1), num 0, num 0⟩ = ⟨num (s 0), num (s 1), num (s 2), num (s 3)⟩ := hs1
    rw [sub_eq_add_neg 1 t] at hs1'
    unfold XMQuaternionSlerpV
    simp only [hd, hs, hm, hl]
    split_ifs with hc
    · simp [all, hq, hw1', hs1', div_num _ _ hS0, shl2, shl3, - abs_mul_abs_self]
      refine ⟨?_, ?_, ?_, ?_⟩ <;> ring
    · simp [all, hq, hw1', hs1', div_num _ _ hS0, shl2, shl3, - abs_mul_abs_self]
      refine ⟨?_, ?_, ?_, ?_⟩ <;> ring
  · have e1 := (hs2 0).1
    have e2 := sin_lip ((1 - t) * w 0) ((1 - t) * arccos (|qdot p q|))
    have e3 := ha 0
    rw [← mul_sub, abs_mul, abs_of_nonneg (by linarith : 0 ≤ 1 - t)] at e2
    have e4 := hw3 0
    simp only [Matrix.cons_val_zero] at e1 e3
    have e5 := abs_sub_le (s 0) (sin ((1 - t) * w 0)) (sin ((1 - t) * arccos (|qdot p q|)))
    nlinarith [abs_nonneg (w 0 - arccos (|qdot p q|))]
  · have e1 := (hs2 1).1
    have e2 := sin_lip (t * w 1) (t * arccos (|qdot p q|))
    have e3 := ha 1
    rw [← mul_sub, abs_mul, abs_of_nonneg ht.1] at e2
    have e4 := hw3 1
    simp only [Matrix.cons_val_one, Matrix.cons_val_zero] at e1 e3
    have e5 := abs_sub_le (s 1) (sin (t * w 1)) (sin (t * arccos (|qdot p q|)))
    nlinarith [abs_nonneg (w 1 - arccos (|qdot p q|))]
  · intro h; exact hz 1 (by simp [h])
  · intro h; exact hz 0 (by simp [h])

end DXM
