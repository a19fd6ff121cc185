import Verif.Lemmas.Quat
import Verif.Lemmas.Trig

/-
Rotations about an axis: the exact ones and those built from an approximate sine/cosine pair.
-/

set_option linter.all false

namespace DXM
open DXM.E DXM.Spec Matrix Real

/-- The matrix of Rodrigues' formula with an arbitrary pair in place of (cos, sin). -/
def rodM (n : Fin 3 → ℝ) (k s : ℝ) : Matrix (Fin 3) (Fin 3) ℝ :=
  !![k + (1-k)*n 0*n 0, (1-k)*n 0*n 1 + s*n 2, (1-k)*n 0*n 2 - s*n 1;
     (1-k)*n 0*n 1 - s*n 2, k + (1-k)*n 1*n 1, (1-k)*n 1*n 2 + s*n 0;
     (1-k)*n 0*n 2 + s*n 1, (1-k)*n 1*n 2 - s*n 0, k + (1-k)*n 2*n 2]

theorem axisRot_eq (n : Fin 3 → ℝ) (t : ℝ) : axisRot n t = rodM n (cos t) (sin t) := by
  ext i j
  simp only [axisRot, rodrigues, Matrix.of_apply, Pi.add_apply, Pi.smul_apply, smul_eq_mul]
  fin_cases i <;> fin_cases j <;> simp [rodM, cross_apply, dot3] <;> ring
theorem rodM_act (n : Fin 3 → ℝ) (k s : ℝ) (v : Fin 3 → ℝ) :
    v ᵥ* rodM n k s = k • v + ((1 - k) * (n ⬝ᵥ v)) • n + s • crossProduct n v := by
  ext j; fin_cases j <;> simp only [vecMul3] <;> simp [rodM, cross_apply, dot3] <;> ring
theorem rodM_mul (n : Fin 3 → ℝ) (hn : n ⬝ᵥ n = 1) (k s l u : ℝ) : rodM n k s * rodM n l u = rodM n (k * l - s * u) (s * l + k * u) := by
  rw [dot3] at hn
  ext i j; fin_cases i <;> fin_cases j <;> simp [rodM, Matrix.mul_apply, Fin.sum_univ_three] <;> grind
theorem rodM_transpose (n : Fin 3 → ℝ) (k s : ℝ) : (rodM n k s)ᵀ = rodM n k (-s) := by
  ext i j; fin_cases i <;> fin_cases j <;> simp [rodM] <;> ring
theorem rodM_one (n : Fin 3 → ℝ) : rodM n 1 0 = 1 := by
  ext i j; fin_cases i <;> fin_cases j <;> simp [rodM]
theorem rodM_det (n : Fin 3 → ℝ) (hn : n ⬝ᵥ n = 1) (k s : ℝ) : (rodM n k s).det = k^2 + s^2 := by
  rw [dot3] at hn
  simp [rodM, Matrix.det_fin_three]; grind
/-- `axisRot` is what the name says. -/
theorem axisRot_vecMul (n : Fin 3 → ℝ) (t : ℝ) (v : Fin 3 → ℝ) : v ᵥ* axisRot n t = rodrigues n t v := by
  rw [axisRot_eq, rodM_act]; rfl
theorem axisRot_add (n : Fin 3 → ℝ) (hn : n ⬝ᵥ n = 1) (a b : ℝ) : axisRot n a * axisRot n b = axisRot n (a + b) := by
  rw [axisRot_eq, axisRot_eq, axisRot_eq, rodM_mul n hn, Real.cos_add, Real.sin_add]
theorem axisRot_orth (n : Fin 3 → ℝ) (hn : n ⬝ᵥ n = 1) (a : ℝ) : axisRot n a * (axisRot n a)ᵀ = 1 := by
  rw [axisRot_eq, rodM_transpose, rodM_mul n hn, show cos a * cos a - sin a * -sin a = 1 by nlinarith [Real.sin_sq_add_cos_sq a],
    show sin a * cos a + cos a * -sin a = 0 by ring, rodM_one]
theorem axisRot_det (n : Fin 3 → ℝ) (hn : n ⬝ᵥ n = 1) (a : ℝ) : (axisRot n a).det = 1 := by
  rw [axisRot_eq, rodM_det n hn, Real.cos_sq_add_sin_sq]
theorem axisQ_normSq (n : Fin 3 → ℝ) (hn : n ⬝ᵥ n = 1) (a : ℝ) : Quaternion.normSq (axisQ n a) = 1 := by
  rw [dot3] at hn
  have := Real.sin_sq_add_cos_sq (a/2)
  rw [normSq4]; simp only [axisQ]; grind
theorem rotM_axisQ (n : Fin 3 → ℝ) (hn : n ⬝ᵥ n = 1) (a : ℝ) : rotM (axisQ n a) = axisRot n a := by
  rw [dot3] at hn
  have h1 := Real.sin_sq_add_cos_sq (a/2)
  have hc : cos a = 2 * cos (a/2)^2 - 1 := by rw [← Real.cos_two_mul]; ring_nf
  have hs : sin a = 2 * sin (a/2) * cos (a/2) := by rw [← Real.sin_two_mul]; ring_nf
  rw [axisRot_eq, hc, hs]
  ext i j; fin_cases i <;> fin_cases j <;> simp [rotM, rodM, axisQ] <;> grind
theorem ex_unit : ex ⬝ᵥ ex = 1 := by simp [ex, dot3]
theorem ey_unit : ey ⬝ᵥ ey = 1 := by simp [ey, dot3]
theorem ez_unit : ez ⬝ᵥ ez = 1 := by simp [ez, dot3]
theorem ex_val : ex 0 = 1 ∧ ex 1 = 0 ∧ ex 2 = 0 := by simp [ex]
theorem ey_val : ey 0 = 0 ∧ ey 1 = 1 ∧ ey 2 = 0 := by simp [ey]
theorem ez_val : ez 0 = 0 ∧ ez 1 = 0 ∧ ez 2 = 1 := by simp [ez]

theorem unit_le {n : Fin 3 → ℝ} (hn : n ⬝ᵥ n = 1) (i : Fin 3) : |n i| ≤ 1 := by
  rw [dot3] at hn
  rw [abs_le]
  fin_cases i <;> simp <;> constructor <;> nlinarith [sq_nonneg (n 0), sq_nonneg (n 1), sq_nonneg (n 2)]
theorem unit_prod {n : Fin 3 → ℝ} (hn : n ⬝ᵥ n = 1) (i j : Fin 3) (h : i ≠ j) : |n i * n j| ≤ 1/2 := by
  rw [dot3] at hn
  rw [abs_le]
  fin_cases i <;> fin_cases j <;> first | (exact absurd rfl h) | skip
  all_goals
    simp
    constructor <;> nlinarith [sq_nonneg (n 0), sq_nonneg (n 1), sq_nonneg (n 2), sq_nonneg (n 0 - n 1), sq_nonneg (n 0 + n 1),
      sq_nonneg (n 0 - n 2), sq_nonneg (n 0 + n 2), sq_nonneg (n 1 - n 2), sq_nonneg (n 1 + n 2)]
/-- An error `e` in the pair gives an error at most `3/2 e` in the entries. -/
theorem rodM_close {n : Fin 3 → ℝ} (hn : n ⬝ᵥ n = 1) {k s l u e : ℝ} (h1 : |k - l| ≤ e) (h2 : |s - u| ≤ e) (i j : Fin 3) :
    |rodM n k s i j - rodM n l u i j| ≤ 3/2 * e := by
  have he : 0 ≤ e := (abs_nonneg _).trans h1
  have off : ∀ p q d : ℝ, |p| ≤ 1/2 → |d| ≤ 1 → |-(k - l) * p + (s - u) * d| ≤ 3/2 * e := by
    intro p q d hp hd
    have a1 : |(-(k-l)) * p| ≤ e * (1/2) := by
      rw [abs_mul, abs_neg]; exact mul_le_mul h1 hp (abs_nonneg _) he
    have a2 : |(s - u) * d| ≤ e * 1 := by
      rw [abs_mul]; exact mul_le_mul h2 hd (abs_nonneg _) he
    have := abs_add_le (-(k - l) * p) ((s - u) * d)
    linarith
  have dia : ∀ i, |(k - l) * (1 - n i * n i)| ≤ 3/2 * e := by
    intro i
    have h := unit_le hn i
    have h' : |1 - n i * n i| ≤ 1 := by
      rw [abs_le] at h ⊢
      constructor <;> nlinarith [mul_self_nonneg (n i), h.1, h.2]
    rw [abs_mul]
    have := mul_le_mul h1 h' (abs_nonneg _) he
    linarith
  have nd : ∀ i, |-n i| ≤ 1 := fun i => by rw [abs_neg]; exact unit_le hn i
  fin_cases i <;> fin_cases j <;> simp [rodM]
  · convert dia 0 using 2; ring
  · convert off _ 0 _ (unit_prod hn 0 1 (by decide)) (unit_le hn 2) using 2; ring
  · convert off _ 0 _ (unit_prod hn 0 2 (by decide)) (nd 1) using 2; ring
  · convert off _ 0 _ (unit_prod hn 0 1 (by decide)) (nd 2) using 2; ring
  · convert dia 1 using 2; ring
  · convert off _ 0 _ (unit_prod hn 1 2 (by decide)) (unit_le hn 0) using 2; ring
  · convert off _ 0 _ (unit_prod hn 0 2 (by decide)) (unit_le hn 1) using 2; ring
  · convert off _ 0 _ (unit_prod hn 1 2 (by decide)) (nd 0) using 2; ring
  · convert dia 2 using 2; ring

/-- RotationNormal builds exactly that matrix from the computed pair. -/
theorem XMMatrixRotationNormal_num (c : Cfg) (n : Fin 3 → ℝ) (w : E) (a s k : ℝ) (h : XMScalarSinCos (num a) = (num s, num k)) :
    XMMatrixRotationNormal c (vec3 n w) (num a) = mat (affine (rodM n k s) 0) := by
  unfold XMMatrixRotationNormal
  simp only [h]
  split_ifs <;> simp [affine, rodM]
  all_goals (repeat' apply And.intro) <;> ring
theorem XMMatrixRotationX_num (c : Cfg) (a s k : ℝ) (h : XMScalarSinCos (num a) = (num s, num k)) :
    XMMatrixRotationX c (num a) = mat (affine (rodM ex k s) 0) := by
  unfold XMMatrixRotationX
  simp only [h]
  split_ifs <;> simp [affine, rodM, ex]
theorem XMMatrixRotationY_num (c : Cfg) (a s k : ℝ) (h : XMScalarSinCos (num a) = (num s, num k)) :
    XMMatrixRotationY c (num a) = mat (affine (rodM ey k s) 0) := by
  unfold XMMatrixRotationY
  simp only [h]
  split_ifs <;> simp [affine, rodM, ey]
theorem XMMatrixRotationZ_num (c : Cfg) (a s k : ℝ) (h : XMScalarSinCos (num a) = (num s, num k)) :
    XMMatrixRotationZ c (num a) = mat (affine (rodM ez k s) 0) := by
  unfold XMMatrixRotationZ
  simp only [h]
  split_ifs <;> simp [affine, rodM, ez]

end DXM

namespace DXM
open DXM.E DXM.Spec Matrix Real

theorem prod_close {a b x y e d : ℝ} (ha : |a| ≤ 1) (hb : |b| ≤ 1) (h1 : |x - a| ≤ e) (h2 : |y - b| ≤ d) :
    |x * y - a * b| ≤ e + d + e * d := by
  have he : 0 ≤ e := (abs_nonneg _).trans h1
  have hd : 0 ≤ d := (abs_nonneg _).trans h2
  have e1 : |(x - a) * b| ≤ e * 1 := by rw [abs_mul]; exact mul_le_mul h1 hb (abs_nonneg _) he
  have e2 : |a * (y - b)| ≤ 1 * d := by rw [abs_mul]; exact mul_le_mul ha h2 (abs_nonneg _) zero_le_one
  have e3 : |(x - a) * (y - b)| ≤ e * d := by rw [abs_mul]; exact mul_le_mul h1 h2 (abs_nonneg _) he
  have := abs_add_le ((x - a) * b + a * (y - b)) ((x - a) * (y - b))
  have := abs_add_le ((x - a) * b) (a * (y - b))
  rw [show x * y - a * b = (x - a) * b + a * (y - b) + (x - a) * (y - b) by ring]
  linarith
theorem unitQ_le {q : Quaternion ℝ} (h : Quaternion.normSq q = 1) : |q.imI| ≤ 1 ∧ |q.imJ| ≤ 1 ∧ |q.imK| ≤ 1 ∧ |q.re| ≤ 1 := by
  rw [normSq4] at h
  refine ⟨?_, ?_, ?_, ?_⟩ <;> rw [abs_le] <;> constructor <;> nlinarith [sq_nonneg q.re, sq_nonneg q.imI, sq_nonneg q.imJ, sq_nonneg q.imK]
theorem rotM_close {p q : Quaternion ℝ} (hq : Quaternion.normSq q = 1) {e : ℝ} (h : QClose p q e) (i j : Fin 3) :
    |rotM p i j - rotM q i j| ≤ 8 * e + 4 * e ^ 2 := by
  obtain ⟨u1, u2, u3, u4⟩ := unitQ_le hq
  obtain ⟨h1, h2, h3, h4⟩ := h
  have key : ∀ a b : ℝ, |a| ≤ 2*e + e^2 → |b| ≤ 2*e+e^2 → |2 * (a + b)| ≤ 8*e+4*e^2 := by
    intro a b ha hb
    rw [abs_le] at *
    constructor <;> linarith [ha.1, ha.2, hb.1, hb.2]
  have P : ∀ {a b x y : ℝ}, |a| ≤ 1 → |b| ≤ 1 → |x - a| ≤ e → |y - b| ≤ e → |x * y - a * b| ≤ 2*e+e^2 := by
    intro a b x y k1 k2 k3 k4
    have := prod_close k1 k2 k3 k4; nlinarith
  have N : ∀ {a b x y : ℝ}, |a| ≤ 1 → |b| ≤ 1 → |x - a| ≤ e → |y - b| ≤ e → |-(x * y - a * b)| ≤ 2*e+e^2 := by
    intro a b x y k1 k2 k3 k4
    rw [abs_neg]; exact P k1 k2 k3 k4
  fin_cases i <;> fin_cases j <;> simp [rotM]
  · convert key _ _ (N u2 u2 h2 h2) (N u3 u3 h3 h3) using 2; ring
  · convert key _ _ (P u1 u2 h1 h2) (P u3 u4 h3 h4) using 2; ring
  · convert key _ _ (P u1 u3 h1 h3) (N u2 u4 h2 h4) using 2; ring
  · convert key _ _ (P u1 u2 h1 h2) (N u3 u4 h3 h4) using 2; ring
  · convert key _ _ (N u1 u1 h1 h1) (N u3 u3 h3 h3) using 2; ring
  · convert key _ _ (P u2 u3 h2 h3) (P u1 u4 h1 h4) using 2; ring
  · convert key _ _ (P u1 u3 h1 h3) (P u2 u4 h2 h4) using 2; ring
  · convert key _ _ (P u2 u3 h2 h3) (N u1 u4 h1 h4) using 2; ring
  · convert key _ _ (N u1 u1 h1 h1) (N u2 u2 h2 h2) using 2; ring

/-- RotationNormal from the computed half-angle pair. -/
theorem XMQuaternionRotationNormal_num (c : Cfg) (n : Fin 3 → ℝ) (w : E) (a s k : ℝ) (S K : Fin 4 → ℝ)
    (h : XMScalarSinCos (num (1/2 * a)) = (num s, num k))
    (hv : XMVectorSinCos c (vec4 fun _ => 1/2 * a) = (vec4 S, vec4 K)) :
    XMQuaternionRotationNormal c (vec3 n w) (num a) =
      if c.sse then quat (mkQ (K 3) (S 0 * n 0) (S 1 * n 1) (S 2 * n 2)) else quat (mkQ k (s * n 0) (s * n 1) (s * n 2)) := by
  have hv' : XMVectorSinCos c ⟨num (2⁻¹ * a), num (2⁻¹ * a), num (2⁻¹ * a), num (2⁻¹ * a)⟩ = (vec4 S, vec4 K) := by rw [← hv]; simp
  rw [one_div] at h
  unfold XMQuaternionRotationNormal
  split_ifs with hc
  · simp [hv']
    (repeat' apply And.intro) <;> ring
  · simp [h]
    (repeat' apply And.intro) <;> ring
/-- RollPitchYaw from the computed half-angle pairs: the product of the three axis quaternions. -/
theorem XMQuaternionRotationRollPitchYaw_num (c : Cfg) (a S K : Fin 4 → ℝ)
    (hv : XMVectorSinCos c (vec4 fun i => a i * (1/2)) = (vec4 S, vec4 K)) :
    XMQuaternionRotationRollPitchYawFromVector c (vec4 a) =
      quat (mkQ (K 1) 0 (S 1) 0 * mkQ (K 0) (S 0) 0 0 * mkQ (K 2) 0 0 (S 2)) := by
  have hv' : XMVectorSinCos c ⟨num (a 0 * 2⁻¹), num (a 1 * 2⁻¹), num (a 2 * 2⁻¹), num (a 3 * 2⁻¹)⟩ = (vec4 S, vec4 K) := by rw [← hv]; simp
  unfold XMQuaternionRotationRollPitchYawFromVector
  simp [hv']
  (repeat' apply And.intro) <;> ring

end DXM
