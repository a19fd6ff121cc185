import Verif.Lemmas.Quat
import Verif.Model.Space

/-
C35, C45, C46, C55, C56: quaternions and rotations on exact-real lanes, every build.
-/

set_option linter.all false

namespace DXM.Props
open DXM.E DXM.Spec Matrix

/-! ### C55 multiplication -/

/-- The product is Hamilton's with the arguments swapped. -/
theorem C55_hamilton (c : Cfg) (p q : Quaternion ℝ) : XMQuaternionMultiply c (quat p) (quat q) = quat (q * p) :=
  XMQuaternionMultiply_quat c p q
theorem C55_identity (c : Cfg) (q : Quaternion ℝ) : (XMQuaternionIdentity : V4 E) = quat 1 ∧
    XMQuaternionMultiply c XMQuaternionIdentity (quat q) = quat q ∧ XMQuaternionMultiply c (quat q) XMQuaternionIdentity = quat q := by
  have h : (XMQuaternionIdentity : V4 E) = quat 1 := by simp [XMQuaternionIdentity]; exact ⟨rfl, rfl, rfl, rfl⟩
  refine ⟨h, ?_, ?_⟩ <;> rw [h, C55_hamilton] <;> simp only [mul_one, one_mul]
theorem C55_assoc (c : Cfg) (p q r : Quaternion ℝ) :
    XMQuaternionMultiply c (XMQuaternionMultiply c (quat p) (quat q)) (quat r) =
      XMQuaternionMultiply c (quat p) (XMQuaternionMultiply c (quat q) (quat r)) := by
  simp only [C55_hamilton, mul_assoc]
theorem C55_norm (c : Cfg) (p q : Quaternion ℝ) :
    XMQuaternionLengthSq c (quat p) = all (Quaternion.normSq p) ∧
    XMQuaternionLengthSq c (XMQuaternionMultiply c (quat p) (quat q)) = all (Quaternion.normSq p * Quaternion.normSq q) := by
  have h : ∀ p, XMQuaternionLengthSq c (quat p) = all (Quaternion.normSq p) := fun p => by
    rw [normSq4]; simp [XMQuaternionLengthSq]; ring
  refine ⟨h p, ?_⟩
  rw [C55_hamilton, h, map_mul, mul_comm]
example (c : Cfg) : XMQuaternionMultiply c (quat (mkQ 0 1 0 0)) (quat (mkQ 0 0 1 0)) = quat (mkQ 0 0 0 (-1)) := by
  rw [C55_hamilton]; simp

/-! ### C56 conjugate and inverse -/

theorem C56_conjugate (c : Cfg) (q : Quaternion ℝ) : XMQuaternionConjugate c (quat q) = quat (star q) :=
  XMQuaternionConjugate_quat c q
/-- Above the threshold 2^-23 on the squared norm the quaternion inverse, otherwise zero. -/
theorem C56_inverse (c : Cfg) (q : Quaternion ℝ) :
    XMQuaternionInverse c (quat q) = if Quaternion.normSq q ≤ 1 / 8388608 then quat 0 else quat q⁻¹ := by
  have e : q⁻¹ = (Quaternion.normSq q)⁻¹ • star q := rfl
  have hl : XMVector4LengthSq c (quat q) = all (Quaternion.normSq q) := (C55_norm c q q).1
  unfold XMQuaternionInverse
  simp only [hl, C56_conjugate, e]
  split_ifs with h
  · simp at h
    simp [h]; exact ⟨rfl, rfl, rfl, rfl⟩
  · have h0 : Quaternion.normSq q ≠ 0 := by intro h1; rw [h1] at h; norm_num at h
    simp at h
    simp [h, div_num _ _ h0, not_le.2 h]
    refine ⟨?_, ?_, ?_, ?_⟩ <;> field_simp
theorem C56_inverse_mul (c : Cfg) (q : Quaternion ℝ) (h : 1 / 8388608 < Quaternion.normSq q) :
    XMQuaternionMultiply c (XMQuaternionInverse c (quat q)) (quat q) = XMQuaternionIdentity ∧
    XMQuaternionMultiply c (quat q) (XMQuaternionInverse c (quat q)) = XMQuaternionIdentity := by
  have h0 : q ≠ 0 := by rintro rfl; rw [map_zero] at h; norm_num at h
  rw [C56_inverse, if_neg (not_le.2 h), C55_hamilton, C55_hamilton, mul_inv_cancel₀ h0, inv_mul_cancel₀ h0, (C55_identity c 1).1]
  exact ⟨rfl, rfl⟩
example : (1 : ℝ) / 8388608 < Quaternion.normSq (mkQ 1 2 3 4) ∧ Quaternion.normSq (mkQ 0 0 0.0001 0) ≤ 1 / 8388608 := by
  rw [normSq4, normSq4]; norm_num

/-! ### C35 rotation of vectors -/

/-- Rotate is `v ↦ q v q*`, for any quaternion; the w lane of the input is ignored. -/
theorem C35_rotate (c : Cfg) (q : Quaternion ℝ) (v : Fin 3 → ℝ) (w : E) :
    XMVector3Rotate c (vec3 v w) (quat q) = quat (q * pureQ v * star q) := by
  have h : XMVectorSelect g_XMSelect1110 (vec3 v w) g_XMSelect1110 = quat (pureQ v) := by simp
  unfold XMVector3Rotate
  simp only [h, C56_conjugate, C55_hamilton, mul_assoc]
theorem C35_inverseRotate (c : Cfg) (q : Quaternion ℝ) (v : Fin 3 → ℝ) (w : E) :
    XMVector3InverseRotate c (vec3 v w) (quat q) = quat (star q * pureQ v * q) := by
  have h : XMVectorSelect g_XMSelect1110 (vec3 v w) g_XMSelect1110 = quat (pureQ v) := by simp
  unfold XMVector3InverseRotate
  simp only [h, C56_conjugate, C55_hamilton, mul_assoc]
theorem quat_pureQ (v : Fin 3 → ℝ) : quat (pureQ v) = vec3 v (num 0) := by simp
theorem rotM_cross (q : Quaternion ℝ) (h : Quaternion.normSq q = 1) (u v : Fin 3 → ℝ) :
    (crossProduct u v) ᵥ* rotM q = crossProduct (u ᵥ* rotM q) (v ᵥ* rotM q) := by
  rw [normSq4] at h
  ext i; fin_cases i <;> simp only [vecMul3, cross_apply] <;> simp [rotM, vecMul3] <;> grind
theorem rotM_dot (q : Quaternion ℝ) (h : Quaternion.normSq q = 1) (u v : Fin 3 → ℝ) :
    (u ᵥ* rotM q) ⬝ᵥ (v ᵥ* rotM q) = u ⬝ᵥ v := by
  rw [← Matrix.dotProduct_mulVec, ← Matrix.mulVec_transpose, Matrix.mulVec_mulVec, rotM_orth q h, Matrix.one_mulVec]
/-- With a unit quaternion Rotate is a linear isometry that also preserves cross products (so orientation);
the result has w = 0. -/
theorem C35_isometry (c : Cfg) (q : Quaternion ℝ) (hq : Quaternion.normSq q = 1) :
    ∃ f : (Fin 3 → ℝ) →ₗ[ℝ] (Fin 3 → ℝ), (∀ v w, XMVector3Rotate c (vec3 v w) (quat q) = vec3 (f v) (num 0)) ∧
      (∀ u v, f u ⬝ᵥ f v = u ⬝ᵥ v) ∧ ∀ u v, f (crossProduct u v) = crossProduct (f u) (f v) := by
  refine ⟨Matrix.vecMulLinear (rotM q), fun v w => ?_, fun u v => ?_, fun u v => ?_⟩
  · rw [C35_rotate, ← rotM_act q hq, quat_pureQ]; rfl
  · exact rotM_dot q hq u v
  · exact rotM_cross q hq u v
/-- InverseRotate undoes Rotate, and conversely. -/
theorem C35_inverse (c : Cfg) (q : Quaternion ℝ) (hq : Quaternion.normSq q = 1) (v : Fin 3 → ℝ) (w : E) :
    XMVector3InverseRotate c (XMVector3Rotate c (vec3 v w) (quat q)) (quat q) = vec3 v (num 0) ∧
    XMVector3Rotate c (XMVector3InverseRotate c (vec3 v w) (quat q)) (quat q) = vec3 v (num 0) := by
  have hs : Quaternion.normSq (star q) = 1 := by rw [Quaternion.normSq_star, hq]
  have e1 : q * star q = 1 := by rw [Quaternion.self_mul_star, hq]; rfl
  have e2 : star q * q = 1 := by rw [Quaternion.star_mul_self, hq]; rfl
  have h1 := rotM_act q hq v
  have h2 := rotM_act (star q) hs v
  rw [star_star] at h2
  constructor
  · rw [C35_rotate, ← h1, quat_pureQ, C35_inverseRotate, h1, ← quat_pureQ]
    congr 1
    calc star q * (q * pureQ v * star q) * q = (star q * q) * pureQ v * (star q * q) := by simp only [mul_assoc]
      _ = pureQ v := by rw [e2, one_mul, mul_one]
  · rw [C35_inverseRotate, ← h2, quat_pureQ, C35_rotate, h2, ← quat_pureQ]
    congr 1
    calc q * (star q * pureQ v * q) * star q = (q * star q) * pureQ v * (q * star q) := by simp only [mul_assoc]
      _ = pureQ v := by rw [e1, one_mul, mul_one]
/-- Rotating by XMQuaternionMultiply(Q1, Q2) is rotating by Q1, then by Q2. -/
theorem C35_compose (c : Cfg) (p q : Quaternion ℝ) (hp : Quaternion.normSq p = 1) (v : Fin 3 → ℝ) (w : E) :
    XMVector3Rotate c (vec3 v w) (XMQuaternionMultiply c (quat p) (quat q)) =
      XMVector3Rotate c (XMVector3Rotate c (vec3 v w) (quat p)) (quat q) := by
  rw [C55_hamilton, C35_rotate, C35_rotate, ← rotM_act p hp, quat_pureQ, C35_rotate, rotM_act p hp, star_mul]
  simp only [mul_assoc]
/-- A concrete unit quaternion that is no special case. -/
example : Quaternion.normSq (mkQ (1/2) (1/2) (-1/2) (1/2)) = 1 := by rw [normSq4]; norm_num

/-! ### C45 quaternion to matrix -/

/-- The matrix of a unit quaternion is a rotation acting as `v ↦ q v q*` on row vectors. -/
theorem C45_matrix (c : Cfg) (q : Quaternion ℝ) (hq : Quaternion.normSq q = 1) :
    ∃ R : Matrix (Fin 3) (Fin 3) ℝ, XMMatrixRotationQuaternion c (quat q) = mat (affine R 0) ∧
      R * Rᵀ = 1 ∧ R.det = 1 ∧ ∀ v, pureQ (v ᵥ* R) = q * pureQ v * star q :=
  ⟨rotM q, XMMatrixRotationQuaternion_quat c q, rotM_orth q hq, rotM_det q hq, rotM_act q hq⟩
/-- Transforming by the matrix is rotating by the quaternion. -/
theorem C45_agrees (c : Cfg) (q : Quaternion ℝ) (hq : Quaternion.normSq q = 1) (v : Fin 3 → ℝ) (w w' : E) :
    (∃ a, Is3 (XMVector3TransformNormal c (vec3 v w) (XMMatrixRotationQuaternion c (quat q))) a ∧
      Is3 (XMVector3Transform c (vec3 v w) (XMMatrixRotationQuaternion c (quat q))) a ∧
      Is3 (XMVector3Rotate c (vec3 v w') (quat q)) a) := by
  refine ⟨v ᵥ* rotM q, ?_, ?_, ?_⟩
  · rw [XMMatrixRotationQuaternion_quat]
    refine (is3_iff _ _).2 ?_
    simp only [vecMul3]
    simp [affine]
  · rw [XMMatrixRotationQuaternion_quat]
    refine (is3_iff _ _).2 ?_
    simp only [vecMul3]
    simp [affine]
  · rw [C35_rotate, ← rotM_act q hq, quat_pureQ]
    exact ⟨_, rfl⟩
/-- The matrix of a product is the product of the matrices, in the same order. -/
theorem C45_product (c : Cfg) (p q : Quaternion ℝ) (hp : Quaternion.normSq p = 1) (hq : Quaternion.normSq q = 1) :
    XMMatrixRotationQuaternion c (XMQuaternionMultiply c (quat p) (quat q)) =
      XMMatrixMultiply c (XMMatrixRotationQuaternion c (quat p)) (XMMatrixRotationQuaternion c (quat q)) := by
  rw [C55_hamilton, XMMatrixRotationQuaternion_quat, XMMatrixRotationQuaternion_quat, XMMatrixRotationQuaternion_quat,
    XMMatrixMultiply_mat, rotM_mul q p hq hp]
  congr 1
  ext i j
  fin_cases i <;> fin_cases j <;> simp [affine, Matrix.mul_apply, Fin.sum_univ_three, Fin.sum_univ_four]

/-! ### C46 matrix to quaternion -/

/-- Every rotation matrix - whatever its other entries - yields a unit quaternion whose matrix it is. -/
theorem C46_matrix (c : Cfg) (R : Matrix (Fin 3) (Fin 3) ℝ) (h : R * Rᵀ = 1) (hd : R.det = 1) (M : M4 E)
    (h0 : Is3 M.r0 (R 0)) (h1 : Is3 M.r1 (R 1)) (h2 : Is3 M.r2 (R 2)) :
    ∃ q, Quaternion.normSq q = 1 ∧ XMQuaternionRotationMatrix c M = quat q ∧
      XMMatrixRotationQuaternion c (XMQuaternionRotationMatrix c M) = mat (affine R 0) := by
  obtain ⟨q, hq, rfl⟩ := exists_rotM R h hd
  rcases XMQuaternionRotationMatrix_rotM c q hq M h0 h1 h2 with e | e
  · exact ⟨q, hq, e, by rw [e, XMMatrixRotationQuaternion_quat]⟩
  · exact ⟨-q, by rw [Quaternion.normSq_neg, hq], e, by rw [e, XMMatrixRotationQuaternion_quat, rotM_neg]⟩
/-- Quaternion to matrix and back is the identity up to sign. -/
theorem C46_roundtrip (c : Cfg) (q : Quaternion ℝ) (hq : Quaternion.normSq q = 1) :
    XMQuaternionRotationMatrix c (XMMatrixRotationQuaternion c (quat q)) = quat q ∨
    XMQuaternionRotationMatrix c (XMMatrixRotationQuaternion c (quat q)) = quat (-q) := by
  refine XMQuaternionRotationMatrix_rotM c q hq _ ?_ ?_ ?_ <;> rw [XMMatrixRotationQuaternion_quat] <;>
    exact (is3_iff _ _).2 (by simp [affine])
/-- Each of the four branches is met by a rotation. -/
example : let R : Fin 4 → Matrix (Fin 3) (Fin 3) ℝ := ![!![1,0,0;0,-1,0;0,0,-1], !![-1,0,0;0,1,0;0,0,-1], !![-1,0,0;0,-1,0;0,0,1], 1]
    ∀ i, R i * (R i)ᵀ = 1 ∧ (R i).det = 1 := by
  intro R i
  fin_cases i <;> refine ⟨?_, ?_⟩ <;> first | (ext i j; fin_cases i <;> fin_cases j <;> simp [R, Matrix.mul_apply, Fin.sum_univ_three]) | simp [R, Matrix.det_fin_three]

end DXM.Props
