import Verif.Lemmas.Mat

/-
C36 (composition), C38-C43, C53: matrices on exact-real lanes, every build.
-/

set_option linter.all false

namespace DXM.Props
open DXM.E DXM.Spec Matrix

abbrev Mat4 := Matrix (Fin 4) (Fin 4) ℝ

/-! ### C38 multiplication -/

theorem C38_multiply (c : Cfg) (A B : Mat4) : XMMatrixMultiply c (mat A) (mat B) = mat (A * B) := XMMatrixMultiply_mat c A B
theorem C38_multiplyTranspose (c : Cfg) (A B : Mat4) : XMMatrixMultiplyTranspose c (mat A) (mat B) = mat (A * B)ᵀ := by
  simp only [mat, vec4, Matrix.transpose_apply, matMul4]
  simp [XMMatrixMultiplyTranspose]
/-- The algebraic laws, at the level of the API. -/
theorem C38_multiply_laws (c : Cfg) (A B D : Mat4) :
    XMMatrixMultiply c (XMMatrixMultiply c (mat A) (mat B)) (mat D) = XMMatrixMultiply c (mat A) (XMMatrixMultiply c (mat B) (mat D)) ∧
    XMMatrixMultiply c XMMatrixIdentity (mat A) = mat A ∧ XMMatrixMultiply c (mat A) XMMatrixIdentity = mat A ∧
    XMMatrixMultiply c (mat A) (XMMatrix.add (mat B) (mat D)) =
      XMMatrix.add (XMMatrixMultiply c (mat A) (mat B)) (XMMatrixMultiply c (mat A) (mat D)) := by
  have hi : (XMMatrixIdentity : M4 E) = mat 1 := by simp [XMMatrixIdentity, Matrix.one_apply]
  have ha : ∀ P Q : Mat4, XMMatrix.add (mat P) (mat Q) = mat (P + Q) := fun P Q => by simp [XMMatrix.add]
  refine ⟨?_, ?_, ?_, ?_⟩ <;> simp only [hi, ha, C38_multiply, Matrix.mul_assoc, Matrix.one_mul, Matrix.mul_one, Matrix.mul_add]
example (c : Cfg) : XMMatrixMultiply c (mat !![1,2,0,0;0,1,0,0;0,0,1,0;0,0,0,1]) (mat !![1,0,0,0;3,1,0,0;0,0,1,0;0,0,0,1]) =
    mat !![7,2,0,0;3,1,0,0;0,0,1,0;0,0,0,1] := by
  rw [C38_multiply]; congr 1; ext i j; fin_cases i <;> fin_cases j <;> simp [Matrix.mul_apply, Fin.sum_univ_four] <;> norm_num

/-! ### C36 composition of transforms -/

theorem C36_compose4 (c : Cfg) (v : Fin 4 → ℝ) (A B : Mat4) :
    XMVector4Transform c (vec4 v) (XMMatrixMultiply c (mat A) (mat B)) =
      XMVector4Transform c (XMVector4Transform c (vec4 v) (mat A)) (mat B) := by
  rw [C38_multiply]; simp only [mat, vec4, matMul4]; simp; refine ⟨?_, ?_, ?_, ?_⟩ <;> ring
/-- Affine matrices: the 3-D transform (which supplies w = 1) composes too. -/
theorem C36_compose3 (c : Cfg) (v : Fin 3 → ℝ) (w : E) (R S : Matrix (Fin 3) (Fin 3) ℝ) (t u : Fin 3 → ℝ) :
    XMVector3Transform c (vec3 v w) (XMMatrixMultiply c (mat (affine R t)) (mat (affine S u))) =
      XMVector3Transform c (XMVector3Transform c (vec3 v w) (mat (affine R t))) (mat (affine S u)) ∧
    XMVector3TransformNormal c (vec3 v w) (XMMatrixMultiply c (mat (affine R t)) (mat (affine S u))) =
      XMVector3TransformNormal c (XMVector3TransformNormal c (vec3 v w) (mat (affine R t))) (mat (affine S u)) := by
  rw [C38_multiply]; simp only [mat, vec4, matMul4]; simp [affine]
  refine ⟨⟨?_, ?_, ?_⟩, ?_, ?_, ?_⟩ <;> ring
/-- Perspective division commutes with a further affine map, wherever it is defined. -/
theorem C36_compose_coord (c : Cfg) (v : Fin 3 → ℝ) (w : E) (A : Mat4) (S : Matrix (Fin 3) (Fin 3) ℝ) (u : Fin 3 → ℝ)
    (h : v 0 * A 0 3 + v 1 * A 1 3 + v 2 * A 2 3 + A 3 3 ≠ 0) :
    XMVector3TransformCoord c (vec3 v w) (XMMatrixMultiply c (mat A) (mat (affine S u))) =
      XMVector3TransformCoord c (XMVector3TransformCoord c (vec3 v w) (mat A)) (mat (affine S u)) := by
  rw [C38_multiply]; simp only [mat, vec4, matMul4]; simp [affine]
  rw [XMVector3TransformCoord_num _ _ _ _ _ _ _ _ _ _ _ _ _ _ _ _ _ _ _ _ _ h,
    XMVector3TransformCoord_num _ _ _ _ _ _ _ _ _ _ _ _ _ _ _ _ _ _ _ _ _ h,
    XMVector3TransformCoord_num _ _ _ _ _ _ _ _ _ _ _ _ _ _ _ _ _ _ _ _ _ (by simp)]
  simp [h]; refine ⟨?_, ?_, ?_⟩ <;> field_simp <;> ring
example : (1 : ℝ) * 0 + 2 * 0 + 3 * 1 + 0 ≠ 0 := by norm_num

/-! ### C39 transpose: bit for bit, on any lanes -/

theorem C39_transpose {α : Type} (c : Cfg) (M : M4 α) (i j : Fin 4) :
    ((XMMatrixTranspose c M).row i).lane j = (M.row j).lane i := by
  rw [XMMatrixTranspose_eq]; fin_cases i <;> fin_cases j <;> rfl
theorem C39_involution {α : Type} (c c' : Cfg) (M : M4 α) : XMMatrixTranspose c (XMMatrixTranspose c' M) = M := by simp
example (c : Cfg) : XMMatrixTranspose c (⟨⟨1, 2, 3, 4⟩, ⟨5, 6, 7, 8⟩, ⟨9, 10, 11, 12⟩, ⟨13, 14, 15, 16⟩⟩ : M4 ℕ) =
    ⟨⟨1, 5, 9, 13⟩, ⟨2, 6, 10, 14⟩, ⟨3, 7, 11, 15⟩, ⟨4, 8, 12, 16⟩⟩ := by simp

/-! ### C40 determinant -/

theorem C40_determinant (c : Cfg) (A : Mat4) : XMMatrixDeterminant c (mat A) = all A.det := XMMatrixDeterminant_mat c A
theorem C40_determinant_laws (c : Cfg) (A B : Mat4) :
    XMMatrixDeterminant c (XMMatrixMultiply c (mat A) (mat B)) =
      XMVectorMultiply (XMMatrixDeterminant c (mat A)) (XMMatrixDeterminant c (mat B)) ∧
    XMMatrixDeterminant c (XMMatrixTranspose c (mat A)) = XMMatrixDeterminant c (mat A) ∧
    XMMatrixDeterminant c (XMMatrixIdentity : M4 E) = all 1 := by
  have hi : (XMMatrixIdentity : M4 E) = mat 1 := by simp [XMMatrixIdentity, Matrix.one_apply]
  rw [hi, C38_multiply, XMMatrixTranspose_mat]
  simp only [C40_determinant, Matrix.det_mul, Matrix.det_transpose, Matrix.det_one]
  simp
example (c : Cfg) : XMMatrixDeterminant c (mat !![2,1,0,0;0,3,0,0;0,0,0,1;0,0,1,0]) = all (-6) := by
  rw [C40_determinant, det4]; simp; norm_num

/-! ### C41 inverse -/

theorem C41_inverse (c : Cfg) (A : Mat4) (h : A.det ≠ 0) : XMMatrixInverse c (mat A) = (mat A⁻¹, all A.det) :=
  XMMatrixInverse_mat c A h
theorem C41_inverse_two_sided (c : Cfg) (A : Mat4) (h : A.det ≠ 0) :
    XMMatrixMultiply c (mat A) (XMMatrixInverse c (mat A)).1 = XMMatrixIdentity ∧
    XMMatrixMultiply c (XMMatrixInverse c (mat A)).1 (mat A) = XMMatrixIdentity ∧
    (XMMatrixInverse c (mat A)).2 = XMMatrixDeterminant c (mat A) ∧
    (XMMatrixInverse c (XMMatrixInverse c (mat A)).1).1 = mat A := by
  have hi : (XMMatrixIdentity : M4 E) = mat 1 := by simp [XMMatrixIdentity, Matrix.one_apply]
  have hu : IsUnit A.det := isUnit_iff_ne_zero.2 h
  have h' : A⁻¹.det ≠ 0 := by rw [Matrix.det_nonsing_inv, Ring.inverse_eq_inv']; exact inv_ne_zero h
  rw [hi, C41_inverse c A h, C40_determinant]
  simp only [C38_multiply]
  rw [C41_inverse c _ h', Matrix.mul_nonsing_inv _ hu, Matrix.nonsing_inv_mul _ hu, Matrix.nonsing_inv_nonsing_inv _ hu]
  simp
example : (!![2,1,0,0;0,3,0,0;0,0,0,1;0,0,1,0] : Mat4).det ≠ 0 := by rw [det4]; simp

/-! ### C42 tensor product -/

theorem C42_tensor (c : Cfg) (a b : Fin 4 → ℝ) :
    XMMatrixVectorTensorProduct c (vec4 a) (vec4 b) = mat (Matrix.vecMulVec a b) := by
  simp [XMMatrixVectorTensorProduct, Matrix.vecMulVec_apply]
theorem C42_tensor_action (c : Cfg) (a b v : Fin 4 → ℝ) :
    XMVector4Transform c (vec4 v) (XMMatrixVectorTensorProduct c (vec4 a) (vec4 b)) = vec4 ((v ⬝ᵥ a) • b) := by
  rw [C42_tensor, dot4]; simp [Matrix.vecMulVec_apply]; refine ⟨?_, ?_, ?_, ?_⟩ <;> ring
example (c : Cfg) : XMMatrixVectorTensorProduct c (vec4 ![1, 2, 0, 0]) (vec4 ![3, 5, 0, 0]) =
    mat !![3,5,0,0;6,10,0,0;0,0,0,0;0,0,0,0] := by rw [C42_tensor]; simp [Matrix.vecMulVec_apply]; norm_num

/-! ### C43 identity, translation, scaling -/

theorem C43_identity (c : Cfg) (v : Fin 4 → ℝ) (A : Mat4) : (XMMatrixIdentity : M4 E) = mat 1 ∧
    XMVector4Transform c (vec4 v) XMMatrixIdentity = vec4 v := by
  constructor <;> simp [XMMatrixIdentity, Matrix.one_apply]
theorem C43_translation (c : Cfg) (t : Fin 3 → ℝ) (w : E) :
    XMMatrixTranslation c (num (t 0)) (num (t 1)) (num (t 2)) = mat (affine 1 t) ∧
    XMMatrixTranslationFromVector c (vec3 t w) = mat (affine 1 t) := by
  constructor <;> simp [XMMatrixTranslation, XMMatrixTranslationFromVector, affine]
theorem C43_scaling (c : Cfg) (s : Fin 3 → ℝ) (w : E) :
    XMMatrixScaling (num (s 0)) (num (s 1)) (num (s 2)) = mat (affine (Matrix.diagonal s) 0) ∧
    XMMatrixScalingFromVector c (vec3 s w) = mat (affine (Matrix.diagonal s) 0) := by
  constructor <;> simp [XMMatrixScaling, XMMatrixScalingFromVector, affine]
/-- What they do to points and to directions. -/
theorem C43_translation_action (c : Cfg) (t p : Fin 3 → ℝ) (w w' : E) :
    XMVector3Transform c (vec3 p w) (XMMatrixTranslationFromVector c (vec3 t w')) = vec3 (p + t) (num 1) ∧
    XMVector3TransformCoord c (vec3 p w) (XMMatrixTranslationFromVector c (vec3 t w')) = vec3 (p + t) (num 1) ∧
    Is3 (XMVector3TransformNormal c (vec3 p w) (XMMatrixTranslationFromVector c (vec3 t w'))) p := by
  rw [(C43_translation c t w').2]
  refine ⟨?_, ?_, (is3_iff _ _).2 ?_⟩ <;> simp [affine]
  rw [XMVector3TransformCoord_num _ _ _ _ _ _ _ _ _ _ _ _ _ _ _ _ _ _ _ _ _ (by simp)]; simp
theorem C43_scaling_action (c : Cfg) (s p : Fin 3 → ℝ) (w w' : E) :
    XMVector3Transform c (vec3 p w) (XMMatrixScalingFromVector c (vec3 s w')) = vec3 (p * s) (num 1) ∧
    XMVector3TransformCoord c (vec3 p w) (XMMatrixScalingFromVector c (vec3 s w')) = vec3 (p * s) (num 1) ∧
    Is3 (XMVector3TransformNormal c (vec3 p w) (XMMatrixScalingFromVector c (vec3 s w'))) (p * s) := by
  rw [(C43_scaling c s w').2]
  refine ⟨?_, ?_, (is3_iff _ _).2 ?_⟩ <;> simp [affine]
  rw [XMVector3TransformCoord_num _ _ _ _ _ _ _ _ _ _ _ _ _ _ _ _ _ _ _ _ _ (by simp)]; simp
/-- Translations compose additively and invert by negation; scalings multiplicatively and by reciprocals. -/
theorem C43_compose (c : Cfg) (t u : Fin 3 → ℝ) (w w' w'' : E) :
    XMMatrixMultiply c (XMMatrixTranslationFromVector c (vec3 t w)) (XMMatrixTranslationFromVector c (vec3 u w')) =
      XMMatrixTranslationFromVector c (vec3 (t + u) w'') ∧
    XMMatrixMultiply c (XMMatrixScalingFromVector c (vec3 t w)) (XMMatrixScalingFromVector c (vec3 u w')) =
      XMMatrixScalingFromVector c (vec3 (t * u) w'') := by
  simp only [C43_translation, C43_scaling, C38_multiply]
  constructor <;> simp only [mat, vec4, matMul4] <;> simp [affine]
theorem C43_inverse (c : Cfg) (t s : Fin 3 → ℝ) (w w' : E) (hs : ∀ i, s i ≠ 0) :
    (XMMatrixInverse c (XMMatrixTranslationFromVector c (vec3 t w))).1 = XMMatrixTranslationFromVector c (vec3 (-t) w') ∧
    (XMMatrixInverse c (XMMatrixScalingFromVector c (vec3 s w))).1 = XMMatrixScalingFromVector c (vec3 s⁻¹ w') := by
  simp only [C43_translation, C43_scaling]
  have h1 : affine 1 t * affine 1 (-t) = 1 := by
    ext i j; rw [matMul4]; fin_cases i <;> fin_cases j <;> simp [affine]
  have h2 : affine (Matrix.diagonal s) 0 * affine (Matrix.diagonal s⁻¹) 0 = 1 := by
    ext i j; rw [matMul4]; fin_cases i <;> fin_cases j <;> simp [affine, hs]
  constructor
  · rw [C41_inverse, Matrix.inv_eq_right_inv h1]
    intro h; have := congrArg Matrix.det h1; rw [Matrix.det_mul, h] at this; simp at this
  · rw [C41_inverse, Matrix.inv_eq_right_inv h2]
    intro h; have := congrArg Matrix.det h2; rw [Matrix.det_mul, h] at this; simp at this
example : ∀ i, (![2, 3, 5] : Fin 3 → ℝ) i ≠ 0 := by intro i; fin_cases i <;> simp

/-! ### C53 operators -/

theorem C53_operators (c : Cfg) (A B : Mat4) (k : ℝ) :
    XMMatrix.add (mat A) (mat B) = mat (A + B) ∧ XMMatrix.sub (mat A) (mat B) = mat (A - B) ∧
    XMMatrix.mul c (mat A) (mat B) = mat (A * B) ∧ XMMatrix.mulAssign c (mat A) (mat B) = XMMatrix.mul c (mat A) (mat B) ∧
    XMMatrix.scale c (mat A) (num k) = mat (k • A) ∧ XMMatrix.neg c (mat A) = mat (-A) ∧
    (k ≠ 0 → XMMatrix.divScalar (mat A) (num k) = mat (k⁻¹ • A)) := by
  refine ⟨?_, ?_, C38_multiply c A B, rfl, ?_, ?_, ?_⟩
  · simp [XMMatrix.add]
  · simp [XMMatrix.sub]
  · simp [XMMatrix.scale, mul_comm]
  · simp [XMMatrix.neg]
  · intro h; simp [XMMatrix.divScalar, div_num _ _ h, div_eq_inv_mul]
/-- The full claim for the assigning sum and difference, on whatever lanes. -/
def C53_assign_claim : Prop := ∀ A B : M4 E, XMMatrix.addAssign A B = XMMatrix.add A B ∧ XMMatrix.subAssign A B = XMMatrix.sub A B
/-- It is false: `+=` and `-=` store all four row results in row 0 (matrix.rs:3784-3789, 3811-3816). -/
theorem C53_assign_fails : ¬ C53_assign_claim := by
  intro h
  have := (h (mat 0) (mat 1)).1
  simp [XMMatrix.addAssign, XMMatrix.add] at this
/-- What `+=` and `-=` leave behind: row 0 is the sum (difference) of the rows 3, the other rows are untouched. -/
theorem C53_assign_partial {α : Type} [Lane α] (A B : M4 α) :
    XMMatrix.addAssign A B = { A with r0 := XMVectorAdd A.r3 B.r3 } ∧
    XMMatrix.subAssign A B = { A with r0 := XMVectorSubtract A.r3 B.r3 } := ⟨rfl, rfl⟩
example (c : Cfg) : XMMatrix.scale c (mat 1) (num 3) = mat (3 • (1 : Mat4)) := by
  have := (C53_operators c 1 1 3).2.2.2.2.1; rw [this]; congr 1; ext; simp

end DXM.Props
