import Mathlib.LinearAlgebra.Matrix.NonsingularInverse
import Mathlib.LinearAlgebra.Matrix.Adjugate
import Verif.Model.Space
import Verif.Lemmas.SpecSimp

/-
Matrix functions on exact-real lanes.
-/

set_option linter.all false

namespace DXM
open DXM.E DXM.Spec Matrix

@[simp] theorem transposeSSE_eq {β : Type} (r0 r1 r2 r3 : V4 β) : transposeSSE r0 r1 r2 r3 =
    ⟨⟨r0.x, r1.x, r2.x, r3.x⟩, ⟨r0.y, r1.y, r2.y, r3.y⟩, ⟨r0.z, r1.z, r2.z, r3.z⟩, ⟨r0.w, r1.w, r2.w, r3.w⟩⟩ := by
  simp [transposeSSE]
@[simp] theorem transposeAVX2_eq {β : Type} (r0 r1 r2 r3 : V4 β) : transposeAVX2 r0 r1 r2 r3 =
    ⟨⟨r0.x, r1.x, r2.x, r3.x⟩, ⟨r0.y, r1.y, r2.y, r3.y⟩, ⟨r0.z, r1.z, r2.z, r3.z⟩, ⟨r0.w, r1.w, r2.w, r3.w⟩⟩ := by
  simp [transposeAVX2]
@[simp] theorem XMMatrixTranspose_eq {β : Type} (c : Cfg) (M : M4 β) : XMMatrixTranspose c M =
    ⟨⟨M.r0.x, M.r1.x, M.r2.x, M.r3.x⟩, ⟨M.r0.y, M.r1.y, M.r2.y, M.r3.y⟩, ⟨M.r0.z, M.r1.z, M.r2.z, M.r3.z⟩, ⟨M.r0.w, M.r1.w, M.r2.w, M.r3.w⟩⟩ := by
  simp [XMMatrixTranspose]

section
variable (c : Cfg) (v1 v2 v3 v4 : ℝ) (m11 m12 m13 m14 m21 m22 m23 m24 m31 m32 m33 m34 m41 m42 m43 m44 : ℝ)
@[simp] theorem mulRow_num : mulRow c ⟨num v1, num v2, num v3, num v4⟩
    ⟨⟨num m11, num m12, num m13, num m14⟩, ⟨num m21, num m22, num m23, num m24⟩, ⟨num m31, num m32, num m33, num m34⟩, ⟨num m41, num m42, num m43, num m44⟩⟩ =
    ⟨num (v1 * m11 + v2 * m21 + v3 * m31 + v4 * m41), num (v1 * m12 + v2 * m22 + v3 * m32 + v4 * m42),
     num (v1 * m13 + v2 * m23 + v3 * m33 + v4 * m43), num (v1 * m14 + v2 * m24 + v3 * m34 + v4 * m44)⟩ := by
  unfold mulRow; split_ifs <;> simp <;> refine ⟨?_, ?_, ?_, ?_⟩ <;> ring
end

theorem XMMatrixMultiply_mat (c : Cfg) (A B : Matrix (Fin 4) (Fin 4) ℝ) : XMMatrixMultiply c (mat A) (mat B) = mat (A * B) := by
  simp only [mat, vec4, matMul4]; simp [XMMatrixMultiply]
theorem XMMatrixTranspose_mat (c : Cfg) (A : Matrix (Fin 4) (Fin 4) ℝ) : XMMatrixTranspose c (mat A) = mat Aᵀ := by simp

theorem det4 (A : Matrix (Fin 4) (Fin 4) ℝ) : A.det =
    A 0 0 * (A 1 1 * (A 2 2 * A 3 3 - A 2 3 * A 3 2) - A 1 2 * (A 2 1 * A 3 3 - A 2 3 * A 3 1) + A 1 3 * (A 2 1 * A 3 2 - A 2 2 * A 3 1))
    - A 0 1 * (A 1 0 * (A 2 2 * A 3 3 - A 2 3 * A 3 2) - A 1 2 * (A 2 0 * A 3 3 - A 2 3 * A 3 0) + A 1 3 * (A 2 0 * A 3 2 - A 2 2 * A 3 0))
    + A 0 2 * (A 1 0 * (A 2 1 * A 3 3 - A 2 3 * A 3 1) - A 1 1 * (A 2 0 * A 3 3 - A 2 3 * A 3 0) + A 1 3 * (A 2 0 * A 3 1 - A 2 1 * A 3 0))
    - A 0 3 * (A 1 0 * (A 2 1 * A 3 2 - A 2 2 * A 3 1) - A 1 1 * (A 2 0 * A 3 2 - A 2 2 * A 3 0) + A 1 2 * (A 2 0 * A 3 1 - A 2 1 * A 3 0)) := by
  simp [Matrix.det_succ_row_zero, Fin.sum_univ_succ, Matrix.submatrix, Fin.succAbove]
  ring

theorem XMMatrixDeterminant_mat (c : Cfg) (A : Matrix (Fin 4) (Fin 4) ℝ) : XMMatrixDeterminant c (mat A) = all A.det := by
  rw [det4]; simp [XMMatrixDeterminant]; ring

theorem adj4 (A : Matrix (Fin 4) (Fin 4) ℝ) : A.adjugate = Matrix.of ![
   ![(A 1 1 * (A 2 2 * A 3 3 - A 2 3 * A 3 2) - A 1 2 * (A 2 1 * A 3 3 - A 2 3 * A 3 1) + A 1 3 * (A 2 1 * A 3 2 - A 2 2 * A 3 1)),
     -(A 0 1 * (A 2 2 * A 3 3 - A 2 3 * A 3 2) - A 0 2 * (A 2 1 * A 3 3 - A 2 3 * A 3 1) + A 0 3 * (A 2 1 * A 3 2 - A 2 2 * A 3 1)),
     (A 0 1 * (A 1 2 * A 3 3 - A 1 3 * A 3 2) - A 0 2 * (A 1 1 * A 3 3 - A 1 3 * A 3 1) + A 0 3 * (A 1 1 * A 3 2 - A 1 2 * A 3 1)),
     -(A 0 1 * (A 1 2 * A 2 3 - A 1 3 * A 2 2) - A 0 2 * (A 1 1 * A 2 3 - A 1 3 * A 2 1) + A 0 3 * (A 1 1 * A 2 2 - A 1 2 * A 2 1))],
   ![-(A 1 0 * (A 2 2 * A 3 3 - A 2 3 * A 3 2) - A 1 2 * (A 2 0 * A 3 3 - A 2 3 * A 3 0) + A 1 3 * (A 2 0 * A 3 2 - A 2 2 * A 3 0)),
     (A 0 0 * (A 2 2 * A 3 3 - A 2 3 * A 3 2) - A 0 2 * (A 2 0 * A 3 3 - A 2 3 * A 3 0) + A 0 3 * (A 2 0 * A 3 2 - A 2 2 * A 3 0)),
     -(A 0 0 * (A 1 2 * A 3 3 - A 1 3 * A 3 2) - A 0 2 * (A 1 0 * A 3 3 - A 1 3 * A 3 0) + A 0 3 * (A 1 0 * A 3 2 - A 1 2 * A 3 0)),
     (A 0 0 * (A 1 2 * A 2 3 - A 1 3 * A 2 2) - A 0 2 * (A 1 0 * A 2 3 - A 1 3 * A 2 0) + A 0 3 * (A 1 0 * A 2 2 - A 1 2 * A 2 0))],
   ![(A 1 0 * (A 2 1 * A 3 3 - A 2 3 * A 3 1) - A 1 1 * (A 2 0 * A 3 3 - A 2 3 * A 3 0) + A 1 3 * (A 2 0 * A 3 1 - A 2 1 * A 3 0)),
     -(A 0 0 * (A 2 1 * A 3 3 - A 2 3 * A 3 1) - A 0 1 * (A 2 0 * A 3 3 - A 2 3 * A 3 0) + A 0 3 * (A 2 0 * A 3 1 - A 2 1 * A 3 0)),
     (A 0 0 * (A 1 1 * A 3 3 - A 1 3 * A 3 1) - A 0 1 * (A 1 0 * A 3 3 - A 1 3 * A 3 0) + A 0 3 * (A 1 0 * A 3 1 - A 1 1 * A 3 0)),
     -(A 0 0 * (A 1 1 * A 2 3 - A 1 3 * A 2 1) - A 0 1 * (A 1 0 * A 2 3 - A 1 3 * A 2 0) + A 0 3 * (A 1 0 * A 2 1 - A 1 1 * A 2 0))],
   ![-(A 1 0 * (A 2 1 * A 3 2 - A 2 2 * A 3 1) - A 1 1 * (A 2 0 * A 3 2 - A 2 2 * A 3 0) + A 1 2 * (A 2 0 * A 3 1 - A 2 1 * A 3 0)),
     (A 0 0 * (A 2 1 * A 3 2 - A 2 2 * A 3 1) - A 0 1 * (A 2 0 * A 3 2 - A 2 2 * A 3 0) + A 0 2 * (A 2 0 * A 3 1 - A 2 1 * A 3 0)),
     -(A 0 0 * (A 1 1 * A 3 2 - A 1 2 * A 3 1) - A 0 1 * (A 1 0 * A 3 2 - A 1 2 * A 3 0) + A 0 2 * (A 1 0 * A 3 1 - A 1 1 * A 3 0)),
     (A 0 0 * (A 1 1 * A 2 2 - A 1 2 * A 2 1) - A 0 1 * (A 1 0 * A 2 2 - A 1 2 * A 2 0) + A 0 2 * (A 1 0 * A 2 1 - A 1 1 * A 2 0))]] := by
  ext i j
  fin_cases i <;> fin_cases j <;> simp [Matrix.adjugate_fin_succ_eq_det_submatrix, Matrix.det_fin_three, Fin.succAbove] <;> ring

theorem inverseSSE_mat (c : Cfg) (A : Matrix (Fin 4) (Fin 4) ℝ) : inverseSSE c (mat A) = (mat A.adjugate, all A.det) := by
  rw [det4, adj4]
  simp [inverseSSE]
  refine ⟨⟨⟨?_, ?_, ?_, ?_⟩, ⟨?_, ?_, ?_, ?_⟩, ⟨?_, ?_, ?_, ?_⟩, ⟨?_, ?_, ?_, ?_⟩⟩, ?_⟩ <;> ring
theorem inverseNOI_mat (c : Cfg) (A : Matrix (Fin 4) (Fin 4) ℝ) : inverseNOI c (mat A) = (mat A.adjugate, all A.det) := by
  rw [det4, adj4]
  simp [inverseNOI]
  refine ⟨⟨⟨?_, ?_, ?_, ?_⟩, ⟨?_, ?_, ?_, ?_⟩, ⟨?_, ?_, ?_, ?_⟩, ⟨?_, ?_, ?_, ?_⟩⟩, ?_⟩ <;> ring
theorem XMMatrixInverse_mat (c : Cfg) (A : Matrix (Fin 4) (Fin 4) ℝ) (h : A.det ≠ 0) :
    XMMatrixInverse c (mat A) = (mat A⁻¹, all A.det) := by
  have e : A⁻¹ = A.det⁻¹ • A.adjugate := by rw [Matrix.inv_def, Ring.inverse_eq_inv']
  rw [e]
  unfold XMMatrixInverse
  simp only [inverseSSE_mat, inverseNOI_mat, ite_self]
  simp [div_num _ _ h, mul_comm]
end DXM
