import Verif.Lemmas.Quat
import Verif.Lemmas.Vec2

/-
Affine matrices on exact-real lanes.
-/

set_option linter.all false

namespace DXM
open DXM.E DXM.Spec Matrix

theorem affine_mul (A B : Matrix (Fin 3) (Fin 3) ℝ) (s t : Fin 3 → ℝ) : affine A s * affine B t = affine (A * B) (s ᵥ* B + t) := by
  ext i j
  fin_cases i <;> fin_cases j <;> simp [affine, Matrix.mul_apply, Fin.sum_univ_succ, vecMul3] <;> ring
theorem affine_transpose (A : Matrix (Fin 3) (Fin 3) ℝ) : (affine A 0)ᵀ = affine Aᵀ 0 := by
  ext i j
  fin_cases i <;> fin_cases j <;> simp [affine]
theorem XMMatrixTranslationFromVector_vec3 (c : Cfg) (t : Fin 3 → ℝ) (w : E) :
    XMMatrixTranslationFromVector c (vec3 t w) = mat (affine 1 t) := by
  unfold XMMatrixTranslationFromVector
  split_ifs <;> simp [affine]
theorem XMMatrixScalingFromVector_vec3 (c : Cfg) (s : Fin 3 → ℝ) (w : E) :
    XMMatrixScalingFromVector c (vec3 s w) = mat (affine (diagonal s) 0) := by
  unfold XMMatrixScalingFromVector
  split_ifs <;> simp [affine, XMMatrixScaling]
theorem affine_setRow (A : Matrix (Fin 3) (Fin 3) ℝ) (t u : Fin 3 → ℝ) :
    ({ (mat (affine A t) : M4 E) with r3 := vec3 u (num 1) } : M4 E) = mat (affine A u) := by
  simp [affine]
theorem affine_r3 (A : Matrix (Fin 3) (Fin 3) ℝ) (t : Fin 3 → ℝ) : (mat (affine A t) : M4 E).r3 = vec3 t (num 1) := by
  simp [affine]
theorem select1110_vec3 (t : Fin 3 → ℝ) (w : E) : XMVectorSelect g_XMSelect1110 (vec3 t w) g_XMSelect1110 = vec3 t (num 0) := by
  simp
theorem add_vec3 (s t : Fin 3 → ℝ) (a b : ℝ) : XMVectorAdd (vec3 s (num a)) (vec3 t (num b)) = vec3 (s + t) (num (a + b)) := by simp
theorem sub_vec3 (s t : Fin 3 → ℝ) (a b : ℝ) : XMVectorSubtract (vec3 s (num a)) (vec3 t (num b)) = vec3 (s - t) (num (a - b)) := by simp
theorem XMVector3Transform_affine (c : Cfg) (x : Fin 3 → ℝ) (w : E) (A : Matrix (Fin 3) (Fin 3) ℝ) (t : Fin 3 → ℝ) :
    XMVector3Transform c (vec3 x w) (mat (affine A t)) = vec3 (x ᵥ* A + t) (num 1) := by
  simp only [vec3, Pi.add_apply, vecMul3]
  simp [affine]

end DXM
