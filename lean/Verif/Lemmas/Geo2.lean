import Verif.Lemmas.RealRot
import Verif.Lemmas.Rot
import Verif.Model.CollisionFrustum

/-
More vector-level evaluation lemmas (see Geo.lean): 4-lane predicates on replicated scalars, the packing idioms, rotation matrices.
-/

set_option linter.all false

namespace DXM.Geo
open DXM.E DXM.Spec DXM.RG Matrix Classical

theorem p_gt4 (c : Cfg) (a b : ℝ) : XMVector4Greater c (all a) (all b) = true ↔ b < a := by
  unfold XMVector4Greater; by_cases h : b < a <;> by_cases hs : c.sse <;> simp [h, hs, SSE.mm]
theorem p_le4 (c : Cfg) (a b : ℝ) : XMVector4LessOrEqual c (all a) (all b) = true ↔ a ≤ b := by
  unfold XMVector4LessOrEqual; by_cases h : a ≤ b <;> by_cases hs : c.sse <;> simp [h, hs, SSE.mm]
theorem p_ge4 (c : Cfg) (a b : ℝ) : XMVector4GreaterOrEqual c (all a) (all b) = true ↔ b ≤ a := by
  unfold XMVector4GreaterOrEqual; by_cases h : b ≤ a <;> by_cases hs : c.sse <;> simp [h, hs, SSE.mm]
theorem p_lt4 (c : Cfg) (a b : ℝ) : XMVector4Less c (all a) (all b) = true ↔ a < b := by
  unfold XMVector4Less; by_cases h : a < b <;> by_cases hs : c.sse <;> simp [h, hs, SSE.mm]
theorem p_ge (c : Cfg) (a b : ℝ) : XMVector3GreaterOrEqual c (all a) (all b) = true ↔ b ≤ a := by
  unfold XMVector3GreaterOrEqual; by_cases h : b ≤ a <;> by_cases hs : c.sse <;> simp [h, hs, SSE.mm]
theorem v_false : (XMVectorFalseInt : V4 E) = msk False := by simp [msk, XMVectorFalseInt, dm_f]

theorem selY (x y : ℝ) : XMVectorSelect (all x) (all y) TriangleTests.SelectY = vec3 ![x, y, x] (num x) := by
  simp [XMVectorSelect, TriangleTests.SelectY]
theorem selZ (a : Pt) (w : E) (z : ℝ) (hw : Lane.bor w (num 0) = w) : XMVectorSelect (vec3 a w) (all z) TriangleTests.SelectZ = vec3 ![a 0, a 1, z] w := by
  simp [XMVectorSelect, TriangleTests.SelectZ]
theorem pack3_all (x y z : ℝ) : BoundingFrustum.pack3 (all x) (all y) (all z) = vec3 ![x, y, z] (num x) := by
  unfold BoundingFrustum.pack3; simp [XMVectorSelect, TriangleTests.SelectZ, TriangleTests.SelectY]
theorem ins_y (c : Cfg) (x y : ℝ) : insertC c (all x) (all y) 0 1 0 0 = vec3 ![x, y, x] (num x) := by
  have := Props.C04_insert c true (all x) (all y) 0 false true false false
  simp only [if_true, if_false, Bool.false_eq_true] at this
  have h : insertC c (all x) (all y) 0 1 0 0 = Outcome.getD (all x) (XMVectorInsert c true (all x) (all y) ((0 : Fin 4) : ℕ) 0 1 0 0) := rfl
  rw [h]; erw [this]
  simp [Outcome.getD, Spec.cyc]
theorem ins_z (c : Cfg) (a : Pt) (w : E) (z : ℝ) : insertC c (vec3 a w) (all z) 0 0 1 0 = vec3 ![a 0, a 1, z] w := by
  have := Props.C04_insert c true (vec3 a w) (all z) 0 false false true false
  simp only [if_true, if_false, Bool.false_eq_true] at this
  have h : insertC c (vec3 a w) (all z) 0 0 1 0 = Outcome.getD (vec3 a w) (XMVectorInsert c true (vec3 a w) (all z) ((0 : Fin 4) : ℕ) 0 0 1 0) := rfl
  rw [h]; erw [this]
  simp [Outcome.getD, Spec.cyc]

theorem rm_r0 (c : Cfg) (q : Quaternion ℝ) : (XMMatrixRotationQuaternion c (quat q)).r0 = vec3 (rotM q 0) (num 0) := by
  rw [XMMatrixRotationQuaternion_quat]; simp [affine]
theorem rm_r1 (c : Cfg) (q : Quaternion ℝ) : (XMMatrixRotationQuaternion c (quat q)).r1 = vec3 (rotM q 1) (num 0) := by
  rw [XMMatrixRotationQuaternion_quat]; simp [affine]
theorem rm_r2 (c : Cfg) (q : Quaternion ℝ) : (XMMatrixRotationQuaternion c (quat q)).r2 = vec3 (rotM q 2) (num 0) := by
  rw [XMMatrixRotationQuaternion_quat]; simp [affine]
/-- The coordinates of `v` along the axes of `q`. -/
theorem rows_eq {q : Quaternion ℝ} (hq : Quaternion.normSq q = 1) (v : Pt) : ![rotM q 0 ⬝ᵥ v, rotM q 1 ⬝ᵥ v, rotM q 2 ⬝ᵥ v] = rot (star q) v := by
  ext i; fin_cases i <;> simp [dot_row hq]
theorem rows_eq' {q : Quaternion ℝ} (hq : Quaternion.normSq q = 1) (v : Pt) : ![v ⬝ᵥ rotM q 0, v ⬝ᵥ rotM q 1, v ⬝ᵥ rotM q 2] = rot (star q) v := by
  rw [← rows_eq hq]; simp only [dotProduct_comm v]
theorem q_one : (⟨Lane.c0, Lane.c0, Lane.c0, Lane.c1⟩ : V4 E) = quat 1 := by simp; exact ⟨rfl, rfl, rfl, rfl⟩
theorem q_conj (c : Cfg) (q : Quaternion ℝ) : XMQuaternionConjugate c (quat q) = quat (star q) := XMQuaternionConjugate_quat c q
end DXM.Geo
