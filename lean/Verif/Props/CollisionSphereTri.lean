import Verif.Lemmas.SphereTri
import Verif.Props.CollisionFrustumRest

/-
C88: sphere against triangle.
-/

set_option linter.all false

namespace DXM.Geo
open DXM.E DXM.Spec DXM.RG Matrix Classical
theorem v_inTri (c : Cfg) (P v0 v1 v2 : Pt) (w w0 w1 w2 : E) : PointOnPlaneInsideTriangle c (vec3 P w) (vec3 v0 w0) (vec3 v1 w1) (vec3 v2 w2) =
    msk (0 ≤ crossProduct (P - v0) (v1 - v0) ⬝ᵥ crossProduct (v2 - v0) (v1 - v0) ∧
     0 ≤ crossProduct (P - v1) (v2 - v1) ⬝ᵥ crossProduct (v2 - v0) (v1 - v0) ∧
     0 ≤ crossProduct (P - v2) (v0 - v2) ⬝ᵥ crossProduct (v2 - v0) (v1 - v0)) := by
  unfold PointOnPlaneInsideTriangle
  geo
  rw [and_assoc]
end DXM.Geo

namespace DXM.Props
open DXM.E DXM.Spec DXM.RG DXM.Geo Matrix Classical

theorem st_seg (c : Cfg) (a b p : Pt) (w w' w'' : E) (h : a ≠ b) (R : ℝ) (hR : 0 ≤ R) :
    XMVectorLessOrEqual (XMVector3LengthSq c (XMVectorSubtract (vec3 p w'') (PointOnLineSegmentNearestPoint c (vec3 a w) (vec3 b w') (vec3 p w''))))
      (all (R * R)) = msk (∃ y ∈ seg a b, y ∈ ball p R) := by
  rw [← v_segTest c a b p w w' w'' h R hR]
  obtain ⟨x, W, e, -, -⟩ := v_seg c a b p w w' w'' h
  rw [e]; geo

/-- A triangle that is not degenerate has three different vertices. -/
theorem tri_ne {v0 v1 v2 : Pt} (hN : crossProduct (v1 - v0) (v2 - v0) ≠ 0) : v0 ≠ v1 ∧ v1 ≠ v2 ∧ v2 ≠ v0 := by
  refine ⟨?_, ?_, ?_⟩ <;> rintro rfl <;> simp at hN

/-- The test is exact: true iff a point of the triangle is within the radius. -/
theorem C88_intersectsTriangle (c : Cfg) (C v0 v1 v2 : Pt) (R : ℝ) (w0 w1 w2 : E) (hR : 0 ≤ R) (hN : crossProduct (v1 - v0) (v2 - v0) ≠ 0) :
    BoundingSphere.IntersectsTriangle c (sphereOf C R) (vec3 v0 w0) (vec3 v1 w1) (vec3 v2 w2) = true ↔ (ball C R ∩ tri v0 v1 v2).Nonempty := by
  have hbt := ball_tri hN C R
  dsimp only at hbt
  rw [hbt]
  obtain ⟨n01, n12, n20⟩ := tri_ne hN
  simp only [BoundingSphere.IntersectsTriangle, sphereOf]
  geo
  rw [v_normalize c _ hN]
  set N := crossProduct (v1 - v0) (v2 - v0) with hNd
  geo
  have hl := Geo.len_pos hN
  have hK := RG.dot_self_pos hN
  have eP : C - ((C - v0) ⬝ᵥ ((len N)⁻¹ • N)) • (len N)⁻¹ • N = C - ((N ⬝ᵥ (C - v0)) / (N ⬝ᵥ N)) • N := by
    rw [smul_smul, dotProduct_smul, smul_eq_mul, dotProduct_comm, ← Geo.len_sq]
    congr 2; field_simp
  have hP : N ⬝ᵥ (C - ((N ⬝ᵥ (C - v0)) / (N ⬝ᵥ N)) • N - v0) = 0 := by
    rw [sub_right_comm, dotProduct_sub, dotProduct_smul, smul_eq_mul, div_mul_cancel₀ _ hK.ne', sub_self]
  have hPb : C - ((N ⬝ᵥ (C - v0)) / (N ⬝ᵥ N)) • N ∈ ball C R ↔ ¬ (((C - v0) ⬝ᵥ ((len N)⁻¹ • N) < -R) ∨ R < (C - v0) ⬝ᵥ ((len N)⁻¹ • N)) := by
    rw [mem_ball, sub_sub_cancel_left, len_neg, Spec.len_smul, not_or, not_lt, not_lt, ← abs_le]
    rw [dotProduct_smul, smul_eq_mul, dotProduct_comm _ N, abs_mul, abs_div, abs_of_pos hK, abs_inv, abs_of_pos hl, ← Geo.len_sq]
    have : |N ⬝ᵥ (C - v0)| / (len N * len N) * len N = (len N)⁻¹ * |N ⬝ᵥ (C - v0)| := by field_simp
    rw [this, dotProduct_comm N]
  rw [eP, v_inTri, st_seg c _ _ _ _ _ _ n01 R hR, st_seg c _ _ _ _ _ _ n12 R hR, st_seg c _ _ _ _ _ _ n20 R hR, in_tri_iff hN hP]
  geo
  have hdist : ∀ y ∈ tri v0 v1 v2, y ∈ ball C R → C - ((N ⬝ᵥ (C - v0)) / (N ⬝ᵥ N)) • N ∈ ball C R := by
    intro y hy hyb
    rw [mem_ball, len_sub_comm] at hyb
    rw [mem_ball, sub_sub_cancel_left, len_neg, Spec.len_smul]
    have h1 : N ⬝ᵥ (C - v0) = N ⬝ᵥ (C - y) := by
      obtain ⟨x, y', z, -, -, -, hs, rfl⟩ := hy
      have k1 := tri_normal v0 v1 v2 1
      have k2 := tri_normal v0 v1 v2 2
      simp only [cons_val_one, cons_val_zero, cons_val] at k1 k2
      rw [dotProduct_sub, dotProduct_sub, dotProduct_add, dotProduct_add, dotProduct_smul, dotProduct_smul, dotProduct_smul]
      simp only [smul_eq_mul, hNd, k1, k2]
      rw [← add_mul, ← add_mul, hs, one_mul]
    have h2 := cs_abs N (C - y)
    rw [h1, abs_div, abs_of_pos hK, ← Geo.len_sq]
    have : |N ⬝ᵥ (C - y)| / (len N * len N) * len N = |N ⬝ᵥ (C - y)| / len N := by field_simp
    rw [this, div_le_iff₀ hl]
    refine h2.trans ?_
    rw [mul_comm]; exact mul_le_mul_of_nonneg_right hyb hl.le
  have s1 := seg_tri (tri_mem0 v0 v1 v2) (tri_mem1 v0 v1 v2)
  have s2 := seg_tri (tri_mem1 v0 v1 v2) (tri_mem2 v0 v1 v2)
  have s3 := seg_tri (tri_mem2 v0 v1 v2) (tri_mem0 v0 v1 v2)
  rw [← hPb]
  constructor
  · rintro ⟨((h | h) | h) | h, k⟩
    · exact Or.inl ⟨k, h⟩
    · exact Or.inr (Or.inl h)
    · exact Or.inr (Or.inr (Or.inl h))
    · exact Or.inr (Or.inr (Or.inr h))
  · rintro (⟨k, h⟩ | ⟨y, h, k⟩ | ⟨y, h, k⟩ | ⟨y, h, k⟩)
    · exact ⟨Or.inl (Or.inl (Or.inl h)), k⟩
    · exact ⟨Or.inl (Or.inl (Or.inr ⟨y, h, k⟩)), hdist y (s1 h) k⟩
    · exact ⟨Or.inl (Or.inr ⟨y, h, k⟩), hdist y (s2 h) k⟩
    · exact ⟨Or.inr ⟨y, h, k⟩, hdist y (s3 h) k⟩

theorem tri_subset {S : Set Pt} (hS : Convex ℝ S) (v0 v1 v2 : Pt) : tri v0 v1 v2 ⊆ S ↔ v0 ∈ S ∧ v1 ∈ S ∧ v2 ∈ S := by
  constructor
  · intro h; exact ⟨h (tri_mem0 ..), h (tri_mem1 ..), h (tri_mem2 ..)⟩
  · rintro ⟨h0, h1, h2⟩
    rw [tri_hull]
    refine convexHull_min ?_ hS
    rintro p (rfl | rfl | rfl) <;> assumption
/-- CONTAINS iff the whole triangle is inside, DISJOINT iff no point is. -/
theorem C88_containsTriangle (c : Cfg) (C v0 v1 v2 : Pt) (R : ℝ) (w0 w1 w2 : E) (hR : 0 ≤ R) (hN : crossProduct (v1 - v0) (v2 - v0) ≠ 0) :
    (BoundingSphere.ContainsTriangle c (sphereOf C R) (vec3 v0 w0) (vec3 v1 w1) (vec3 v2 w2) = .CONTAINS ↔ tri v0 v1 v2 ⊆ ball C R) ∧
    (BoundingSphere.ContainsTriangle c (sphereOf C R) (vec3 v0 w0) (vec3 v1 w1) (vec3 v2 w2) = .DISJOINT ↔ tri v0 v1 v2 ∩ ball C R = ∅) := by
  have hi := C88_intersectsTriangle c C v0 v1 v2 R w0 w1 w2 hR hN
  rw [Set.inter_comm] at hi
  simp only [BoundingSphere.ContainsTriangle]
  generalize hz : BoundingSphere.IntersectsTriangle c (sphereOf C R) (vec3 v0 w0) (vec3 v1 w1) (vec3 v2 w2) = z at *
  simp only [sphereOf]
  geo
  refine contains_if ⟨v0, tri_mem0 ..⟩ z _ hi ?_
  rw [tri_subset (ball_convex C R hR), mem_ball, mem_ball, mem_ball, len_le_iff hR, len_le_iff hR, len_le_iff hR, and_assoc]

/-- Without the hypothesis the test is worthless: for a degenerate triangle with different vertices it always says yes. -/
theorem C88_degenerate (c : Cfg) (C v0 v1 v2 : Pt) (R : ℝ) (w0 w1 w2 : E) (hR : 0 ≤ R) (hN : crossProduct (v1 - v0) (v2 - v0) = 0)
    (n01 : v0 ≠ v1) (n12 : v1 ≠ v2) (n20 : v2 ≠ v0) :
    BoundingSphere.IntersectsTriangle c (sphereOf C R) (vec3 v0 w0) (vec3 v1 w1) (vec3 v2 w2) = true := by
  have z0 : XMVector3Normalize c (vec3 (0 : Pt) (num 0)) = vec3 0 (num 0) := by
    have := XMVector3Normalize_zero c (num 0)
    simp [nrmLane0] at this
    simpa [vec3] using this
  have hN' : crossProduct (v2 - v0) (v1 - v0) = 0 := by rw [← neg_cross, hN, neg_zero]
  simp only [BoundingSphere.IntersectsTriangle, sphereOf]
  geo
  rw [hN, z0]
  geo
  rw [v_inTri, st_seg c _ _ _ _ _ _ n01 R hR, st_seg c _ _ _ _ _ _ n12 R hR, st_seg c _ _ _ _ _ _ n20 R hR, hN']
  geo
  simp only [dotProduct_zero, le_refl, true_and, true_or]
  push Not
  exact ⟨by linarith, hR⟩
/-- Such a triangle and a sphere far away from it. -/
theorem C88_degenerate_fails (c : Cfg) :
    BoundingSphere.IntersectsTriangle c (sphereOf ![100, 0, 0] 1) (vec3 ![0, 0, 0] (num 0)) (vec3 ![1, 0, 0] (num 0)) (vec3 ![2, 0, 0] (num 0)) = true ∧
    ¬ (ball ![100, 0, 0] 1 ∩ tri ![0, 0, 0] ![1, 0, 0] ![2, 0, 0]).Nonempty := by
  constructor
  · refine C88_degenerate c _ _ _ _ 1 _ _ _ zero_le_one ?_ ?_ ?_ ?_
    · simp [crossProduct]
    · intro h; have := congrFun h 0; simp at this
    · intro h; have := congrFun h 0; norm_num at this
    · intro h; have := congrFun h 0; norm_num at this
  · rintro ⟨p, h1, x, y, z, hx, hy, hz, hs, rfl⟩
    rw [mem_ball, len_le_iff zero_le_one] at h1
    simp [dotProduct, Fin.sum_univ_three] at h1
    nlinarith

example (c : Cfg) (w : E) : BoundingSphere.IntersectsTriangle c (sphereOf ![1, 1, 2] 2) (vec3 ![0, 0, 0] w) (vec3 ![9, 0, 0] w) (vec3 ![0, 9, 0] w) = true := by
  rw [C88_intersectsTriangle c _ _ _ _ 2 w w w (by norm_num) (by intro h; have := congrFun h 2; simp [crossProduct] at this)]
  refine ⟨![1, 1, 0], ?_, 7/9, 1/9, 1/9, by norm_num, by norm_num, by norm_num, by norm_num, ?_⟩
  · rw [mem_ball, len_le_iff (by norm_num)]; simp [dotProduct, Fin.sum_univ_three]
  · ext i; fin_cases i <;> simp
example (c : Cfg) (w : E) : BoundingSphere.IntersectsTriangle c (sphereOf ![6, 6, 0] 2) (vec3 ![0, 0, 0] w) (vec3 ![9, 0, 0] w) (vec3 ![0, 9, 0] w) = false := by
  rw [← Bool.not_eq_true, C88_intersectsTriangle c _ _ _ _ 2 w w w (by norm_num) (by intro h; have := congrFun h 2; simp [crossProduct] at this)]
  rintro ⟨p, h1, x, y, z, hx, hy, hz, hs, rfl⟩
  rw [mem_ball, len_le_iff (by norm_num)] at h1
  simp [dotProduct, Fin.sum_univ_three] at h1
  nlinarith [mul_self_nonneg (y * 9 - z * 9)]
end DXM.Props
