import Verif.Props.CollisionFrustumSphere
import Verif.Props.CollisionSAT
import Verif.Props.CollisionSphere

/-
C91: frustum against axis-aligned boxes, the mirrored entry points, and containment of a frustum in the other volumes.
-/

set_option linter.all false

namespace DXM.Props
open DXM.E DXM.Spec DXM.RG DXM.Geo Matrix Classical

theorem contains_if {F S : Set Pt} (hF : F.Nonempty) (z : Bool) (X : Prop) [Decidable X] (hi : z = true ↔ (F ∩ S).Nonempty) (hX : X ↔ F ⊆ S) :
    ((if z = false then ContainmentType.DISJOINT else if X then .CONTAINS else .INTERSECTS) = .CONTAINS ↔ F ⊆ S) ∧
    ((if z = false then ContainmentType.DISJOINT else if X then .CONTAINS else .INTERSECTS) = .DISJOINT ↔ F ∩ S = ∅) := by
  rw [← Set.not_nonempty_iff_eq_empty, ← hi, ← hX]
  have : X → z = true := fun h => hi.2 (hF.mono fun p hp => ⟨hp, hX.1 h hp⟩)
  cases z <;> by_cases X <;> simp_all

variable (c : Cfg) (o : Pt) (q : Quaternion ℝ) (r l t b n f : ℝ) (hq : Quaternion.normSq q = 1) (hv : ValidFrustum r l t b n f)
include hq hv

/-- Axis-aligned boxes: a shared point is never missed. -/
theorem C91_box_sound (a e : Pt) (he : ∀ i, 0 ≤ e i) :
    (frustum o q r l t b n f ∩ box a e).Nonempty → BoundingFrustum.IntersectsBox c (frustumOf o q r l t b n f) (boxOf a e) = true := by
  rw [← obox_one]
  intro h
  have := C91_orientedBox_sound c o a e q 1 r l t b n f hq (by simp) hv he h
  simpa only [BoundingFrustum.IntersectsBox, orientBox, boxOf, oboxOf, q_one] using this
theorem C91_box (a e : Pt) (hlr : l ≠ r) (hbt : b ≠ t) (he : ∀ i, 0 ≤ e i) :
    BoundingFrustum.IntersectsBox c (frustumOf o q r l t b n f) (boxOf a e) = true ↔ (frustum o q r l t b n f ∩ box a e).Nonempty := by
  rw [← obox_one, ← C91_orientedBox c o a e q 1 r l t b n f hq (by simp) hv hlr hbt he]
  simp only [BoundingFrustum.IntersectsBox, orientBox, boxOf, oboxOf, q_one]

/-! ### The same questions asked of the other volume -/
theorem C91_boxIntersectsFrustum (a e : Pt) (hlr : l ≠ r) (hbt : b ≠ t) (he : ∀ i, 0 ≤ e i) :
    BoundingBox.IntersectsFrustum c (boxOf a e) (frustumOf o q r l t b n f) = true ↔ (box a e ∩ frustum o q r l t b n f).Nonempty := by
  rw [Set.inter_comm]; exact C91_box c o q r l t b n f hq hv a e hlr hbt he
theorem C91_orientedBoxIntersectsFrustum (a e : Pt) (s : Quaternion ℝ) (hs : Quaternion.normSq s = 1) (hlr : l ≠ r) (hbt : b ≠ t) (he : ∀ i, 0 ≤ e i) :
    BoundingOrientedBox.IntersectsFrustum c (oboxOf a e s) (frustumOf o q r l t b n f) = true ↔ (obox a e s ∩ frustum o q r l t b n f).Nonempty := by
  rw [Set.inter_comm]; exact C91_orientedBox c o a e q s r l t b n f hq hs hv hlr hbt he
theorem C91_sphereIntersectsFrustum (a : Pt) (R : ℝ) (hlr : l ≠ r) (hbt : b ≠ t) (hnf : n ≠ f) (hn : n ≠ 0) (hf : f ≠ 0) (hR : 0 ≤ R) :
    BoundingSphere.IntersectsFrustum c (sphereOf a R) (frustumOf o q r l t b n f) = true ↔ (ball a R ∩ frustum o q r l t b n f).Nonempty := by
  rw [Set.inter_comm]; exact C91_sphere c o a R q r l t b n f hq hv hlr hbt hnf hn hf hR

/-! ### A frustum inside another volume -/
theorem frustum_subset {S : Set Pt} (hS : Convex ℝ S) : frustum o q r l t b n f ⊆ S ↔ ∀ u ∈ fcorners r l t b n f, o + rot q u ∈ S := by
  constructor
  · intro h u hu; exact h ⟨u, corner_in hv u hu, rfl⟩
  · rintro h _ ⟨u, hu, rfl⟩
    rw [frustum0_hull hv] at hu
    have h1 : frustum o q r l t b n f = rigid o q '' frustum0 r l t b n f := by rw [← rigid_image hq]; rfl
    rw [← rigid_apply hq]
    have : rigid o q '' convexHull ℝ {u | u ∈ fcorners r l t b n f} ⊆ S := by
      rw [AffineMap.image_convexHull]
      refine convexHull_min ?_ hS
      rintro _ ⟨v, hv, rfl⟩
      rw [rigid_apply hq]; exact h v hv
    exact this ⟨u, hu, rfl⟩
/-- CONTAINS exactly for a subset, DISJOINT exactly when no point is shared. -/
theorem C91_sphereContainsFrustum (a : Pt) (R : ℝ) (hlr : l ≠ r) (hbt : b ≠ t) (hnf : n ≠ f) (hn : n ≠ 0) (hf : f ≠ 0) (hR : 0 ≤ R) :
    (BoundingSphere.ContainsFrustum c (sphereOf a R) (frustumOf o q r l t b n f) = .CONTAINS ↔ frustum o q r l t b n f ⊆ ball a R) ∧
    (BoundingSphere.ContainsFrustum c (sphereOf a R) (frustumOf o q r l t b n f) = .DISJOINT ↔ frustum o q r l t b n f ∩ ball a R = ∅) := by
  have hi := C91_sphere c o a R q r l t b n f hq hv hlr hbt hnf hn hf hR
  have hX := frustum_subset o q r l t b n f hq hv (ball_convex a R hR)
  simp only [BoundingSphere.ContainsFrustum, fr_corners, fr_o, fr_q, List.foldl_map]
  generalize hz : BoundingFrustum.IntersectsSphere c (frustumOf o q r l t b n f) (sphereOf a R) = z at *
  simp only [sphereOf]
  geo
  rw [Geo.fold_and _ _ (fun u => o + rot q u ∈ ball a R)]
  rotate_left
  · intro x u hu
    geo
    congr 1
    refine propext (and_congr Iff.rfl ?_)
    rw [mem_ball, len_sub_comm, len_le_iff hR, add_comm o]
  simp only [true_and, m_eq3]
  exact contains_if (frustum_nonempty hv) z _ hi hX.symm

theorem C91_boxContainsFrustum (a e : Pt) (hlr : l ≠ r) (hbt : b ≠ t) (he : ∀ i, 0 ≤ e i) :
    (BoundingBox.ContainsFrustum c (boxOf a e) (frustumOf o q r l t b n f) = .CONTAINS ↔ frustum o q r l t b n f ⊆ box a e) ∧
    (BoundingBox.ContainsFrustum c (boxOf a e) (frustumOf o q r l t b n f) = .DISJOINT ↔ frustum o q r l t b n f ∩ box a e = ∅) := by
  have hi := C91_box c o q r l t b n f hq hv a e hlr hbt he
  obtain ⟨ps, e1, -, e2⟩ := C90_getCorners c o q r l t b n f hq hv
  have hX : frustum o q r l t b n f ⊆ box a e ↔ ∀ i, ∀ p ∈ ps, |p - a| i ≤ e i := by
    rw [e2]
    constructor
    · intro h i p hp; exact h (subset_convexHull ℝ _ hp) i
    · intro h; exact convexHull_min (fun p hp i => h i p hp) (box_convex a e)
  simp only [BoundingBox.ContainsFrustum, e1]
  generalize hz : BoundingFrustum.IntersectsBox c (frustumOf o q r l t b n f) (boxOf a e) = z at *
  simp only [boxOf, List.foldl_map, v_load3, v_true]
  obtain ⟨w', hw⟩ := fold_and3 (fun o => XMVectorLessOrEqual (XMVectorAbs c (XMVectorSubtract o (vec3 a (num 0)))) (vec3 e (num 0)))
    (fun s i => |s - a| i ≤ e i) ps (fun s _ => by geo; exact ⟨_, rfl⟩) (fun _ => True) (dm True)
  have : (msk True) = msk3 (fun _ => True) (dm True) := rfl
  rw [List.foldl_map] at hw
  rw [this, hw, ← this]
  simp only [true_and, m3_eq3, ← hX, Bool.not_eq_true']
  exact contains_if (frustum_nonempty hv) z _ hi Iff.rfl

theorem C91_orientedBoxContainsFrustum (a e : Pt) (s : Quaternion ℝ) (hs : Quaternion.normSq s = 1) (hlr : l ≠ r) (hbt : b ≠ t) (he : ∀ i, 0 ≤ e i) :
    (BoundingOrientedBox.ContainsFrustum c (oboxOf a e s) (frustumOf o q r l t b n f) = .CONTAINS ↔ frustum o q r l t b n f ⊆ obox a e s) ∧
    (BoundingOrientedBox.ContainsFrustum c (oboxOf a e s) (frustumOf o q r l t b n f) = .DISJOINT ↔ frustum o q r l t b n f ∩ obox a e s = ∅) := by
  have hi := C91_orientedBox c o a e q s r l t b n f hq hs hv hlr hbt he
  obtain ⟨ps, e1, -, e2⟩ := C90_getCorners c o q r l t b n f hq hv
  have hX : frustum o q r l t b n f ⊆ obox a e s ↔ ∀ p ∈ ps, ∀ i, |rot (star s) (p - a) i| ≤ e i := by
    rw [e2]
    constructor
    · intro h p hp; exact (mem_obox' hs).1 (h (subset_convexHull ℝ _ hp))
    · intro h; exact convexHull_min (fun p hp => (mem_obox' hs).2 (h p hp)) (obox_convex hs a e)
  simp only [BoundingOrientedBox.ContainsFrustum, e1]
  generalize hz : BoundingFrustum.IntersectsOrientedBox c (frustumOf o q r l t b n f) (oboxOf a e s) = z at *
  have hb : ((ps.map f3).all fun C => XMVector3InBounds c (XMVector3InverseRotate c (XMVectorSubtract (load3 C) (load3 (f3 a))) (quat s)) (load3 (f3 e))) = true ↔
      frustum o q r l t b n f ⊆ obox a e s := by
    rw [hX, List.all_eq_true]
    simp only [List.mem_map, forall_exists_index, and_imp, forall_apply_eq_imp_iff₂]
    refine forall₂_congr fun p _ => ?_
    geo
  simp only [oboxOf, hb, Bool.not_eq_true']
  exact contains_if (frustum_nonempty hv) z _ hi Iff.rfl

/-- The sphere made from a frustum contains it. -/
theorem C91_sphereFromFrustum :
    ∃ m ρ, BoundingSphere.CreateFromFrustum c (frustumOf o q r l t b n f) = sphereOf m ρ ∧ 0 ≤ ρ ∧ frustum o q r l t b n f ⊆ ball m ρ := by
  obtain ⟨ps, e1, e0, e2⟩ := C90_getCorners c o q r l t b n f hq hv
  obtain ⟨m, ρ, h1, h2, h3⟩ := C72_fromPoints c ps (by rw [e0]; simp)
  refine ⟨m, ρ, by rw [BoundingSphere.CreateFromFrustum, e1, h1], h2, ?_⟩
  rw [e2]; exact convexHull_min h3 (ball_convex m ρ h2)
omit hq hv

/-! Concrete placements: -/
example (c : Cfg) : BoundingFrustum.IntersectsSphere c (frustumOf ![0, 0, 5] exQ 1 (-1) 1 (-1) 1 10) (sphereOf ![0, 0, 5] 2) = true :=
  (C91_sphere c _ _ 2 _ 1 (-1) 1 (-1) 1 10 exQ_unit (Or.inl (by norm_num)) (by norm_num) (by norm_num) (by norm_num) (by norm_num) (by norm_num) (by norm_num)).2
    ⟨![0, 0, 5] + rot exQ ![0, 0, 1], ⟨_, by simp [frustum0], rfl⟩, by
      rw [mem_ball, add_sub_cancel_left, rot_len exQ_unit, len_le_iff (by norm_num)]; simp [dotProduct, Fin.sum_univ_three]; norm_num⟩
/-- In front of an edge: inside the slab of every face, and still disjoint. -/
example (c : Cfg) : BoundingFrustum.IntersectsSphere c (frustumOf 0 1 1 (-1) 1 (-1) 1 10) (sphereOf ![3, 3, 1] 1) = false := by
  rw [← Bool.not_eq_true, C91_sphere c _ _ 1 _ 1 (-1) 1 (-1) 1 10 (map_one _) (Or.inl (by norm_num)) (by norm_num) (by norm_num) (by norm_num) (by norm_num) (by norm_num) (by norm_num)]
  rintro ⟨p, h1, h2⟩
  rw [mem_frustum (map_one _), sub_zero, star_one, rot_one] at h1
  obtain ⟨g0, g1, g2, g3, g4, g5⟩ := h1
  rw [mem_ball, len_le_iff (by norm_num)] at h2
  simp [dotProduct, Fin.sum_univ_three] at h2
  nlinarith [mul_self_nonneg (3 - p 0 - 2/3), mul_self_nonneg (3 - p 1 - 2/3), mul_self_nonneg (1 - p 2 + 4/3)]
example (c : Cfg) : BoundingFrustum.IntersectsOrientedBox c (frustumOf 0 1 1 (-1) 1 (-1) 1 10) (oboxOf ![0, 0, 3] ![1, 1, 1] exQ) = true :=
  (C91_orientedBox c _ _ _ _ _ 1 (-1) 1 (-1) 1 10 (map_one _) exQ_unit (Or.inl (by norm_num)) (by norm_num) (by norm_num) (by intro i; fin_cases i <;> norm_num)).2
    ⟨![0, 0, 3], by rw [mem_frustum (map_one _), sub_zero, star_one, rot_one]; simp [frustum0]; norm_num,
      ⟨0, by intro i; fin_cases i <;> simp, by rw [rot_zero exQ_unit]; simp⟩⟩
example (c : Cfg) : BoundingFrustum.IntersectsFrustum c (frustumOf 0 1 1 (-1) 1 (-1) 1 10) (frustumOf ![0, 0, 3] exQ 1 (-1) 1 (-1) 1 4) = true :=
  (C91_frustum c _ _ _ _ 1 (-1) 1 (-1) 1 10 1 (-1) 1 (-1) 1 4 (map_one _) exQ_unit (Or.inl (by norm_num)) (Or.inl (by norm_num)) (by norm_num) (by norm_num) (by norm_num) (by norm_num)).2
    ⟨![0, 0, 3] + rot exQ ![0, 0, 1], by rw [mem_frustum (map_one _), sub_zero, star_one, rot_one, exQ_rot]; simp [frustum0]; norm_num,
      ⟨_, by simp [frustum0], rfl⟩⟩
end DXM.Props
