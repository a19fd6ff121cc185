import Verif.Lemmas.Geo2
import Verif.Props.CollisionBox
import Mathlib.Analysis.Convex.Combination

/-
C85, and C77 for oriented boxes.  Exact-real lanes; the orientation is a unit quaternion.
-/

set_option linter.all false

namespace DXM.Props
open DXM.E DXM.Spec DXM.RG DXM.Geo Matrix Classical

/-- A rotation about z by the angle whose cosine is -7/25, for the examples. -/
noncomputable def exQ : Quaternion ℝ := ⟨3/5, 0, 0, 4/5⟩
theorem exQ_unit : Quaternion.normSq exQ = 1 := by rw [Quaternion.normSq_def']; norm_num [exQ]
theorem exQ_rot (u : Pt) : rot exQ u = ![-7/25 * u 0 - 24/25 * u 1, 24/25 * u 0 - 7/25 * u 1, u 2] := by
  have h0 : exQ.re = 3/5 := rfl
  have h1 : exQ.imI = 0 := rfl
  have h2 : exQ.imJ = 0 := rfl
  have h3 : exQ.imK = 4/5 := rfl
  have k0 : (pureQ u).re = 0 := rfl
  have k1 : (pureQ u).imI = u 0 := rfl
  have k2 : (pureQ u).imJ = u 1 := rfl
  have k3 : (pureQ u).imK = u 2 := rfl
  unfold rot
  ext i
  fin_cases i <;>
    simp only [Fin.zero_eta, Fin.mk_one, Fin.reduceFinMk, Quaternion.imI_mul, Quaternion.imJ_mul, Quaternion.imK_mul, Quaternion.re_mul, Quaternion.re_star, Quaternion.imI_star, Quaternion.imJ_star,
      Quaternion.imK_star, Matrix.cons_val, h0, h1, h2, h3, k0, k1, k2, k3] <;> ring

/-! ### C85 -/

/-- A point is reported contained exactly when it lies in the rotated box, and disjoint otherwise. -/
theorem C85_containsPoint (c : Cfg) (a e p : Pt) (q : Quaternion ℝ) (hq : Quaternion.normSq q = 1) (w : E) :
    BoundingOrientedBox.ContainsPoint c (oboxOf a e q) (vec3 p w) = if p ∈ obox a e q then .CONTAINS else .DISJOINT := by
  simp only [BoundingOrientedBox.ContainsPoint, oboxOf]
  geo
  exact if_congr (mem_obox' hq).symm rfl rfl

theorem clamp_delta0 (e b : Pt) (he : ∀ i, 0 ≤ e i) :
    (fun i => if e i < b i then (b - e) i else if b i < (-e) i then (b + e) i else 0) = b - clampB 0 e b := by
  have := clamp_delta 0 e b he
  simpa only [zero_add, zero_sub, sub_neg_eq_add] using this

/-- Oriented box and sphere intersect exactly when they share a point; asking the sphere gives the same answer. -/
theorem C85_intersectsSphere (c : Cfg) (a e b : Pt) (q : Quaternion ℝ) (r : ℝ) (hq : Quaternion.normSq q = 1) (he : ∀ i, 0 ≤ e i) (hr : 0 ≤ r) :
    (BoundingOrientedBox.IntersectsSphere c (oboxOf a e q) (sphereOf b r) = true ↔ (obox a e q ∩ ball b r).Nonempty) ∧
    (BoundingSphere.IntersectsOrientedBox c (sphereOf b r) (oboxOf a e q) = true ↔ (obox a e q ∩ ball b r).Nonempty) := by
  have : BoundingOrientedBox.IntersectsSphere c (oboxOf a e q) (sphereOf b r) = true ↔ (obox a e q ∩ ball b r).Nonempty := by
    rw [loc_nonempty hq (fun p => mem_obox hq) (fun p => mem_ball_loc hq (a := a)), ball_box _ _ _ _ hr he]
    simp only [BoundingOrientedBox.IntersectsSphere, oboxOf, sphereOf]
    geo
    rw [clamp_delta0 e _ he, p_le4]
  exact ⟨this, this⟩

/-- Sphere in oriented box: CONTAINS exactly for a subset, DISJOINT exactly when no point is shared. -/
theorem C85_containsSphere (c : Cfg) (a e b : Pt) (q : Quaternion ℝ) (r : ℝ) (hq : Quaternion.normSq q = 1) (he : ∀ i, 0 ≤ e i) (hr : 0 ≤ r) :
    (BoundingOrientedBox.ContainsSphere c (oboxOf a e q) (sphereOf b r) = .CONTAINS ↔ ball b r ⊆ obox a e q) ∧
    (BoundingOrientedBox.ContainsSphere c (oboxOf a e q) (sphereOf b r) = .DISJOINT ↔ obox a e q ∩ ball b r = ∅) := by
  rw [← Set.not_nonempty_iff_eq_empty, loc_nonempty hq (fun p => mem_obox hq) (fun p => mem_ball_loc hq (a := a)),
    loc_subset hq (fun p => mem_ball_loc hq (a := a)) (fun p => mem_obox hq), ball_box _ _ _ _ hr he, not_le]
  simp only [BoundingOrientedBox.ContainsSphere, oboxOf, sphereOf]
  geo
  simp only [clamp_delta0 e _ he, p_gt4]
  set u := rot (star q) (b - a)
  constructor
  · split_ifs with h1 h2
    · simp only [reduceCtorEq, false_iff]
      intro h
      have hb : u ∈ ball u r := by rw [mem_ball, sub_self, len_zero]; exact hr
      exact not_le.2 h1 ((ball_box _ _ _ _ hr he).1 ⟨u, h hb, hb⟩)
    all_goals rw [ball_subset_box _ _ _ _ hr]
    · simp only [true_iff]
      intro i
      have k1 := h2.1 i; have k2 := h2.2 i
      rw [abs_le] at k1 k2
      simp only [Pi.zero_apply]; constructor <;> linarith [k1.1, k2.2]
    · simp only [reduceCtorEq, false_iff]
      intro k
      refine h2 ⟨fun i => abs_le.2 ?_, fun i => abs_le.2 ?_⟩ <;> have := k i <;> simp only [Pi.zero_apply] at this <;>
        constructor <;> linarith [this.1, this.2]
  · split_ifs <;> simp_all

theorem box_hull (e : Pt) (he : ∀ i, 0 ≤ e i) : box 0 e = convexHull ℝ {u | ∃ s ∈ signs, u = e * s} := by
  have h1 : {u | ∃ s ∈ signs, u = e * s} = Set.univ.pi fun i => ({-e i, e i} : Set ℝ) := by
    ext u
    simp only [Set.mem_setOf_eq, Set.mem_pi, Set.mem_univ, true_implies, Set.mem_insert_iff, Set.mem_singleton_iff]
    constructor
    · rintro ⟨s, hs, rfl⟩ i
      rcases mem_signs.1 hs i with h | h <;> simp [h]
    · intro h
      refine ⟨fun i => if u i = e i then 1 else -1, mem_signs.2 fun i => by split_ifs <;> simp, ?_⟩
      ext i
      simp only [Pi.mul_apply]
      split_ifs with k
      · rw [k, mul_one]
      · rw [(h i).resolve_right k]; ring
  rw [h1, convexHull_pi]
  ext u
  simp only [Set.mem_pi, Set.mem_univ, true_implies, convexHull_pair, mem_box]
  refine forall_congr' fun i => ?_
  rw [segment_eq_Icc (by linarith [he i])]
  simp

/-- The eight corners are points of the box, and the box is their convex hull. -/
theorem C85_getCorners (c : Cfg) (a e : Pt) (q : Quaternion ℝ) (hq : Quaternion.normSq q = 1) (he : ∀ i, 0 ≤ e i) :
    ∃ ps : List Pt, BoundingOrientedBox.GetCorners c (oboxOf a e q) = ps.map f3 ∧ ps.length = 8 ∧
      obox a e q = convexHull ℝ {p | p ∈ ps} := by
  refine ⟨signs.map fun s => a + rot q (e * s), ?_, rfl, ?_⟩
  · simp only [BoundingOrientedBox.GetCorners, oboxOf, offset_signs, List.map_map]
    refine List.map_congr_left fun s _ => ?_
    simp only [Function.comp]
    geo
    rw [add_comm]
  · let f : Pt →ᵃ[ℝ] Pt := (Matrix.vecMulLinear (rotM q)).toAffineMap + AffineMap.const ℝ Pt a
    have hf : ∀ u, f u = a + rot q u := by
      intro u; rw [rot_eq hq, add_comm]; rfl
    have h1 : obox a e q = f '' box 0 e := by
      ext p; constructor
      · rintro ⟨u, hu, rfl⟩; exact ⟨u, hu, hf u⟩
      · rintro ⟨u, hu, rfl⟩; exact ⟨u, hu, hf u⟩
    rw [h1, box_hull e he, AffineMap.image_convexHull]
    congr 1
    ext p
    simp only [Set.mem_image, Set.mem_setOf_eq, List.mem_map]
    constructor
    · rintro ⟨u, ⟨s, hs, rfl⟩, rfl⟩; exact ⟨s, hs, (hf _).symm⟩
    · rintro ⟨s, hs, rfl⟩; exact ⟨_, ⟨s, hs, rfl⟩, hf _⟩

/-- The same for the axis-aligned box. -/
theorem C85_getCornersBox (c : Cfg) (a e : Pt) (he : ∀ i, 0 ≤ e i) :
    ∃ ps : List Pt, BoundingBox.GetCorners c (boxOf a e) = ps.map f3 ∧ ps.length = 8 ∧ box a e = convexHull ℝ {p | p ∈ ps} := by
  obtain ⟨ps, h1, h2, h3⟩ := C85_getCorners c a e 1 (by simp) he
  refine ⟨ps, ?_, h2, ?_⟩
  · rw [← h1]
    simp only [BoundingOrientedBox.GetCorners, BoundingBox.GetCorners, oboxOf, boxOf, offset_signs, List.map_map]
    refine List.map_congr_left fun s _ => ?_
    simp only [Function.comp]
    geo
    rw [rot_one]
  · rw [← obox_one, h3]

/-- The sphere created from an oriented box contains it, and no sphere containing the box is smaller. -/
theorem C77_sphereFromOrientedBox (c : Cfg) (a e : Pt) (q : Quaternion ℝ) (hq : Quaternion.normSq q = 1) (he : ∀ i, 0 ≤ e i) :
    BoundingSphere.CreateFromBoundingOrientedBox c (oboxOf a e q) = sphereOf a (len e) ∧ obox a e q ⊆ ball a (len e) ∧
    ∀ m ρ, obox a e q ⊆ ball m ρ → len e ≤ ρ := by
  refine ⟨?_, ?_, ?_⟩
  · simp only [BoundingSphere.CreateFromBoundingOrientedBox, oboxOf]; geo; rfl
  · rintro p hp
    rw [mem_obox hq] at hp
    rw [mem_ball, ← rot_len (nstar hq), ← sub_zero (rot (star q) (p - a)), ← mem_ball]
    exact (C77_sphereFromBox c 0 e he).2.1 hp
  · intro m ρ h
    rw [loc_subset hq (fun p => mem_obox hq) (fun p => mem_ball_loc hq (a := a))] at h
    exact (C77_sphereFromBox c 0 e he).2.2 _ _ h

/-! The hypotheses are met by actual boxes: -/
example (c : Cfg) : BoundingOrientedBox.ContainsPoint c (oboxOf ![1, 1, 1] ![1, 2, 3] exQ) (vec3 ![0, 1, 2] nan) = .CONTAINS := by
  rw [C85_containsPoint c _ _ _ _ exQ_unit, if_pos]
  refine ⟨![7/25, 24/25, 1], ?_, ?_⟩
  · intro i; fin_cases i <;> norm_num [abs_le]
  · rw [exQ_rot]; ext i; fin_cases i <;> simp <;> norm_num
example (c : Cfg) : BoundingOrientedBox.ContainsSphere c (oboxOf ![1, 1, 1] ![1, 2, 3] exQ) (sphereOf ![1, 1, 1] 1) = .CONTAINS := by
  rw [(C85_containsSphere c _ _ _ _ _ exQ_unit (by intro i; fin_cases i <;> norm_num) (by norm_num)).1]
  intro p hp
  rw [mem_obox' exQ_unit]
  rw [mem_ball, ← rot_len (nstar exQ_unit)] at hp
  intro i
  refine (abs_le_len _ i).trans (hp.trans ?_)
  fin_cases i <;> norm_num

end DXM.Props
