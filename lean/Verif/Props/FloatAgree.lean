import Verif.Props.FloatSym
import Verif.Props.FloatCollision
import Verif.Props.FloatSphere
import Verif.Model.CollisionFrustum

/-
Agreement between the two families of overlap tests, `Contains...` and `Intersects...`, on binary32 lanes and for every bit pattern.
-/

set_option linter.all false

namespace DXM.Props
open DXM.Spec DXM.FErr DXM.IEEE DXM.RG
variable {P : Env}

theorem disjoint_iff (b d : Bool) : (if (!b) = true then ContainmentType.DISJOINT else if d = true then .CONTAINS else .INTERSECTS) = .DISJOINT ↔ b = false := by
  cases b <;> cases d <;> simp

/-- C126: the answer DISJOINT of these containment tests is the answer `false` of the intersection test of the same pair of shapes,
and it does not matter which of the two shapes is asked; on any lanes, NaN included. -/
theorem C126_contains_intersects {α : Type} [Lane α] (c : Cfg) (S : BoundingSphere α) (B : BoundingBox α) (O O' : BoundingOrientedBox α) (F : BoundingFrustum α) (V0 V1 V2 : V4 α) :
    (S.ContainsTriangle c V0 V1 V2 = .DISJOINT ↔ S.IntersectsTriangle c V0 V1 V2 = false) ∧
    (B.ContainsTriangle c V0 V1 V2 = .DISJOINT ↔ B.IntersectsTriangle c V0 V1 V2 = false) ∧
    (O.ContainsTriangle c V0 V1 V2 = .DISJOINT ↔ O.IntersectsTriangle c V0 V1 V2 = false) ∧
    (O.ContainsOrientedBox c O' = .DISJOINT ↔ O.IntersectsOrientedBox c O' = false) ∧
    (O.ContainsBox c B = .DISJOINT ↔ O.IntersectsBox c B = false) ∧
    (S.ContainsBox c B = .DISJOINT ↔ B.IntersectsSphere c S = false) ∧
    (S.ContainsOrientedBox c O = .DISJOINT ↔ O.IntersectsSphere c S = false) ∧
    (S.ContainsFrustum c F = .DISJOINT ↔ F.IntersectsSphere c S = false) ∧
    (B.ContainsFrustum c F = .DISJOINT ↔ F.IntersectsBox c B = false) ∧
    (O.ContainsFrustum c F = .DISJOINT ↔ F.IntersectsOrientedBox c O = false) :=
  ⟨disjoint_iff _ _, disjoint_iff _ _, disjoint_iff _ _, disjoint_iff _ _, disjoint_iff _ _, disjoint_iff _ _, disjoint_iff _ _, disjoint_iff _ _, disjoint_iff _ _, disjoint_iff _ _⟩

/-! Boxes. -/

/-- On every axis neither interval starts after the other ends. -/
theorem box_meets (c : Cfg) (A B : BoundingBox (F32 P)) :
    BoundingBox.IntersectsBox c A B = true ↔ ∀ i, Lane.gt (lo A i) (hi B i) = false ∧ Lane.gt (lo B i) (hi A i) = false := by
  have e : BoundingBox.IntersectsBox c A B = !XMVector3AnyTrue c (XMVectorOrInt
      (XMVectorGreater (XMVectorSubtract (load3 A.Center) (load3 A.Extents)) (XMVectorAdd (load3 B.Center) (load3 B.Extents)))
      (XMVectorGreater (XMVectorSubtract (load3 B.Center) (load3 B.Extents)) (XMVectorAdd (load3 A.Center) (load3 A.Extents)))) := rfl
  rw [e]
  simp only [XMVectorOrInt, SSE.or, XMVectorGreater, XMVectorSubtract, XMVectorAdd, SSE.sub, SSE.add, SSE.cmpgt, V4.map2, bor_mask, anyTrue_mask]
  rw [Fin.forall_fin_succ, Fin.forall_fin_two]
  simp only [lo, hi, F3.lane, load3]
  simp [and_assoc]

theorem box_inside (c : Cfg) (A B : BoundingBox (F32 P)) :
    (BoundingBox.ContainsBox c A B = .DISJOINT ↔ BoundingBox.IntersectsBox c A B = false) ∧
    (BoundingBox.ContainsBox c A B = .CONTAINS ↔ BoundingBox.IntersectsBox c A B = true ∧ ∀ i, FLe (lo A i).bits (lo B i).bits ∧ FLe (hi B i).bits (hi A i).bits) := by
  have e : BoundingBox.IntersectsBox c A B = !XMVector3AnyTrue c (XMVectorOrInt
      (XMVectorGreater (XMVectorSubtract (load3 A.Center) (load3 A.Extents)) (XMVectorAdd (load3 B.Center) (load3 B.Extents)))
      (XMVectorGreater (XMVectorSubtract (load3 B.Center) (load3 B.Extents)) (XMVectorAdd (load3 A.Center) (load3 A.Extents)))) := rfl
  have e2 : XMVector3AllTrue c (XMVectorAndInt
      (XMVectorLessOrEqual (XMVectorSubtract (load3 A.Center) (load3 A.Extents)) (XMVectorSubtract (load3 B.Center) (load3 B.Extents)))
      (XMVectorLessOrEqual (XMVectorAdd (load3 B.Center) (load3 B.Extents)) (XMVectorAdd (load3 A.Center) (load3 A.Extents)))) = true ↔
        ∀ i, FLe (lo A i).bits (lo B i).bits ∧ FLe (hi B i).bits (hi A i).bits := by
    simp only [XMVectorAndInt, SSE.and, XMVectorLessOrEqual, XMVectorSubtract, XMVectorAdd, SSE.sub, SSE.add, SSE.cmple, V4.map2, Lane.band_mask_mask, allTrue_mask]
    rw [Fin.forall_fin_succ, Fin.forall_fin_two]
    simp only [Bool.and_eq_true, le_iff', lo, hi, F3.lane, load3]
    simp [and_assoc]
  rw [e, ← e2]
  simp only [BoundingBox.ContainsBox]
  generalize XMVector3AllTrue (α := F32 P) c _ = d
  generalize XMVector3AnyTrue (α := F32 P) c _ = b
  cases b <;> cases d <;> simp

theorem gt_flt (a b : F32 P) : Lane.gt a b = false ↔ ¬ FLt b.bits a.bits := by
  rw [← IEEE.lt_iff]; show IEEE.lt b.bits a.bits = false ↔ _; simp

/-- C126: for two boxes, whatever their bits: DISJOINT is `false` of the intersection test, and exchanging the boxes does not change the latter. -/
theorem C126_box_box (c : Cfg) (A B : BoundingBox (F32 P)) :
    (BoundingBox.ContainsBox c A B = .DISJOINT ↔ BoundingBox.IntersectsBox c A B = false) ∧
    BoundingBox.IntersectsBox c A B = BoundingBox.IntersectsBox c B A := by
  refine ⟨(box_inside c A B).1, ?_⟩
  rw [Bool.eq_iff_iff, box_meets, box_meets]
  exact forall_congr' fun i => and_comm

/-- C126: containment of boxes is transitive and antitone for disjointness, whatever the roundings: what is contained in a contained box is
contained, and a box that meets a contained box meets the outer box. -/
theorem C126_box_transitive (c : Cfg) (A B C : BoundingBox (F32 P)) (h : BoundingBox.ContainsBox c A B = .CONTAINS) :
    (BoundingBox.ContainsBox c B C = .CONTAINS → BoundingBox.ContainsBox c A C = .CONTAINS) ∧
    (BoundingBox.IntersectsBox c B C = true → BoundingBox.IntersectsBox c A C = true) := by
  have h2 := ((box_inside c A B).2.1 h).2
  have k : BoundingBox.IntersectsBox c B C = true → BoundingBox.IntersectsBox c A C = true := by
    rw [box_meets, box_meets]
    intro g i
    obtain ⟨g1, g2⟩ := g i
    obtain ⟨l, u⟩ := h2 i
    rw [gt_flt] at g1 g2 ⊢
    refine ⟨fun x => g1 ⟨x.1, l.2.1, lt_of_lt_of_le x.2.2 l.2.2⟩, ?_⟩
    rw [gt_flt]
    exact fun x => g2 ⟨u.1, x.2.1, lt_of_le_of_lt u.2.2 x.2.2⟩
  refine ⟨fun g => ?_, k⟩
  obtain ⟨g1, g2⟩ := (box_inside c B C).2.1 g
  refine (box_inside c A C).2.2 ⟨k g1, fun i => ?_⟩
  obtain ⟨l, u⟩ := h2 i; obtain ⟨l', u'⟩ := g2 i
  exact ⟨⟨l.1, l'.2.1, l.2.2.trans l'.2.2⟩, ⟨u'.1, u.2.1, u'.2.2.trans u.2.2⟩⟩

/-- C126: a finite box with extents that are not negative contains and meets itself. -/
theorem C126_box_self (c : Cfg) (A : BoundingBox (F32 P)) (hA : FinBox A) (eA : ∀ i, 0 ≤ ptOf A.Extents i) :
    BoundingBox.ContainsBox c A A = .CONTAINS ∧ BoundingBox.IntersectsBox c A A = true := by
  have h := (C96_boxContainsBox c A A hA hA eA eA).1 (le_refl _)
  exact ⟨h, ((box_inside c A A).2.1 h).1⟩

/-! Spheres. -/

theorem le3_splat (c : Cfg) (a b : F32 P) : XMVector3LessOrEqual c (.splat a) (.splat b) = true ↔ FLe a.bits b.bits := by
  rw [(C09_vector3 c _ _).2.2.2.2.1, all3]; exact ⟨fun h => h.1, fun h => ⟨h, h, h⟩⟩
theorem gt3_splat (c : Cfg) (a b : F32 P) : XMVector3Greater c (.splat a) (.splat b) = true ↔ FLt b.bits a.bits := by
  rw [(C09_vector3 c _ _).2.1, all3]; exact ⟨fun h => h.1, fun h => ⟨h, h, h⟩⟩
theorem le4_splat (c : Cfg) (a b : F32 P) : XMVector4LessOrEqual c (.splat a) (.splat b) = true ↔ FLe a.bits b.bits := by
  rw [(C09_vector4 c _ _).2.2.2.2.1, all4]; exact ⟨fun h => h.1, fun h => ⟨h, h, h, h⟩⟩
theorem gt4_splat (c : Cfg) (a b : F32 P) : XMVector4Greater c (.splat a) (.splat b) = true ↔ FLt b.bits a.bits := by
  rw [(C09_vector4 c _ _).2.1, all4]; exact ⟨fun h => h.1, fun h => ⟨h, h, h, h⟩⟩

/-- C126: the intersection test of two spheres does not depend on which of the two is asked, whatever their bits. -/
theorem C126_sphere_symmetric (c : Cfg) (S T : BoundingSphere (F32 P)) : S.IntersectsSphere c T = T.IntersectsSphere c S := by
  have h := (lenSq_congr c (sq_sub (load3 T.Center) (load3 S.Center))).2.1
  have k : SameNum (Lane.mul (Lane.add S.Radius T.Radius) (Lane.add S.Radius T.Radius)) (Lane.mul (Lane.add T.Radius S.Radius) (Lane.add T.Radius S.Radius)) :=
    (SameNum.of_same (Same.add_comm _ _)).mul (SameNum.of_same (Same.add_comm _ _))
  have e : ∀ A B : BoundingSphere (F32 P), A.IntersectsSphere c B = XMVector3LessOrEqual c (XMVector3LengthSq c (XMVectorSubtract (load3 B.Center) (load3 A.Center)))
    (.splat (Lane.mul (Lane.add A.Radius B.Radius) (Lane.add A.Radius B.Radius))) := fun _ _ => rfl
  have e2 : ∀ u v : F32 P, FLe u.bits v.bits ↔ Lane.le u v = true := fun u v => (IEEE.le_iff _ _).symm
  rw [Bool.eq_iff_iff, e, e, XMVector3LengthSq, XMVector3LengthSq, dot3_lanes, dot3_lanes, le3_splat, le3_splat, e2, e2]
  rw [XMVector3LengthSq, XMVector3LengthSq, dot3_lanes, dot3_lanes] at h
  have h1 := h.1; simp only [V4.splat] at h1
  rw [SameNum.le_congr h1 k]

/-! The distance from a sphere center to a box. -/

/-- A number that is not negative. -/
def NonNeg (x : F32 P) : Prop := ¬ IsNaN x.bits ∧ 0 ≤ evalue x.bits
theorem nonNeg_cases {x : F32 P} (h : NonNeg x) : (Fin' x ∧ 0 ≤ val x) ∨ x.bits = 0x7F800000#32 := by
  rcases finite_or h.1 with g | g
  · left; refine ⟨g, ?_⟩; have := h.2; rw [evalue_finite g] at this; exact_mod_cast this
  · right; rw [inf_bits g]; split_ifs with hs
    · have e : x.bits = 0xFF800000#32 := by rw [inf_bits g, if_pos hs]
      have := h.2; rw [e, evalue_bot] at this; exact absurd this (by simp)
    · rfl
theorem nonNeg_zero : NonNeg (Lane.ofBits 0#32 : F32 P) :=
  ⟨not_nan_of_finite ex_zero.1, by rw [evalue_finite ex_zero.1, show value _ = 0 from ex_zero.2]; exact le_refl _⟩
theorem rounds_nonNeg {x : F32 P} {v : ℝ} (h : Ro x v) (hv : 0 ≤ v) : NonNeg x := by
  refine ⟨rounds_num h, ?_⟩
  have := le_rounds h (e := 0#32) (by decide) (by rw [value_zero_iff.2 (by decide)]; exact hv)
  rwa [value_zero_iff.2 (by decide)] at this
theorem nonNeg_top {x : F32 P} (h : x.bits = 0x7F800000#32) : NonNeg x := by
  unfold NonNeg; rw [h, evalue_top]; exact ⟨by decide, le_top⟩
theorem nonNeg_add {x y : F32 P} (hx : NonNeg x) (hy : NonNeg y) : NonNeg (Lane.add x y) := by
  have it : IsInf 0x7F800000#32 := by decide
  rcases nonNeg_cases hx with ⟨f, p⟩ | f <;> rcases nonNeg_cases hy with ⟨g, q⟩ | g
  · exact rounds_nonNeg (ro_add (ex_leaf f) (ex_leaf g)) (add_nonneg p q)
  · apply nonNeg_top; exact (((add_special P x.bits y.bits).2.2.1 f (by rw [g]; exact it)).1).trans g
  · apply nonNeg_top; exact (((add_special P x.bits y.bits).2.1 (by rw [f]; exact it) g).1).trans f
  · apply nonNeg_top; exact ((((add_special P x.bits y.bits).2.2.2.1 (by rw [f]; exact it) (by rw [g]; exact it)).1 (f.trans g.symm)).1).trans f
theorem nonNeg_sq {x : F32 P} (hx : ¬ IsNaN x.bits) : NonNeg (Lane.mul x x) := by
  rcases finite_or hx with f | f
  · exact rounds_nonNeg (ro_mul (ex_leaf f) (ex_leaf f)) (mul_self_nonneg _)
  · have h := mul_special P x.bits x.bits
    have i := h.2.2.2.1 f hx (fun g => by
      have := (feq_zero hx).1 g; have h2 := mag_inf f; omega)
    have s := h.2.2.2.2.2 (not_nan_of_inf i)
    apply nonNeg_top
    have e : (Lane.mul x x).bits = _ := inf_bits i
    have s' : signBit (Lane.mul x x).bits = _ := s
    rw [s'] at e; simpa using e
theorem sub_num {x y : F32 P} (hx : Fin' x) (hy : ¬ IsNaN y.bits) : ¬ IsNaN (Lane.sub x y).bits := by
  rcases finite_or hy with f | f
  · exact rounds_num (sub_rounds P hx f)
  · have := ((add_special P x.bits y.bits).2.2.1 hx f).2
    have e : (Lane.sub x y).bits = y.bits ^^^ 0x80000000#32 := this
    rw [e]
    have e2 : y.bits ^^^ 0x80000000#32 = IEEE.neg y.bits := rfl
    rw [e2]; exact fun g => hy ((isNaN_am (am_neg y.bits)).1 g)

theorem sel_mask (b : Bool) (x y : F32 P) : Lane.bor (Lane.bandn (Lane.mask b) x) (Lane.band y (Lane.mask b)) = if b then y else x := by
  cases b <;> simp [LawfulLane.bor_zero_right, LawfulLane.bor_zero_left, LawfulLane.band_zero_right, LawfulLane.band_ones_right, LawfulLane.bandn_zero_left, LawfulLane.bandn_ones_left]

/-- The squared distance from the sphere center to the box, as both tests compute it. -/
def boxDist2 (c : Cfg) (B : BoundingBox (F32 P)) (S : BoundingSphere (F32 P)) : V4 (F32 P) :=
  let d := XMVectorSelect (XMVectorSelect XMVectorZero (XMVectorSubtract (load3 S.Center) (XMVectorSubtract (load3 B.Center) (load3 B.Extents)))
      (XMVectorLess (load3 S.Center) (XMVectorSubtract (load3 B.Center) (load3 B.Extents))))
    (XMVectorSubtract (load3 S.Center) (XMVectorAdd (load3 B.Center) (load3 B.Extents))) (XMVectorGreater (load3 S.Center) (XMVectorAdd (load3 B.Center) (load3 B.Extents)))
  XMVector3Dot c d d
theorem boxDist2_spec (c : Cfg) (B : BoundingBox (F32 P)) (S : BoundingSphere (F32 P)) : ∃ t : F32 P, boxDist2 c B S = .splat t ∧
    (FinBox B → Fin3 S.Center → NonNeg t) := by
  unfold boxDist2
  simp only []
  rw [dot3_lanes]
  refine ⟨_, rfl, fun hB hS => ?_⟩
  have k : ∀ s l h : F32 P, Fin' s → ¬ IsNaN l.bits → ¬ IsNaN h.bits → ∀ p q : Bool, NonNeg (Lane.mul (if q then Lane.sub s h else if p then Lane.sub s l else Lane.c0) (if q then Lane.sub s h else if p then Lane.sub s l else Lane.c0)) := by
    intro s l h hs hl hh p q
    apply nonNeg_sq
    cases p <;> cases q <;> simp only [Bool.false_eq_true, if_true, if_false]
    · exact nonNeg_zero.1
    · exact sub_num hs hh
    · exact sub_num hs hl
    · exact sub_num hs hh
  have kx := k S.Center.x (Lane.sub B.Center.x B.Extents.x) (Lane.add B.Center.x B.Extents.x) hS.1 (rounds_num (sub_rounds P hB.1.1 hB.2.1)) (rounds_num (add_rounds P hB.1.1 hB.2.1))
  have ky := k S.Center.y (Lane.sub B.Center.y B.Extents.y) (Lane.add B.Center.y B.Extents.y) hS.2.1 (rounds_num (sub_rounds P hB.1.2.1 hB.2.2.1)) (rounds_num (add_rounds P hB.1.2.1 hB.2.2.1))
  have kz := k S.Center.z (Lane.sub B.Center.z B.Extents.z) (Lane.add B.Center.z B.Extents.z) hS.2.2 (rounds_num (sub_rounds P hB.1.2.2 hB.2.2.2)) (rounds_num (add_rounds P hB.1.2.2 hB.2.2.2))
  simp only [XMVectorSelect, SSE.or, SSE.and, SSE.andnot, XMVectorLess, XMVectorGreater, SSE.cmplt, SSE.cmpgt, V4.map2, sel_mask, XMVectorSubtract, XMVectorAdd, SSE.sub, SSE.add, load3, XMVectorZero, V4.splat]
  generalize (c.sse && c.sse4) = b
  cases b <;> simp only [Bool.false_eq_true, if_true, if_false]
  · exact nonNeg_add (nonNeg_add (kx _ _) (ky _ _)) (kz _ _)
  · exact nonNeg_add (nonNeg_add (kx _ _) (ky _ _)) (nonNeg_add (kz _ _) nonNeg_zero)
theorem boxSphere_forms (c : Cfg) (B : BoundingBox (F32 P)) (S : BoundingSphere (F32 P)) :
    B.IntersectsSphere c S = XMVector3LessOrEqual c (boxDist2 c B S) (.splat (Lane.mul S.Radius S.Radius)) ∧
    (B.ContainsSphere c S = .DISJOINT ↔ XMVector3Greater c (boxDist2 c B S) (.splat (Lane.mul S.Radius S.Radius)) = true) := by
  refine ⟨rfl, ?_⟩
  have e : ∃ d : Bool, B.ContainsSphere c S = if XMVector3Greater c (boxDist2 c B S) (.splat (Lane.mul S.Radius S.Radius)) = true then .DISJOINT else if d = true then .CONTAINS else .INTERSECTS := ⟨_, rfl⟩
  obtain ⟨d, e⟩ := e
  rw [e]
  generalize XMVector3Greater c (boxDist2 c B S) _ = b
  cases b <;> cases d <;> simp

/-- C126: for a box and a sphere an intersection is never reported as DISJOINT; with finite coordinates and a radius that is not NaN the two tests
agree, overflow included. -/
theorem C126_box_sphere (c : Cfg) (B : BoundingBox (F32 P)) (S : BoundingSphere (F32 P)) :
    (B.IntersectsSphere c S = true → B.ContainsSphere c S ≠ .DISJOINT) ∧
    (FinBox B → Fin3 S.Center → ¬ IsNaN S.Radius.bits → (B.ContainsSphere c S = .DISJOINT ↔ B.IntersectsSphere c S = false)) := by
  obtain ⟨h1, h2⟩ := boxSphere_forms c B S
  obtain ⟨t, ht, hn⟩ := boxDist2_spec c B S
  have d1 : B.IntersectsSphere c S = true ↔ FLe t.bits (Lane.mul S.Radius S.Radius).bits := by rw [h1, ht, le3_splat]
  have d2 : B.ContainsSphere c S = .DISJOINT ↔ FLt (Lane.mul S.Radius S.Radius).bits t.bits := by rw [h2, ht, gt3_splat]
  rw [← Bool.not_eq_true, ne_eq, d1, d2]
  refine ⟨fun h g => absurd (lt_of_lt_of_le g.2.2 h.2.2) (lt_irrefl _), fun hB hS hr => ?_⟩
  have := (hn hB hS).1; have h3 := (nonNeg_sq hr).1
  unfold FLe FLt
  constructor
  · exact fun g h => absurd (lt_of_lt_of_le g.2.2 h.2.2) (lt_irrefl _)
  · exact fun g => ⟨h3, this, by by_contra hc; exact g ⟨this, h3, not_lt.1 hc⟩⟩

/-- C126: a sphere with a NaN radius intersects no box and yet is never reported as DISJOINT from one. -/
theorem C126_box_sphere_nan (c : Cfg) (B : BoundingBox (F32 P)) (S : BoundingSphere (F32 P)) (h : IsNaN S.Radius.bits) :
    B.IntersectsSphere c S = false ∧ B.ContainsSphere c S ≠ .DISJOINT := by
  obtain ⟨h1, h2⟩ := boxSphere_forms c B S
  obtain ⟨t, ht, hn⟩ := boxDist2_spec c B S
  have n : IsNaN (Lane.mul S.Radius S.Radius).bits := Same.mul_nan _ _ (Or.inl h)
  constructor
  · rw [← Bool.not_eq_true, h1, ht, le3_splat]; exact fun g => g.2.1 n
  · rw [ne_eq, h2, ht, gt3_splat]; exact fun g => g.1 n

/-- C126: the same one-sided agreement for an oriented box and a sphere. -/
theorem C126_orientedBox_sphere (c : Cfg) (O : BoundingOrientedBox (F32 P)) (S : BoundingSphere (F32 P)) :
    O.IntersectsSphere c S = true → O.ContainsSphere c S ≠ .DISJOINT := by
  have e : ∃ (d : Bool) (D : V4 (F32 P)), O.IntersectsSphere c S = XMVector4LessOrEqual c (XMVector3Dot c D D) (.splat (Lane.mul S.Radius S.Radius)) ∧
    O.ContainsSphere c S = if XMVector4Greater c (XMVector3Dot c D D) (.splat (Lane.mul S.Radius S.Radius)) = true then .DISJOINT else if d = true then .CONTAINS else .INTERSECTS := ⟨_, _, rfl, rfl⟩
  obtain ⟨d, D, e1, e2⟩ := e
  rw [e1, e2, dot3_lanes, le4_splat]
  intro h g
  have : XMVector4Greater c (.splat (if c.sse && c.sse4 then
    Lane.add (Lane.add (Lane.mul D.x D.x) (Lane.mul D.y D.y)) (Lane.add (Lane.mul D.z D.z) Lane.c0) else
    Lane.add (Lane.add (Lane.mul D.x D.x) (Lane.mul D.y D.y)) (Lane.mul D.z D.z))) (.splat (Lane.mul S.Radius S.Radius)) = true := by
    by_contra hc
    rw [if_neg hc] at g
    cases d <;> simp at g
  rw [gt4_splat] at this
  exact absurd (lt_of_lt_of_le this.2.2 h.2.2) (lt_irrefl _)

/-! Two spheres. -/

example : ∃ B : BoundingBox (F32 P), ∃ S : BoundingSphere (F32 P), FinBox B ∧ Fin3 S.Center ∧ ¬ IsNaN S.Radius.bits ∧ (∀ i, 0 ≤ ptOf B.Extents i) :=
  ⟨exBox, ⟨exBox.Center, exBox.Center.x⟩, exBox_fin.1, exBox_fin.1.1, not_nan_of_finite exBox_fin.1.1.1, exBox_fin.2.2⟩
example (c : Cfg) : BoundingBox.ContainsBox c (exBox : BoundingBox (F32 P)) exBox = .CONTAINS := (C126_box_self c exBox exBox_fin.1 exBox_fin.2.2).1
example : IsNaN (Lane.ofBits 0x7FC00000#32 : F32 P).bits := by show IsNaN 0x7FC00000#32; decide

theorem z_mul : Lane.mul (Lane.ofBits 0#32 : F32 P) (Lane.ofBits 0#32) = Lane.ofBits 0#32 := ev_mul _ _ 0#32 (by decide +kernel) (by decide +kernel)
theorem z_add : Lane.add (Lane.ofBits 0#32 : F32 P) (Lane.ofBits 0#32) = Lane.ofBits 0#32 := ev_add _ _ 0#32 (by decide +kernel) (by decide +kernel)
theorem add_of {a b r : BitVec 32} (h : add P a b = r) : Lane.add (Lane.ofBits a : F32 P) (Lane.ofBits b) = Lane.ofBits r := h
theorem sqrt_of {a r : BitVec 32} (h : sqrt P a = r) : Lane.sqrt (Lane.ofBits a : F32 P) = Lane.ofBits r := h
theorem i_add : Lane.add (Lane.ofBits 0x7F800000#32 : F32 P) (Lane.ofBits 0#32) = Lane.ofBits 0x7F800000#32 := by
  apply add_of; exact ((add_special P 0x7F800000#32 0#32).2.1 (by decide) (by decide)).1
theorem add_i : Lane.add (Lane.ofBits 0#32 : F32 P) (Lane.ofBits 0x7F800000#32) = Lane.ofBits 0x7F800000#32 := by
  apply add_of; exact ((add_special P 0#32 0x7F800000#32).2.2.1 (by decide) (by decide)).1
theorem z_sqrt : Lane.sqrt (Lane.ofBits 0#32 : F32 P) = Lane.ofBits 0#32 := by
  apply sqrt_of; exact ((sqrt_special P 0#32).2.2.1 ((feq_zero (by decide)).2 (by decide)))
theorem i_sqrt : Lane.sqrt (Lane.ofBits 0x7F800000#32 : F32 P) = Lane.ofBits 0x7F800000#32 := by
  apply sqrt_of; exact ((sqrt_special P 0x7F800000#32).2.2.2 rfl)
theorem sq_big : Lane.mul (Lane.ofBits 0x60AD78EC#32 : F32 P) (Lane.ofBits 0x60AD78EC#32) = Lane.ofBits 0x7F800000#32 := ev_mul _ _ 0x7F800000#32 (by decide +kernel) (by decide +kernel)
theorem c0_lit : (Lane.c0 : F32 P) = Lane.ofBits 0#32 := rfl
theorem len_of (c : Cfg) {b z i : F32 P} (hz : (Lane.ofBits 0#32 : F32 P) = z) (h1 : Lane.mul b b = i) (h2 : Lane.mul z z = z) (h3 : Lane.add i z = i) (h4 : Lane.add z i = i) (h5 : Lane.add z z = z)
    (h6 : Lane.sqrt i = i) : (XMVector3Length c (⟨b, z, z, z⟩ : V4 (F32 P))).x = i ∧ XMVector3LengthSq c (⟨b, z, z, z⟩ : V4 (F32 P)) = .splat i := by
  have h7 : Lane.band z z = z := by rw [← hz, LawfulLane.band_zero_right]
  constructor
  · simp only [XMVector3LengthSq, XMVector3Length, XMVectorSqrt, XMVector3Dot]
    split_ifs <;>
    simp only [sum3ss, sum3ss', sum3h, g_XMMask3, SSE.dp7f, SSE.hadd, SSE.and, SSE.mul, SSE.add, SSE.add_ss, SSE.sqrt, SSE.sqrt_ss, SSE.perm, SSE.shuffle,
      V4.splat, V4.map, V4.map2, V4.lane, LawfulLane.band_ones_right, LawfulLane.band_zero_right, c0_lit, hz, h7, h1, h2, h3, h4, h5, h6]
  · rw [XMVector3LengthSq, dot3_lanes]
    simp only [c0_lit, hz, h1, h2, h3, h4, h5, ite_self]
theorem len_zero (c : Cfg) : (XMVector3Length c (⟨Lane.ofBits 0#32, Lane.ofBits 0#32, Lane.ofBits 0#32, Lane.ofBits 0#32⟩ : V4 (F32 P))).x = Lane.ofBits 0#32 ∧
    XMVector3LengthSq c (⟨Lane.ofBits 0#32, Lane.ofBits 0#32, Lane.ofBits 0#32, Lane.ofBits 0#32⟩ : V4 (F32 P)) = .splat (Lane.ofBits 0#32) := len_of c rfl z_mul z_mul z_add z_add z_add z_sqrt
theorem len_big (c : Cfg) : (XMVector3Length c (⟨Lane.ofBits 0x60AD78EC#32, Lane.ofBits 0#32, Lane.ofBits 0#32, Lane.ofBits 0#32⟩ : V4 (F32 P))).x = Lane.ofBits 0x7F800000#32 ∧
    XMVector3LengthSq c (⟨Lane.ofBits 0x60AD78EC#32, Lane.ofBits 0#32, Lane.ofBits 0#32, Lane.ofBits 0#32⟩ : V4 (F32 P)) = .splat (Lane.ofBits 0x7F800000#32) :=
  len_of c rfl sq_big z_mul i_add add_i z_add i_sqrt
theorem ge_fle (a b : F32 P) : Lane.ge a b = true ↔ FLe b.bits a.bits := by rw [← IEEE.le_iff]; rfl

/-- C126: a finite sphere with a radius that is not negative contains and meets itself. -/
theorem C126_sphere_self (c : Cfg) (S : BoundingSphere (F32 P)) (h : FinSphere S) (hr : 0 ≤ value S.Radius.bits) :
    S.ContainsSphere c S = .CONTAINS ∧ S.IntersectsSphere c S = true := by
  have z : ∀ x : F32 P, Fin' x → SameNum (Lane.mul (Lane.sub x x) (Lane.sub x x)) (Lane.mul (Lane.ofBits 0#32) (Lane.ofBits 0#32)) := fun x hx => by
    have e : Ex (Lane.sub x x) 0 := (ex_sub (ex_leaf hx) (ex_leaf hx) (by rw [sub_self]; exact isF_zero)).eq (sub_self _)
    exact e.sameZero.mul e.sameZero
  have zz : Fin' (Lane.ofBits 0#32 : F32 P) := ex_zero.1
  have sq : Sq (XMVectorSubtract (load3 S.Center) (load3 S.Center)) (⟨Lane.ofBits 0#32, Lane.ofBits 0#32, Lane.ofBits 0#32, Lane.ofBits 0#32⟩ : V4 (F32 P)) :=
    ⟨z _ h.1.1, z _ h.1.2.1, z _ h.1.2.2, z _ zz⟩
  have l := (len3_congr c sq).1
  rw [(len_zero c).1] at l
  have l0 : FEq (XMVector3Length c (XMVectorSubtract (load3 S.Center) (load3 S.Center))).x.bits 0#32 := by
    rcases l with l | l
    · exact l
    · exact absurd l.2 (by show ¬ IsNaN 0#32; decide)
  have f0 : IsFinite 0#32 := by decide
  have ev0 : evalue 0#32 = 0 := by rw [evalue_finite f0, value_zero_iff.2 (by decide)]; rfl
  have k : ∀ x : F32 P, NonNeg x → Lane.ge x (XMVector3Length c (XMVectorSubtract (load3 S.Center) (load3 S.Center))).x = true := fun x hx => by
    rw [ge_fle]; exact ⟨l0.1, hx.1, by rw [l0.2.2, ev0]; exact hx.2⟩
  have hr' : 0 ≤ val S.Radius := hr
  have k1 := k _ (rounds_nonNeg (ro_add (ex_leaf h.2) (ex_leaf h.2)) (add_nonneg hr' hr'))
  have k2 := k _ (rounds_nonNeg (ro_sub (ex_leaf h.2) (ex_leaf h.2)) (by rw [sub_self]))
  constructor
  · have e : S.ContainsSphere c S = if Lane.ge (Lane.add S.Radius S.Radius) (XMVector3Length c (XMVectorSubtract (load3 S.Center) (load3 S.Center))).x then
      (if Lane.ge (Lane.sub S.Radius S.Radius) (XMVector3Length c (XMVectorSubtract (load3 S.Center) (load3 S.Center))).x then .CONTAINS else .INTERSECTS) else .DISJOINT := rfl
    rw [e, k1, k2]; rfl
  · have e : S.IntersectsSphere c S = XMVector3LessOrEqual c (XMVector3LengthSq c (XMVectorSubtract (load3 S.Center) (load3 S.Center)))
      (.splat (Lane.mul (Lane.add S.Radius S.Radius) (Lane.add S.Radius S.Radius))) := rfl
    have g := (lenSq_congr c sq).2.1
    rw [e]
    rw [XMVector3LengthSq, dot3_lanes] at g ⊢
    rw [le3_splat]
    have g1 := g.1
    rw [(len_zero c).2] at g1
    simp only [V4.splat] at g1
    have n := nonNeg_sq (rounds_num (ro_add (ex_leaf h.2) (ex_leaf h.2)))
    rcases g1 with g1 | g1
    · have g2 : _ = evalue 0#32 := g1.2.2
      exact ⟨g1.1, n.1, by rw [g2, ev0]; exact n.2⟩
    · exact absurd g1.2 (by show ¬ IsNaN 0#32; decide)

/-- C126: two spheres of radius 1e20 whose centers are 1e20 apart intersect, and the intersection test says so, but the containment test of the same
two spheres answers DISJOINT in every build: the squared distance overflows. -/
theorem C126_sphere_sphere_overflow : ∃ S T : BoundingSphere (F32 P), FinSphere S ∧ FinSphere T ∧
    ptOf T.Center - ptOf S.Center = ![value S.Radius.bits, 0, 0] ∧ 0 < value S.Radius.bits ∧ T.Radius = S.Radius ∧
    ∀ c : Cfg, S.IntersectsSphere c T = true ∧ S.ContainsSphere c T = .DISJOINT := by
  refine ⟨⟨⟨Lane.ofBits 0#32, Lane.ofBits 0#32, Lane.ofBits 0#32⟩, Lane.ofBits 0x60AD78EC#32⟩, ⟨⟨Lane.ofBits 0x60AD78EC#32, Lane.ofBits 0#32, Lane.ofBits 0#32⟩, Lane.ofBits 0x60AD78EC#32⟩, ?_, ?_, ?_, ?_, rfl, fun c => ?_⟩
  · exact ⟨⟨ex_zero.1, ex_zero.1, ex_zero.1⟩, (IEEE.finite_iff' 0x60AD78EC#32).2 (by decide)⟩
  · exact ⟨⟨(IEEE.finite_iff' 0x60AD78EC#32).2 (by decide), ex_zero.1, ex_zero.1⟩, (IEEE.finite_iff' 0x60AD78EC#32).2 (by decide)⟩
  · have z : value (Lane.ofBits 0#32 : F32 P).bits = 0 := ex_zero.2
    funext i
    fin_cases i <;> simp [ptOf, z]
  · have f : IsFinite 0x60AD78EC#32 := (IEEE.finite_iff' 0x60AD78EC#32).2 (by decide)
    have f0 : IsFinite 0#32 := by decide
    have h := ((IEEE.lt_iff 0#32 0x60AD78EC#32).1 (by decide)).2.2
    rw [evalue_finite f, evalue_finite f0, value_zero_iff.2 (by decide)] at h
    show 0 < value 0x60AD78EC#32
    exact_mod_cast h
  · have s1 : Lane.sub (Lane.ofBits 0x60AD78EC#32 : F32 P) (Lane.ofBits 0#32) = Lane.ofBits 0x60AD78EC#32 := ev_sub _ _ 0x60AD78EC#32 (by decide +kernel) (by decide +kernel)
    have s0 : Lane.sub (Lane.ofBits 0#32 : F32 P) (Lane.ofBits 0#32) = Lane.ofBits 0#32 := ev_sub _ _ 0#32 (by decide +kernel) (by decide +kernel)
    have a : Lane.add (Lane.ofBits 0x60AD78EC#32 : F32 P) (Lane.ofBits 0x60AD78EC#32) = Lane.ofBits 0x612D78EC#32 := ev_add _ _ 0x612D78EC#32 (by decide +kernel) (by decide +kernel)
    have m : Lane.mul (Lane.ofBits 0x612D78EC#32 : F32 P) (Lane.ofBits 0x612D78EC#32) = Lane.ofBits 0x7F800000#32 := ev_mul _ _ 0x7F800000#32 (by decide +kernel) (by decide +kernel)
    constructor
    · simp only [BoundingSphere.IntersectsSphere, XMVectorSubtract, SSE.sub, V4.map2, load3, XMVectorReplicate, XMVectorAdd, XMVectorMultiply, SSE.add, SSE.mul, V4.splat, s1, c0_lit, s0, a, m, (len_big c).2]
      exact (le3_splat c _ _).2 ((IEEE.le_iff 0x7F800000#32 0x7F800000#32).1 (by decide))
    · have g : Lane.ge (Lane.ofBits 0x612D78EC#32 : F32 P) (Lane.ofBits 0x7F800000#32) = false := by
        rw [← Bool.not_eq_true, ge_fle]; exact fun h => absurd ((IEEE.le_iff 0x7F800000#32 0x612D78EC#32).2 h) (by decide)
      simp only [BoundingSphere.ContainsSphere, XMVectorSubtract, SSE.sub, V4.map2, load3, XMVectorGetX, s1, c0_lit, s0, a, (len_big c).1, g, Bool.false_eq_true, if_false]
end DXM.Props
