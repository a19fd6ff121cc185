import Verif.Props.FloatAgree

/-
Growing a shape never loses what it held: monotonicity of the collision tests on binary32 lanes, rounding and overflow included.
-/

set_option linter.all false

namespace DXM.Props
open DXM.Spec DXM.FErr DXM.IEEE DXM.RG
variable {P : Env}

namespace Grow
theorem fle_trans {a b d : BitVec 32} (h : FLe a b) (g : FLe b d) : FLe a d := ⟨h.1, g.2.1, h.2.2.trans g.2.2⟩
/-- Squares of non-negative numbers keep their order. -/
theorem sq_mono {a b : F32 P} (h0 : NonNeg a) (h : FLe a.bits b.bits) : FLe (Lane.mul a a).bits (Lane.mul b b).bits := by
  have hb : NonNeg b := ⟨h.2.1, h0.2.trans h.2.2⟩
  refine ⟨(nonNeg_sq h0.1).1, (nonNeg_sq hb.1).1, ?_⟩
  rcases eq_or_lt_of_le h.2.2 with e | e
  · have s : SameNum a b := Or.inl ⟨h.1, h.2.1, e⟩
    rcases s.mul s with m | m
    · exact m.2.2.le
    · exact absurd m.1 (nonNeg_sq h0.1).1
  rcases nonNeg_cases hb with ⟨g, q⟩ | g
  · rcases nonNeg_cases h0 with ⟨f, p⟩ | f
    · rw [evalue_finite f, evalue_finite g] at e
      have e' : val a < val b := by exact_mod_cast e
      exact rounds_mono (by nlinarith) (ro_mul (ex_leaf f) (ex_leaf f)) (ro_mul (ex_leaf g) (ex_leaf g))
    · rw [f, evalue_top] at e; exact absurd e (not_lt.2 le_top)
  · have t : (Lane.mul b b).bits = 0x7F800000#32 := by
      rcases nonNeg_cases (nonNeg_sq hb.1) with ⟨f, -⟩ | f
      · exfalso
        have i : IsInf b.bits := by rw [g]; decide
        have := (mul_special P b.bits b.bits).2.2.2.1 i hb.1 (fun k => by have := (feq_zero hb.1).1 k; have := mag_inf i; omega)
        exact not_inf_of_finite f this
      · exact f
    rw [t, evalue_top]; exact le_top
theorem nonNeg_val {a : F32 P} (h : Fin' a) (p : 0 ≤ val a) : NonNeg a := ⟨not_nan_of_finite h, by rw [evalue_finite h]; exact_mod_cast p⟩
theorem fle_of_val {a b : F32 P} (h : Fin' a) (g : Fin' b) (l : val a ≤ val b) : FLe a.bits b.bits := (fle_val h g).2 l
end Grow
open Grow

/-- C128: a sphere with a larger radius contains every point, meets every sphere and every box that the smaller one does; whatever the points and centers. -/
theorem C128_sphere (c : Cfg) (S T : BoundingSphere (F32 P)) (B : BoundingBox (F32 P)) (O : BoundingOrientedBox (F32 P)) (V : V4 (F32 P)) (r : F32 P) (h0 : 0 ≤ value S.Radius.bits)
    (hS : IsFinite S.Radius.bits) (hr : IsFinite r.bits) (h : value S.Radius.bits ≤ value r.bits) :
    (S.ContainsPoint c V = .CONTAINS → BoundingSphere.ContainsPoint c ⟨S.Center, r⟩ V = .CONTAINS) ∧
    (B.IntersectsSphere c S = true → B.IntersectsSphere c ⟨S.Center, r⟩ = true) ∧
    (O.IntersectsSphere c S = true → O.IntersectsSphere c ⟨S.Center, r⟩ = true) ∧
    (IsFinite T.Radius.bits → 0 ≤ value T.Radius.bits → S.IntersectsSphere c T = true → BoundingSphere.IntersectsSphere c ⟨S.Center, r⟩ T = true) := by
  have n : NonNeg S.Radius := nonNeg_val hS h0
  have m := sq_mono n (fle_of_val hS hr h)
  refine ⟨?_, ?_, ?_, fun hT h1 => ?_⟩
  · have e : ∀ q : F32 P, BoundingSphere.ContainsPoint c ⟨S.Center, q⟩ V = if XMVector3LessOrEqual c (XMVector3Dot c (XMVectorSubtract V (load3 S.Center)) (XMVectorSubtract V (load3 S.Center))) (.splat (Lane.mul q q)) = true then .CONTAINS else .DISJOINT := fun _ => rfl
    have e0 := e S.Radius
    rw [e r, contains_iff, show S = ⟨S.Center, S.Radius⟩ from rfl, e0, contains_iff, dot3_lanes, le3_splat, le3_splat]
    exact fun g => fle_trans g m
  · have e : ∀ q : F32 P, B.IntersectsSphere c ⟨S.Center, q⟩ = XMVector3LessOrEqual c (boxDist2 c B S) (.splat (Lane.mul q q)) := fun _ => rfl
    have e0 : B.IntersectsSphere c S = _ := e S.Radius
    obtain ⟨t, ht, -⟩ := boxDist2_spec c B S
    rw [e r, e0, ht, le3_splat, le3_splat]
    exact fun g => fle_trans g m
  · have e : ∃ D : V4 (F32 P), O.IntersectsSphere c S = XMVector4LessOrEqual c (XMVector3Dot c D D) (.splat (Lane.mul S.Radius S.Radius)) ∧
      O.IntersectsSphere c ⟨S.Center, r⟩ = XMVector4LessOrEqual c (XMVector3Dot c D D) (.splat (Lane.mul r r)) := ⟨_, rfl, rfl⟩
    obtain ⟨D, e0, e⟩ := e
    rw [e, e0, dot3_lanes, le4_splat, le4_splat]
    exact fun g => fle_trans g m
  · have e : ∀ q : F32 P, BoundingSphere.IntersectsSphere c ⟨S.Center, q⟩ T = XMVector3LessOrEqual c (XMVector3Dot c (XMVectorSubtract (load3 T.Center) (load3 S.Center)) (XMVectorSubtract (load3 T.Center) (load3 S.Center)))
      (.splat (Lane.mul (Lane.add q T.Radius) (Lane.add q T.Radius))) := fun _ => rfl
    have e0 : S.IntersectsSphere c T = _ := e S.Radius
    rw [e r, e0, dot3_lanes, le3_splat, le3_splat]
    have m2 := sq_mono (nonNeg_add n (nonNeg_val hT h1)) (add_le_add' hS hT hr hT (add_le_add_left h _))
    exact fun g => fle_trans g m2

/-- C128: containment of spheres: the outer sphere may grow and the inner one may shrink. -/
theorem C128_sphere_sphere (c : Cfg) (S T : BoundingSphere (F32 P)) (r t : F32 P) (hS : IsFinite S.Radius.bits) (hT : IsFinite T.Radius.bits) (hr : IsFinite r.bits) (ht : IsFinite t.bits)
    (h : value S.Radius.bits ≤ value r.bits) :
    (S.ContainsSphere c T ≠ .DISJOINT → BoundingSphere.ContainsSphere c ⟨S.Center, r⟩ T ≠ .DISJOINT) ∧
    (S.ContainsSphere c T = .CONTAINS → BoundingSphere.ContainsSphere c ⟨S.Center, r⟩ T = .CONTAINS) ∧
    (0 ≤ value t.bits → value t.bits ≤ value T.Radius.bits → S.ContainsSphere c T = .CONTAINS → BoundingSphere.ContainsSphere c S ⟨T.Center, t⟩ = .CONTAINS) := by
  have e : ∀ a b : F32 P, BoundingSphere.ContainsSphere c ⟨S.Center, a⟩ ⟨T.Center, b⟩ = if Lane.ge (Lane.add a b) (XMVector3Length c (XMVectorSubtract (load3 T.Center) (load3 S.Center))).x then
      (if Lane.ge (Lane.sub a b) (XMVector3Length c (XMVectorSubtract (load3 T.Center) (load3 S.Center))).x then .CONTAINS else .INTERSECTS) else .DISJOINT := fun _ _ => rfl
  generalize (XMVector3Length c (XMVectorSubtract (load3 T.Center) (load3 S.Center))).x = d at e
  have e1 : ∀ a b : F32 P, BoundingSphere.ContainsSphere c ⟨S.Center, a⟩ ⟨T.Center, b⟩ = .CONTAINS ↔ Lane.ge (Lane.add a b) d = true ∧ Lane.ge (Lane.sub a b) d = true := fun a b => by
    rw [e]; cases Lane.ge (Lane.add a b) d <;> cases Lane.ge (Lane.sub a b) d <;> simp
  have e2 : ∀ a b : F32 P, BoundingSphere.ContainsSphere c ⟨S.Center, a⟩ ⟨T.Center, b⟩ ≠ .DISJOINT ↔ Lane.ge (Lane.add a b) d = true := fun a b => by
    rw [e]; cases Lane.ge (Lane.add a b) d <;> cases Lane.ge (Lane.sub a b) d <;> simp
  have h' : val S.Radius ≤ val r := h
  have m1 := add_le_add' hS hT hr hT (add_le_add_left h' _)
  have m2 := sub_le_sub hS hT hr hT (sub_le_sub_right h' _)
  refine ⟨?_, ?_, fun t0 tl => ?_⟩
  · have i1 := e2 S.Radius T.Radius
    have i2 := e2 r T.Radius
    intro g
    have g1 := i1.1 g
    rw [ge_fle] at g1
    exact i2.2 ((ge_fle _ _).2 (fle_trans g1 m1))
  · have i1 := e1 S.Radius T.Radius
    have i2 := e1 r T.Radius
    intro g
    obtain ⟨g1, g2⟩ := i1.1 g
    rw [ge_fle] at g1 g2
    exact i2.2 ⟨(ge_fle _ _).2 (fle_trans g1 m1), (ge_fle _ _).2 (fle_trans g2 m2)⟩
  · have i1 := e1 S.Radius T.Radius
    have i2 := e1 S.Radius t
    intro g
    obtain ⟨g1, g2⟩ := i1.1 g
    rw [ge_fle] at g1 g2
    have t0' : 0 ≤ val t := t0
    have tl' : val t ≤ val T.Radius := tl
    have m3 := sub_le_sub hS hT hS ht (by linarith)
    exact i2.2 ⟨(ge_fle _ _).2 (fle_trans (fle_trans g2 m3) (sub_le_add hS ht hS ht (by linarith))), (ge_fle _ _).2 (fle_trans g2 m3)⟩

/-- C128: a box with larger extents contains every point and every box that the smaller one does, and meets every box that it does. -/
theorem C128_box (c : Cfg) (A B : BoundingBox (F32 P)) (V : V4 (F32 P)) (E : F3 (F32 P)) (hA : FinBox A) (hE : Fin3 E) (h : ∀ i, ptOf A.Extents i ≤ ptOf E i) :
    (A.ContainsPoint c V = .CONTAINS → BoundingBox.ContainsPoint c ⟨A.Center, E⟩ V = .CONTAINS) ∧
    (A.IntersectsBox c B = true → BoundingBox.IntersectsBox c ⟨A.Center, E⟩ B = true) ∧
    (A.ContainsBox c B = .CONTAINS → BoundingBox.ContainsBox c ⟨A.Center, E⟩ B = .CONTAINS) := by
  have hl : ∀ i, FLe (lo (⟨A.Center, E⟩ : BoundingBox (F32 P)) i).bits (lo A i).bits := fun i => by
    have g := h i
    rw [ptOf_lane, ptOf_lane] at g
    exact sub_le_sub (fin3_lane hA.1 i) (fin3_lane hE i) (fin3_lane hA.1 i) (fin3_lane hA.2 i) (by linarith)
  have hh : ∀ i, FLe (hi A i).bits (hi (⟨A.Center, E⟩ : BoundingBox (F32 P)) i).bits := fun i => by
    have g := h i
    rw [ptOf_lane, ptOf_lane] at g
    exact add_le_add' (fin3_lane hA.1 i) (fin3_lane hA.2 i) (fin3_lane hA.1 i) (fin3_lane hE i) (by linarith)
  have k : A.IntersectsBox c B = true → BoundingBox.IntersectsBox c ⟨A.Center, E⟩ B = true := by
    rw [box_meets, box_meets]
    intro g i
    obtain ⟨g1, g2⟩ := g i
    rw [gt_flt] at g1 g2 ⊢
    rw [gt_flt]
    exact ⟨fun x => g1 ⟨x.1, (hl i).2.1, lt_of_lt_of_le x.2.2 (hl i).2.2⟩, fun x => g2 ⟨(hh i).1, x.2.1, lt_of_le_of_lt (hh i).2.2 x.2.2⟩⟩
  refine ⟨?_, k, fun g => ?_⟩
  · have e : ∀ F : F3 (F32 P), BoundingBox.ContainsPoint c ⟨A.Center, F⟩ V = if XMVector3InBounds c (XMVectorSubtract V (load3 A.Center)) (load3 F) = true then .CONTAINS else .DISJOINT := fun _ => rfl
    have e0 : A.ContainsPoint c V = _ := e A.Extents
    rw [e E, e0, contains_iff, contains_iff, (C11_predicates c (XMVectorSubtract V (load3 A.Center)) V (load3 A.Extents)).2.2.2.2.1,
      (C11_predicates c (XMVectorSubtract V (load3 A.Center)) V (load3 E)).2.2.2.2.1, all_lanes3, all_lanes3]
    intro g i
    have g' := g i
    have f : FLe (F3.lane A.Extents i).bits (F3.lane E i).bits := fle_of_val (fin3_lane hA.2 i) (fin3_lane hE i) (by have := h i; rwa [ptOf_lane, ptOf_lane] at this)
    exact ⟨g'.1, f.2.1, (EReal.neg_le_neg_iff.2 f.2.2).trans g'.2.2.1, g'.2.2.2.trans f.2.2⟩
  · obtain ⟨g1, g2⟩ := (box_inside c A B).2.1 g
    exact (box_inside c _ B).2.2 ⟨k g1, fun i => ⟨fle_trans (hl i) (g2 i).1, fle_trans (g2 i).2 (hh i)⟩⟩

/-- C128: the same for the points of an oriented box, whatever its orientation. -/
theorem C128_orientedBox (c : Cfg) (O : BoundingOrientedBox (F32 P)) (V : V4 (F32 P)) (E : F3 (F32 P)) (hO : Fin3 O.Extents) (hE : Fin3 E) (h : ∀ i, ptOf O.Extents i ≤ ptOf E i) :
    O.ContainsPoint c V = .CONTAINS → BoundingOrientedBox.ContainsPoint c ⟨O.Center, E, O.Orientation⟩ V = .CONTAINS := by
  have e0 : O.ContainsPoint c V = if XMVector3InBounds c (XMVector3InverseRotate c (XMVectorSubtract V (load3 O.Center)) O.Orientation) (load3 O.Extents) = true then .CONTAINS else .DISJOINT := rfl
  have e : BoundingOrientedBox.ContainsPoint c ⟨O.Center, E, O.Orientation⟩ V =
    if XMVector3InBounds c (XMVector3InverseRotate c (XMVectorSubtract V (load3 O.Center)) O.Orientation) (load3 E) = true then .CONTAINS else .DISJOINT := rfl
  generalize XMVector3InverseRotate c (XMVectorSubtract V (load3 O.Center)) O.Orientation = D at e e0
  rw [e, e0, contains_iff, contains_iff, (C11_predicates c D V (load3 O.Extents)).2.2.2.2.1, (C11_predicates c D V (load3 E)).2.2.2.2.1, all_lanes3, all_lanes3]
  intro g i
  have g' := g i
  have f : FLe (F3.lane O.Extents i).bits (F3.lane E i).bits := fle_of_val (fin3_lane hO i) (fin3_lane hE i) (by have := h i; rwa [ptOf_lane, ptOf_lane] at this)
  exact ⟨g'.1, f.2.1, (EReal.neg_le_neg_iff.2 f.2.2).trans g'.2.2.1, g'.2.2.2.trans f.2.2⟩

/-! The hypotheses are met: radius 1 grows to 3, and the extents (3/2, 3, 1) to (3, 3, 3). -/
example : IsFinite (exV : V4 (F32 P)).w.bits ∧ IsFinite (exV : V4 (F32 P)).x.bits ∧ 0 ≤ value (exV : V4 (F32 P)).w.bits ∧ value (exV : V4 (F32 P)).w.bits < value (exV : V4 (F32 P)).x.bits := by
  obtain ⟨e0, -, -, e3⟩ := exV_vals (P := P)
  have e0' : value (exV : V4 (F32 P)).x.bits = 3 := e0
  have e3' : value (exV : V4 (F32 P)).w.bits = 1 := e3
  exact ⟨exV_fin 4 3 (by decide), exV_fin 4 0 (by decide), by rw [e3']; norm_num, by rw [e0', e3']; norm_num⟩
example : FinBox (exBox : BoundingBox (F32 P)) ∧ Fin3 (⟨exV.x, exV.x, exV.x⟩ : F3 (F32 P)) ∧ ∀ i, ptOf (exBox : BoundingBox (F32 P)).Extents i ≤ ptOf (⟨exV.x, exV.x, exV.x⟩ : F3 (F32 P)) i := by
  obtain ⟨e0, -, e2, e3⟩ := exV_vals (P := P)
  have e0' : value (exV : V4 (F32 P)).x.bits = 3 := e0
  have e2' : value (exV : V4 (F32 P)).z.bits = 3/2 := e2
  have e3' : value (exV : V4 (F32 P)).w.bits = 1 := e3
  have f : IsFinite (exV : V4 (F32 P)).x.bits := exV_fin 4 0 (by decide)
  refine ⟨exBox_fin.1, ⟨f, f, f⟩, fun i => ?_⟩
  fin_cases i <;> simp [exBox, ptOf, e0', e2', e3'] <;> norm_num
end DXM.Props
