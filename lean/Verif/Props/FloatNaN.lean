import Verif.Props.FloatAgree
import Verif.Lemmas.FExactM

/-
What a NaN coordinate does to products, lengths, rotations and the collision tests (interpretation I).
-/

set_option linter.all false

namespace DXM.Props
open DXM.Spec DXM.FErr DXM.IEEE DXM.RG DXM.FEx
variable {P : Env}

/-- The lane is NaN. -/
def N (x : F32 P) : Prop := IsNaN x.bits
/-- One of the first three lanes is NaN. -/
def Any3 (V : V4 (F32 P)) : Prop := N V.x ∨ N V.y ∨ N V.z
/-- One of the four lanes is NaN. -/
def Any4 (V : V4 (F32 P)) : Prop := N V.x ∨ N V.y ∨ N V.z ∨ N V.w
/-- All four lanes are NaN. -/
def All4 (V : V4 (F32 P)) : Prop := N V.x ∧ N V.y ∧ N V.z ∧ N V.w
/-- One of the three stored numbers is NaN. -/
def Bad (p : F3 (F32 P)) : Prop := N p.x ∨ N p.y ∨ N p.z

namespace NaN
variable {x y z : F32 P}
theorem add_l (h : N x) : N (Lane.add x y) := Same.add_nan _ _ (Or.inl h)
theorem add_r (h : N y) : N (Lane.add x y) := Same.add_nan _ _ (Or.inr h)
theorem sub_l (h : N x) : N (Lane.sub x y) := Same.sub_nan _ _ (Or.inl h)
theorem sub_r (h : N y) : N (Lane.sub x y) := Same.sub_nan _ _ (Or.inr h)
theorem mul_l (h : N x) : N (Lane.mul x y) := Same.mul_nan _ _ (Or.inl h)
theorem mul_r (h : N y) : N (Lane.mul x y) := Same.mul_nan _ _ (Or.inr h)
theorem neg_n (h : N x) : N (Lane.neg x) := Same.neg_nan _ h
theorem sqrt_n (h : N x) : N (Lane.sqrt x) := Same.sqrt_nan _ h
theorem fma_any (h : N x ∨ N y ∨ N z) : N (Lane.fma x y z) := by
  show IsNaN (IEEE.fma P x.bits y.bits z.bits)
  have h' : IsNaN x.bits ∨ IsNaN y.bits ∨ IsNaN z.bits := h
  unfold IEEE.fma; rw [if_pos (by simpa [isNaN_iff, or_assoc] using h')]; exact isNaN_qnan _ _ _ _ _
theorem fma_1 (h : N x) : N (Lane.fma x y z) := fma_any (Or.inl h)
theorem fma_2 (h : N y) : N (Lane.fma x y z) := fma_any (Or.inr (Or.inl h))
theorem fma_3 (h : N z) : N (Lane.fma x y z) := fma_any (Or.inr (Or.inr h))
end NaN
open NaN
/-- Search for the NaN operand. -/
syntax "nanp" : tactic
macro_rules
| `(tactic| nanp) => `(tactic| first
  | with_reducible assumption
  | (with_reducible apply add_l; nanp; done) | (with_reducible apply add_r; nanp; done) | (with_reducible apply mul_l; nanp; done) | (with_reducible apply mul_r; nanp; done)
  | (with_reducible apply sub_l; nanp; done) | (with_reducible apply sub_r; nanp; done)
  | (with_reducible apply fma_1; nanp; done) | (with_reducible apply fma_2; nanp; done) | (with_reducible apply fma_3; nanp; done)
  | (with_reducible apply sqrt_n; nanp; done) | (with_reducible apply neg_n; nanp; done))

theorem qmul_nan (c : Cfg) (A B : V4 (F32 P)) (h : Any4 A ∨ Any4 B) : All4 (XMQuaternionMultiply c A B) := by
  unfold All4
  rcases h with (h | h | h | h) | (h | h | h | h) <;> tolanes [XMQuaternionMultiply] <;> (refine ⟨?_, ?_, ?_, ?_⟩ <;> nanp)
theorem conj_nan (c : Cfg) (A : V4 (F32 P)) (h : Any4 A) : Any4 (XMQuaternionConjugate c A) := by
  unfold XMQuaternionConjugate
  split_ifs
  · rcases h with h | h | h | h
    · exact Or.inl (mul_l h)
    · exact Or.inr (Or.inl (mul_l h))
    · exact Or.inr (Or.inr (Or.inl (mul_l h)))
    · exact Or.inr (Or.inr (Or.inr (mul_l h)))
  · rcases h with h | h | h | h
    · exact Or.inl (neg_n h)
    · exact Or.inr (Or.inl (neg_n h))
    · exact Or.inr (Or.inr (Or.inl (neg_n h)))
    · exact Or.inr (Or.inr (Or.inr h))
theorem any_of_all {V : V4 (F32 P)} (h : All4 V) : Any4 V := Or.inl h.1
theorem any_sel {V W : V4 (F32 P)} (h : Any3 V) : Any4 (XMVectorSelect W V g_XMSelect1110) := by
  rw [sel1110X]
  rcases h with h | h | h
  · exact Or.inl h
  · exact Or.inr (Or.inl h)
  · exact Or.inr (Or.inr (Or.inl h))
theorem dot3_nan (c : Cfg) (A B : V4 (F32 P)) (h : Any3 A ∨ Any3 B) : ∃ t : F32 P, N t ∧ XMVector3Dot c A B = .splat t := by
  rw [dot3_lanes]
  refine ⟨_, ?_, rfl⟩
  generalize (c.sse && c.sse4) = b
  rcases h with (h | h | h) | (h | h | h) <;> cases b <;> simp only [Bool.false_eq_true, if_true, if_false] <;> nanp
theorem dot4_nan (c : Cfg) (A B : V4 (F32 P)) (h : Any4 A ∨ Any4 B) : ∃ t : F32 P, N t ∧ XMVector4Dot c A B = .splat t := by
  unfold XMVector4Dot
  split_ifs <;>
  simp only [SSE.dpff, SSE.hadd, SSE.mul, SSE.add, SSE.perm, SSE.shuffle, V4.map2, V4.lane, V4.splat] <;>
  refine ⟨_, ?_, rfl⟩ <;>
  (rcases h with (h | h | h | h) | (h | h | h | h) <;> nanp)
theorem all_splat {V : V4 (F32 P)} (h : ∃ t : F32 P, N t ∧ V = .splat t) : All4 V := by obtain ⟨t, h, rfl⟩ := h; exact ⟨h, h, h, h⟩

/-- C127: a NaN coordinate makes dot products, lengths and rotated vectors NaN in every lane, in every build. -/
theorem C127_propagates (c : Cfg) (A B : V4 (F32 P)) :
    (N A.x ∨ N A.y ∨ N B.x ∨ N B.y → All4 (XMVector2Dot c A B)) ∧
    (Any3 A ∨ Any3 B → All4 (XMVector3Dot c A B)) ∧
    (Any4 A ∨ Any4 B → All4 (XMVector4Dot c A B)) ∧
    (Any3 A → All4 (XMVector3LengthSq c A) ∧ N (XMVector3Length c A).x ∧ N (XMVector3Length c A).y ∧ N (XMVector3Length c A).z) ∧
    (Any4 A ∨ Any4 B → All4 (XMQuaternionMultiply c A B)) ∧
    (Any3 A ∨ Any4 B → All4 (XMVector3Rotate c A B) ∧ All4 (XMVector3InverseRotate c A B)) := by
  refine ⟨fun h => ?_, fun h => all_splat (dot3_nan c A B h), fun h => ?_, fun h => ⟨all_splat (dot3_nan c A A (Or.inl h)), ?_⟩, qmul_nan c A B, fun h => ⟨?_, ?_⟩⟩
  · rw [dot2_lanes]
    rcases h with h | h | h | h <;> (refine all_splat ⟨_, ?_, rfl⟩; nanp)
  · exact all_splat (dot4_nan c A B h)
  · rcases h with h | h | h <;>
      (simp only [XMVector3Length, XMVector3LengthSq, XMVectorSqrt, XMVector3Dot]
       split_ifs <;>
       simp only [sum3ss, sum3ss', sum3h, g_XMMask3, SSE.dp7f, SSE.hadd, SSE.and, SSE.mul, SSE.add, SSE.add_ss, SSE.sqrt, SSE.sqrt_ss, SSE.perm, SSE.shuffle,
         V4.splat, V4.map, V4.map2, V4.lane, LawfulLane.band_ones_right, LawfulLane.band_zero_right] <;> (refine ⟨?_, ?_, ?_⟩ <;> nanp))
  · simp only [XMVector3Rotate]
    rcases h with h | h
    · exact qmul_nan c _ _ (Or.inl (any_of_all (qmul_nan c _ _ (Or.inr (any_sel h)))))
    · exact qmul_nan c _ _ (Or.inr h)
  · simp only [XMVector3InverseRotate]
    rcases h with h | h
    · exact qmul_nan c _ _ (Or.inl (any_of_all (qmul_nan c _ _ (Or.inr (any_sel h)))))
    · exact qmul_nan c _ _ (Or.inl (any_of_all (qmul_nan c _ _ (Or.inl h))))

/-! Collision tests. -/

theorem sub_any3 {V : V4 (F32 P)} {p : F3 (F32 P)} (h : Any3 V ∨ Bad p) : Any3 (XMVectorSubtract V (load3 p)) := by
  rcases h with (h | h | h) | (h | h | h)
  · exact Or.inl (sub_l h)
  · exact Or.inr (Or.inl (sub_l h))
  · exact Or.inr (Or.inr (sub_l h))
  · exact Or.inl (sub_r h)
  · exact Or.inr (Or.inl (sub_r h))
  · exact Or.inr (Or.inr (sub_r h))
theorem load_any3 {p : F3 (F32 P)} (h : Bad p) : Any3 (load3 p) := h
theorem not_inBounds (c : Cfg) (A E : V4 (F32 P)) (h : Any3 A ∨ Any3 E) : XMVector3InBounds c A E = false := by
  rw [← Bool.not_eq_true, (C11_predicates c A A E).2.2.2.2.1, all3]
  intro g
  rcases h with (h | h | h) | (h | h | h)
  · exact g.1.1 h
  · exact g.2.1.1 h
  · exact g.2.2.1 h
  · exact g.1.2.1 h
  · exact g.2.1.2.1 h
  · exact g.2.2.2.1 h
theorem any3_of_all {V : V4 (F32 P)} (h : All4 V) : Any3 V := Or.inl h.1

/-- C127: a point with a NaN coordinate is contained in no sphere, box or oriented box; nor does a shape with a NaN coordinate (center, radius,
extents, orientation) contain any point. -/
theorem C127_containsPoint_partial (c : Cfg) (S : BoundingSphere (F32 P)) (B : BoundingBox (F32 P)) (O : BoundingOrientedBox (F32 P)) (V : V4 (F32 P)) :
    (Any3 V ∨ Bad S.Center ∨ N S.Radius → S.ContainsPoint c V = .DISJOINT) ∧
    (Any3 V ∨ Bad B.Center ∨ Bad B.Extents → B.ContainsPoint c V = .DISJOINT) ∧
    (Any3 V ∨ Bad O.Center ∨ Bad O.Extents ∨ Any4 O.Orientation → O.ContainsPoint c V = .DISJOINT) := by
  refine ⟨fun h => ?_, fun h => ?_, fun h => ?_⟩
  · have e : S.ContainsPoint c V = if XMVector3LessOrEqual c (XMVector3Dot c (XMVectorSubtract V (load3 S.Center)) (XMVectorSubtract V (load3 S.Center))) (.splat (Lane.mul S.Radius S.Radius)) = true then .CONTAINS else .DISJOINT := rfl
    rw [e, if_neg]
    rcases or_assoc.2 h with h | h
    · obtain ⟨t, ht, e⟩ := dot3_nan c _ _ (Or.inl (sub_any3 h))
      rw [e, le3_splat]; exact fun g => g.1 ht
    · rw [dot3_lanes, le3_splat]; exact fun g => g.2.1 (mul_l h)
  · have e : B.ContainsPoint c V = if XMVector3InBounds c (XMVectorSubtract V (load3 B.Center)) (load3 B.Extents) = true then .CONTAINS else .DISJOINT := rfl
    rw [e, not_inBounds]; · rfl
    rcases or_assoc.2 h with h | h
    · exact Or.inl (sub_any3 h)
    · exact Or.inr h
  · have e : O.ContainsPoint c V = if XMVector3InBounds c (XMVector3InverseRotate c (XMVectorSubtract V (load3 O.Center)) O.Orientation) (load3 O.Extents) = true then .CONTAINS else .DISJOINT := rfl
    rw [e, not_inBounds]; · rfl
    have r := (C127_propagates c (XMVectorSubtract V (load3 O.Center)) O.Orientation).2.2.2.2.2
    rcases or_assoc.2 h with h | h | h
    · exact Or.inl (any3_of_all (r (Or.inl (sub_any3 h))).2)
    · exact Or.inr h
    · exact Or.inl (any3_of_all (r (Or.inr h)).2)

theorem insert_w (c : Cfg) (V : V4 (F32 P)) : insertC c V (XMVectorSplatOne c) 0 0 0 1 = ⟨V.x, V.y, V.z, Lane.ofBits 0x3F800000#32⟩ := by
  have := C04_insert c true V (XMVectorSplatOne c) 0 false false false true
  simp at this
  have this' : XMVectorInsert c true V (XMVectorSplatOne c) 0 0 0 0 1 = _ := this
  unfold insertC
  rw [this']
  simp [Outcome.getD, Spec.cyc]
  by_cases hs : c.sse = true <;> simp [XMVectorSplatOne, V4.lane, hs] <;> rfl

theorem gt_nan {a b : F32 P} (h : N a) : Lane.gt a b = false := by rw [gt_flt]; exact fun g => g.2.1 h
theorem fold_nan (c : Cfg) (T : V4 (F32 P)) (hT : Any4 T) (l : List (V4 (F32 P))) :
    l.foldl (fun Outside Q => XMVectorOrInt Outside (XMVectorGreater (XMVector4Dot c T Q) XMVectorZero)) XMVectorZero = XMVectorZero := by
  induction l with
  | nil => rfl
  | cons q l ih =>
    rw [List.foldl_cons]
    have e : XMVectorOrInt XMVectorZero (XMVectorGreater (XMVector4Dot c T q) XMVectorZero) = (XMVectorZero : V4 (F32 P)) := by
      obtain ⟨t, ht, e⟩ := dot4_nan c T q (Or.inl hT)
      rw [e]
      simp only [XMVectorOrInt, SSE.or, XMVectorGreater, SSE.cmpgt, V4.map2, V4.splat, XMVectorZero, gt_nan ht, Lane.mask, Bool.false_eq_true, if_false, Lane.c0, LawfulLane.bor_zero_left]
    rw [e, ih]

/-- C127 is false of frusta: every frustum contains every point with a NaN coordinate, in every build. -/
theorem C127_frustum_fails (c : Cfg) (F : BoundingFrustum (F32 P)) (V : V4 (F32 P)) (h : Any3 V ∨ Bad F.Origin ∨ Any4 F.Orientation) : F.ContainsPoint c V = .CONTAINS := by
  have e : F.ContainsPoint c V = if XMVector4NotEqualInt c ((BoundingFrustum.localPlanes F).foldl (fun Outside Q => XMVectorOrInt Outside
      (XMVectorGreater (XMVector4Dot c (insertC c (XMVector3InverseRotate c (XMVectorSubtract V (load3 F.Origin)) F.Orientation) (XMVectorSplatOne c) 0 0 0 1) Q) XMVectorZero)) XMVectorZero) XMVectorTrueInt = true
      then .CONTAINS else .DISJOINT := rfl
  have r := (C127_propagates c (XMVectorSubtract V (load3 F.Origin)) F.Orientation).2.2.2.2.2
  have r' : All4 (XMVector3InverseRotate c (XMVectorSubtract V (load3 F.Origin)) F.Orientation) := by
    rcases or_assoc.2 h with h | h
    · exact (r (Or.inl (sub_any3 h))).2
    · exact (r (Or.inr h)).2
  rw [e, fold_nan c _ (by rw [insert_w]; exact Or.inl r'.1), if_pos]
  rw [(C09_vector4 c _ _).2.2.2.2.2.2.2, all4]
  intro g
  exact absurd g.1 (by show ¬ (0#32 = 0xFFFFFFFF#32); decide)

/-- C127: spheres with a NaN coordinate or radius neither contain nor meet any sphere; and no such sphere lies in or meets another. -/
theorem C127_sphere_sphere (c : Cfg) (S T : BoundingSphere (F32 P)) (h : Bad S.Center ∨ N S.Radius ∨ Bad T.Center ∨ N T.Radius) :
    S.ContainsSphere c T = .DISJOINT ∧ S.IntersectsSphere c T = false := by
  have h' : Any3 (XMVectorSubtract (load3 T.Center) (load3 S.Center)) ∨ N (Lane.add S.Radius T.Radius) := by
    rcases h with h | h | h | h
    · exact Or.inl (sub_any3 (Or.inr h))
    · exact Or.inr (add_l h)
    · exact Or.inl (sub_any3 (Or.inl h))
    · exact Or.inr (add_r h)
  constructor
  · have e : S.ContainsSphere c T = if Lane.ge (Lane.add S.Radius T.Radius) (XMVector3Length c (XMVectorSubtract (load3 T.Center) (load3 S.Center))).x then
      (if Lane.ge (Lane.sub S.Radius T.Radius) (XMVector3Length c (XMVectorSubtract (load3 T.Center) (load3 S.Center))).x then .CONTAINS else .INTERSECTS) else .DISJOINT := rfl
    rw [e, if_neg]
    rw [ge_fle]
    rcases h' with h' | h'
    · exact fun g => g.1 ((C127_propagates c _ (load3 S.Center)).2.2.2.1 h').2.1
    · exact fun g => g.2.1 h'
  · have e : S.IntersectsSphere c T = XMVector3LessOrEqual c (XMVector3Dot c (XMVectorSubtract (load3 T.Center) (load3 S.Center)) (XMVectorSubtract (load3 T.Center) (load3 S.Center)))
      (.splat (Lane.mul (Lane.add S.Radius T.Radius) (Lane.add S.Radius T.Radius))) := rfl
    rw [e, ← Bool.not_eq_true]
    rcases h' with h' | h'
    · obtain ⟨t, ht, e⟩ := dot3_nan c _ _ (Or.inl h')
      rw [e, le3_splat]; exact fun g => g.1 ht
    · rw [dot3_lanes, le3_splat]; exact fun g => g.2.1 (mul_l h')

/-- C127: a box with a NaN coordinate neither contains a box nor is contained in one, and `ContainsBox` says so. -/
theorem C127_box_box_contains (c : Cfg) (A B : BoundingBox (F32 P)) (h : Bad A.Center ∨ Bad A.Extents ∨ Bad B.Center ∨ Bad B.Extents) :
    BoundingBox.ContainsBox c A B ≠ .CONTAINS := by
  intro g
  have g' := ((box_inside c A B).2.1 g).2
  have k : ∀ D : BoundingBox (F32 P), (∀ i, ¬ IsNaN (lo D i).bits) → ¬ (Bad D.Center ∨ Bad D.Extents) := by
    intro D k h
    rcases h with (h | h | h) | (h | h | h)
    · exact k 0 (sub_l h)
    · exact k 1 (sub_l h)
    · exact k 2 (sub_l h)
    · exact k 0 (sub_r h)
    · exact k 1 (sub_r h)
    · exact k 2 (sub_r h)
  rcases or_assoc.2 h with h | h
  · exact k A (fun i => (g' i).1.1) h
  · exact k B (fun i => (g' i).1.2.1) h

/-- C127 is false of the intersection test of boxes: a box whose center is NaN meets every box, in every build. -/
theorem C127_box_box_fails (c : Cfg) (A B : BoundingBox (F32 P)) (h : N A.Center.x ∧ N A.Center.y ∧ N A.Center.z) :
    BoundingBox.IntersectsBox c A B = true := by
  rw [box_meets]
  have k1 : ∀ i, N (lo A i) := by
    intro i; fin_cases i
    · exact sub_l h.1
    · exact sub_l h.2.1
    · exact sub_l h.2.2
  have k2 : ∀ i, N (hi A i) := by
    intro i; fin_cases i
    · exact add_l h.1
    · exact add_l h.2.1
    · exact add_l h.2.2
  intro i
  exact ⟨gt_nan (k1 i), by rw [gt_flt]; exact fun g => g.1 (k2 i)⟩

theorem fnma_3 {x y z : F32 P} (h : N z) : N (Lane.fnma x y z) := by
  show IsNaN (IEEE.fnma P x.bits y.bits z.bits)
  have h' : IsNaN z.bits := h
  unfold IEEE.fnma; rw [if_pos (by simp [isNaN_iff, h'])]; exact isNaN_qnan _ _ _ _ _
theorem lt_nan' {a b : F32 P} (h : N a) : Lane.lt a b = false := Same.lt_nan _ _ (Or.inl h)

/-- C127 is false of rays: a ray is reported to hit every sphere whose center (or the ray's origin) has a NaN coordinate, in every build. -/
theorem C127_ray_sphere_fails (c : Cfg) (S : BoundingSphere (F32 P)) (O D : V4 (F32 P)) (h : Any3 O ∨ Bad S.Center) : (S.IntersectsRay c O D).1 = true := by
  have hl : Any3 (XMVectorSubtract (load3 S.Center) O) := by
    rcases h with (h | h | h) | (h | h | h)
    · exact Or.inl (sub_r h)
    · exact Or.inr (Or.inl (sub_r h))
    · exact Or.inr (Or.inr (sub_r h))
    · exact Or.inl (sub_l h)
    · exact Or.inr (Or.inl (sub_l h))
    · exact Or.inr (Or.inr (sub_l h))
  obtain ⟨s, hs, es⟩ := dot3_nan c (XMVectorSubtract (load3 S.Center) O) D (Or.inl hl)
  obtain ⟨l, hl2, el⟩ := dot3_nan c (XMVectorSubtract (load3 S.Center) O) (XMVectorSubtract (load3 S.Center) O) (Or.inl hl)
  have hm : ∃ m : F32 P, N m ∧ XMVectorNegativeMultiplySubtract c (.splat s) (.splat s) (.splat l) = .splat m := by
    simp only [XMVectorNegativeMultiplySubtract, SSE.fnmadd]
    split_ifs
    · exact ⟨_, fnma_3 hl2, rfl⟩
    · exact ⟨_, sub_l hl2, rfl⟩
    · exact ⟨_, sub_l hl2, rfl⟩
  obtain ⟨m, hm, em⟩ := hm
  have e : ∃ q : F32 P, S.IntersectsRay c O D = if XMVector4NotEqualInt c (XMVectorOrInt (XMVectorAndInt (XMVectorLess (XMVector3Dot c (XMVectorSubtract (load3 S.Center) O) D) XMVectorZero)
      (XMVectorGreater (XMVector3Dot c (XMVectorSubtract (load3 S.Center) O) (XMVectorSubtract (load3 S.Center) O)) (.splat (Lane.mul S.Radius S.Radius))))
      (XMVectorGreater (XMVectorNegativeMultiplySubtract c (XMVector3Dot c (XMVectorSubtract (load3 S.Center) O) D) (XMVector3Dot c (XMVectorSubtract (load3 S.Center) O) D)
        (XMVector3Dot c (XMVectorSubtract (load3 S.Center) O) (XMVectorSubtract (load3 S.Center) O))) (.splat (Lane.mul S.Radius S.Radius)))) XMVectorTrueInt = true then (true, q) else (false, Lane.c0) := ⟨_, rfl⟩
  obtain ⟨q, e⟩ := e
  rw [e, es, el, em, if_pos]
  rw [(C09_vector4 c _ _).2.2.2.2.2.2.2, all4]
  intro g
  have g1 := g.1
  simp only [XMVectorOrInt, XMVectorAndInt, SSE.or, SSE.and, XMVectorGreater, XMVectorLess, SSE.cmpgt, SSE.cmplt, V4.map2, V4.splat, gt_nan hl2, gt_nan hm, lt_nan' hs, Lane.mask, Bool.false_eq_true, if_false,
    LawfulLane.bor_zero_left, LawfulLane.band_zero_left] at g1
  exact absurd g1 (by show ¬ (0#32 = 0xFFFFFFFF#32); decide)

example : Any3 (⟨Lane.ofBits 0#32, Lane.ofBits 0x7FC00000#32, Lane.ofBits 0#32, Lane.ofBits 0#32⟩ : V4 (F32 P)) := Or.inr (Or.inl (by show IsNaN 0x7FC00000#32; decide))
example : ∃ S : BoundingSphere (F32 P), Bad S.Center ∧ Fin' S.Radius := ⟨⟨⟨Lane.ofBits 0x7FC00000#32, Lane.ofBits 0#32, Lane.ofBits 0#32⟩, Lane.ofBits 0#32⟩,
  Or.inl (by show IsNaN 0x7FC00000#32; decide), ex_zero.1⟩
end DXM.Props
