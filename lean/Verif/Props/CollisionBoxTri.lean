import Verif.Props.CollisionSphereTri

/-
C83: box against triangle.
-/

set_option linter.all false

namespace DXM.Props
open DXM.E DXM.Spec DXM.RG DXM.Geo Matrix Classical

/-- The coordinate axes. -/
def ax (i : Fin 3) : Pt := fun j => if i = j then 1 else 0
/-- The triangle lies beyond the box along `m`, on one side or the other. -/
def Apart (a e v0 v1 v2 m : Pt) : Prop :=
  (∀ k, e ⬝ᵥ |m| < m ⬝ᵥ (![v0, v1, v2] k - a)) ∨ (∀ k, m ⬝ᵥ (![v0, v1, v2] k - a) < -(e ⬝ᵥ |m|))

theorem axisTest_eval (c : Cfg) (e m T T' : Pt) (p : Prop) (s : ℝ) (w w' : E) :
    BoundingBox.axisTest c (vec3 e (num 0)) (msk p) (vec3 m (num s)) (vec3 T w) (vec3 T' w') =
      msk (p ∨ (e ⬝ᵥ |m| < m ⬝ᵥ T ∧ e ⬝ᵥ |m| < m ⬝ᵥ T') ∨ (m ⬝ᵥ T < -(e ⬝ᵥ |m|) ∧ m ⬝ᵥ T' < -(e ⬝ᵥ |m|))) := by
  unfold BoundingBox.axisTest
  geo
  simp only [lt_min_iff, max_lt_iff, dotProduct_comm _ m, or_assoc]

theorem cross_perp (a u : Pt) : crossProduct a u ⬝ᵥ u = 0 := by simp [crossProduct, dotProduct, Fin.sum_univ_three]; ring
theorem apart_ax (a e v0 v1 v2 : Pt) (i : Fin 3) : Apart a e v0 v1 v2 (ax i) ↔ (a + e) i < (v0 ⊓ v1 ⊓ v2) i ∨ (v0 ⊔ v1 ⊔ v2) i < (a - e) i := by
  have h1 : ∀ v : Pt, ax i ⬝ᵥ v = v i := by intro v; simp [ax, dotProduct]
  have h2 : e ⬝ᵥ |ax i| = e i := by
    have : |ax i| = ax i := by ext j; simp only [ax, Pi.abs_apply]; split_ifs <;> simp
    rw [this, dotProduct_comm, h1]
  unfold Apart
  rw [h2, forall3, forall3]
  simp only [cons_val_zero, cons_val_one, cons_val, h1, Pi.add_apply, Pi.sub_apply, Pi.inf_apply, Pi.sup_apply, lt_inf_iff, sup_lt_iff]
  refine or_congr ?_ ?_ <;> (constructor <;> rintro ⟨k1, k2⟩ <;> refine ⟨?_, ?_⟩ <;> first | constructor <;> linarith | linarith)
theorem apart_normal (a e v0 v1 v2 : Pt) : Apart a e v0 v1 v2 (crossProduct (v1 - v0) (v2 - v0)) ↔
    (crossProduct (v1 - v0) (v2 - v0) ⬝ᵥ v0 < (fun i => if 0 < crossProduct (v1 - v0) (v2 - v0) i then (a - e) i else (a + e) i) ⬝ᵥ crossProduct (v1 - v0) (v2 - v0) ∨
     (fun i => if 0 < crossProduct (v1 - v0) (v2 - v0) i then (a + e) i else (a - e) i) ⬝ᵥ crossProduct (v1 - v0) (v2 - v0) < crossProduct (v1 - v0) (v2 - v0) ⬝ᵥ v0) := by
  unfold Apart
  simp only [dotProduct_sub, tri_normal]
  generalize crossProduct (v1 - v0) (v2 - v0) = N
  have h1 : (fun i => if 0 < N i then (a - e) i else (a + e) i) ⬝ᵥ N = N ⬝ᵥ a - e ⬝ᵥ |N| := by
    simp only [dotProduct, Fin.sum_univ_three, Pi.sub_apply, Pi.add_apply, Pi.abs_apply]
    have : ∀ i, (if 0 < N i then a i - e i else a i + e i) * N i = N i * a i - e i * |N i| := by
      intro i; split_ifs with h
      · rw [abs_of_pos h]; ring
      · rw [abs_of_nonpos (not_lt.1 h)]; ring
    rw [this, this, this]; ring
  have h2 : (fun i => if 0 < N i then (a + e) i else (a - e) i) ⬝ᵥ N = N ⬝ᵥ a + e ⬝ᵥ |N| := by
    simp only [dotProduct, Fin.sum_univ_three, Pi.sub_apply, Pi.add_apply, Pi.abs_apply]
    have : ∀ i, (if 0 < N i then a i + e i else a i - e i) * N i = N i * a i + e i * |N i| := by
      intro i; split_ifs with h
      · rw [abs_of_pos h]; ring
      · rw [abs_of_nonpos (not_lt.1 h)]; ring
    rw [this, this, this]; ring
  rw [h1, h2, or_comm]
  simp only [forall_const]
  refine or_congr ?_ ?_ <;> constructor <;> intro h <;> linarith
theorem apart_edge (a e v0 v1 v2 m : Pt) :
    (m ⬝ᵥ (v1 - v0) = 0 → (((e ⬝ᵥ |m| < m ⬝ᵥ (v0 - a) ∧ e ⬝ᵥ |m| < m ⬝ᵥ (v2 - a)) ∨ (m ⬝ᵥ (v0 - a) < -(e ⬝ᵥ |m|) ∧ m ⬝ᵥ (v2 - a) < -(e ⬝ᵥ |m|))) ↔ Apart a e v0 v1 v2 m)) ∧
    (m ⬝ᵥ (v2 - v1) = 0 → (((e ⬝ᵥ |m| < m ⬝ᵥ (v0 - a) ∧ e ⬝ᵥ |m| < m ⬝ᵥ (v1 - a)) ∨ (m ⬝ᵥ (v0 - a) < -(e ⬝ᵥ |m|) ∧ m ⬝ᵥ (v1 - a) < -(e ⬝ᵥ |m|))) ↔ Apart a e v0 v1 v2 m)) ∧
    (m ⬝ᵥ (v0 - v2) = 0 → (((e ⬝ᵥ |m| < m ⬝ᵥ (v0 - a) ∧ e ⬝ᵥ |m| < m ⬝ᵥ (v1 - a)) ∨ (m ⬝ᵥ (v0 - a) < -(e ⬝ᵥ |m|) ∧ m ⬝ᵥ (v1 - a) < -(e ⬝ᵥ |m|))) ↔ Apart a e v0 v1 v2 m)) := by
  unfold Apart
  simp only [forall3, cons_val_zero, cons_val_one, cons_val, dotProduct_sub]
  refine ⟨?_, ?_, ?_⟩ <;> intro h
  · rw [show m ⬝ᵥ v1 = m ⬝ᵥ v0 by linarith]; tauto
  · rw [show m ⬝ᵥ v2 = m ⬝ᵥ v1 by linarith]; tauto
  · rw [show m ⬝ᵥ v2 = m ⬝ᵥ v0 by linarith]; tauto
theorem sat_if4 (a g : Prop) (z : Bool) [Decidable a] (hz : z = true ↔ g) : ((if a then false else z) = true) ↔ ¬ a ∧ g := by
  by_cases a <;> simp [*]

set_option maxHeartbeats 1000000 in
theorem bt_eval (c : Cfg) (a e v0 v1 v2 : Pt) (w0 w1 w2 : E) :
    BoundingBox.IntersectsTriangle c (boxOf a e) (vec3 v0 w0) (vec3 v1 w1) (vec3 v2 w2) = true ↔
      (¬ ∃ i, Apart a e v0 v1 v2 (ax i)) ∧ ¬ Apart a e v0 v1 v2 (crossProduct (v1 - v0) (v2 - v0)) ∧
      ∀ i, ∀ Ed ∈ [v1 - v0, v2 - v1, v0 - v2], ¬ Apart a e v0 v1 v2 (crossProduct (ax i) Ed) := by
  have p1 : ∀ (u : Pt), XMVectorPermuteC c (vec3 u (num 0)) (vec3 (-u) (num (-0))) 3 6 1 0 = vec3 (crossProduct (ax 0) u) (num (u 0)) := by
    intro u; simp [crossProduct, ax]
  have p2 : ∀ (u : Pt), XMVectorPermuteC c (vec3 u (num 0)) (vec3 (-u) (num (-0))) 2 3 4 1 = vec3 (crossProduct (ax 1) u) (num (u 1)) := by
    intro u; simp [crossProduct, ax]
  have p3 : ∀ (u : Pt), XMVectorPermuteC c (vec3 u (num 0)) (vec3 (-u) (num (-0))) 5 0 3 2 = vec3 (crossProduct (ax 2) u) (num (u 2)) := by
    intro u; simp [crossProduct, ax]
  simp only [BoundingBox.IntersectsTriangle, boxOf]
  geo
  simp only [sub_sub_sub_cancel_right, p1, p2, p3, axisTest_eval, ← apart_ax]
  simp only [(apart_edge _ _ _ _ _ _).1 (cross_perp _ _), (apart_edge _ _ _ _ _ _).2.1 (cross_perp _ _), (apart_edge _ _ _ _ _ _).2.2 (cross_perp _ _), ← apart_normal]
  rw [forall3]
  simp only [List.forall_mem_cons, List.not_mem_nil, IsEmpty.forall_iff, implies_true, and_true]
  refine sat_if4 _ _ _ ?_
  rw [m_ne4]
  simp only [not_or, and_assoc]

/-- `Apart` is separation by the axis. -/
theorem apart_sep (a e v0 v1 v2 m : Pt) (he : ∀ i, 0 ≤ e i) : Apart a e v0 v1 v2 m ↔ Sep (box a e) (tri v0 v1 v2) m ∨ Sep (tri v0 v1 v2) (box a e) m := by
  have h := sep_obox (q := 1) (by simp) a e he (tri v0 v1 v2) m
  rw [obox_one, star_one, rot_one] at h
  rw [h.1, h.2, tri_lt, tri_gt]
  unfold Apart
  simp only [dotProduct_sub]
  refine or_congr ?_ ?_ <;> refine forall_congr' fun k => ?_ <;> constructor <;> intro h <;> linarith

/-- The test is exact: true iff box and triangle share a point. -/
theorem C83_box (c : Cfg) (a e v0 v1 v2 : Pt) (w0 w1 w2 : E) (he : ∀ i, 0 ≤ e i) :
    BoundingBox.IntersectsTriangle c (boxOf a e) (vec3 v0 w0) (vec3 v1 w1) (vec3 v2 w2) = true ↔ (box a e ∩ tri v0 v1 v2).Nonempty := by
  have hr : ∀ i, rotM 1 i = ax i := by intro i; ext j; fin_cases i <;> fin_cases j <;> simp [rotM, ax, Quaternion.re_one, Quaternion.imI_one, Quaternion.imJ_one, Quaternion.imK_one]
  have h1 : (Quaternion.normSq (1 : Quaternion ℝ)) = 1 := by simp
  have hs := poly_sat (supp_obox h1 a e he) (supp_tri v0 v1 v2) (obox_convex h1 a e) (obox_compact h1 a e) (tri_convex v0 v1 v2) (tri_compact v0 v1 v2) (Or.inl trivial)
  rw [obox_one] at hs
  rw [bt_eval, ← not_iff_not, hs]
  simp only [apart_sep _ _ _ _ _ _ he, hr, Set.mem_setOf_eq]
  constructor
  · intro h
    simp only [not_and_or, not_not] at h
    push Not at h
    rcases h with ⟨i, h | h⟩ | (h | h) | ⟨i, Ed, hE, h⟩
    · exact Or.inl ⟨_, ⟨i, Or.inl rfl⟩, h⟩
    · exact Or.inl ⟨_, ⟨i, Or.inr rfl⟩, sep_neg.2 h⟩
    · exact Or.inr (Or.inl ⟨_, Or.inr rfl, sep_neg.2 h⟩)
    · exact Or.inr (Or.inl ⟨_, Or.inl rfl, h⟩)
    · exact Or.inr (Or.inr ⟨_, ⟨i, rfl⟩, Ed, by simpa using hE, h⟩)
  · rintro (⟨m, ⟨i, rfl | rfl⟩, h⟩ | ⟨m, rfl | rfl, h⟩ | ⟨m, ⟨i, rfl⟩, Ed, hE, h⟩) ⟨k1, k2, k3⟩
    · exact k1 ⟨i, Or.inl h⟩
    · exact k1 ⟨i, Or.inr (sep_neg.1 h)⟩
    · exact k2 (Or.inr h)
    · exact k2 (Or.inl (sep_neg.1 h))
    · exact k3 i Ed (by simpa using hE) h

/-- CONTAINS iff the whole triangle is inside, DISJOINT iff no point is. -/
theorem C83_boxContains (c : Cfg) (a e v0 v1 v2 : Pt) (w0 w1 w2 : ℝ) (he : ∀ i, 0 ≤ e i) :
    (BoundingBox.ContainsTriangle c (boxOf a e) (vec3 v0 (num w0)) (vec3 v1 (num w1)) (vec3 v2 (num w2)) = .CONTAINS ↔ tri v0 v1 v2 ⊆ box a e) ∧
    (BoundingBox.ContainsTriangle c (boxOf a e) (vec3 v0 (num w0)) (vec3 v1 (num w1)) (vec3 v2 (num w2)) = .DISJOINT ↔ tri v0 v1 v2 ∩ box a e = ∅) := by
  have hi := C83_box c a e v0 v1 v2 (num w0) (num w1) (num w2) he
  rw [Set.inter_comm] at hi
  simp only [BoundingBox.ContainsTriangle]
  generalize hz : BoundingBox.IntersectsTriangle c (boxOf a e) (vec3 v0 (num w0)) (vec3 v1 (num w1)) (vec3 v2 (num w2)) = z at *
  simp only [boxOf]
  geo
  refine contains_if ⟨v0, tri_mem0 ..⟩ z _ hi ?_
  rw [tri_subset (box_convex a e)]
  have hb : ∀ v : Pt, v ∈ box a e ↔ ∀ i, |v i - a i| ≤ e i := fun v => Iff.rfl
  simp only [hb, Pi.abs_apply, Pi.sub_apply, ← forall_and, and_assoc]

example : BoundingBox.IntersectsTriangle Cfg.sse2 (boxOf 0 1) (vec3 ![3, 0, 0] (num 0)) (vec3 ![0, 3, 0] (num 0)) (vec3 ![-1, -1, 0] (num 0)) = true := by
  rw [C83_box _ _ _ _ _ _ _ _ _ (by intro i; simp)]
  refine ⟨![-1, -1, 0], ?_, tri_mem2 ..⟩
  rw [mem_box]; simp [forall3]

/-! ### Oriented boxes -/
theorem C83_orientedBox (c : Cfg) (a e v0 v1 v2 : Pt) (q : Quaternion ℝ) (w0 w1 w2 : E) (hq : Quaternion.normSq q = 1) (he : ∀ i, 0 ≤ e i) :
    BoundingOrientedBox.IntersectsTriangle c (oboxOf a e q) (vec3 v0 w0) (vec3 v1 w1) (vec3 v2 w2) = true ↔ (obox a e q ∩ tri v0 v1 v2).Nonempty := by
  rw [loc_nonempty hq (fun p => mem_obox hq) (fun p => mem_tri_loc (a := a) hq)]
  have := C83_box c 0 e (rot (star q) (v0 - a)) (rot (star q) (v1 - a)) (rot (star q) (v2 - a)) (num 0) (num 0) (num 0) he
  rw [← this]
  simp only [BoundingOrientedBox.IntersectsTriangle, oboxOf]
  geo
  simp only [boxOf, f3, Pi.zero_apply]
theorem C83_orientedBoxContains (c : Cfg) (a e v0 v1 v2 : Pt) (q : Quaternion ℝ) (w0 w1 w2 : E) (hq : Quaternion.normSq q = 1) (he : ∀ i, 0 ≤ e i) :
    (BoundingOrientedBox.ContainsTriangle c (oboxOf a e q) (vec3 v0 w0) (vec3 v1 w1) (vec3 v2 w2) = .CONTAINS ↔ tri v0 v1 v2 ⊆ obox a e q) ∧
    (BoundingOrientedBox.ContainsTriangle c (oboxOf a e q) (vec3 v0 w0) (vec3 v1 w1) (vec3 v2 w2) = .DISJOINT ↔ tri v0 v1 v2 ∩ obox a e q = ∅) := by
  rw [← Set.not_nonempty_iff_eq_empty, loc_nonempty hq (fun p => mem_tri_loc (a := a) hq) (fun p => mem_obox hq),
    loc_subset hq (fun p => mem_tri_loc (a := a) hq) (fun p => mem_obox hq), Set.not_nonempty_iff_eq_empty]
  have := C83_boxContains c 0 e (rot (star q) (v0 - a)) (rot (star q) (v1 - a)) (rot (star q) (v2 - a)) 0 0 0 he
  simp only [BoundingOrientedBox.ContainsTriangle, oboxOf]
  geo
  simpa only [boxOf, f3, Pi.zero_apply] using this

example : BoundingOrientedBox.IntersectsTriangle Cfg.sse2 (oboxOf ![1, 2, 3] 1 exQ) (vec3 ![1, 2, 3] (num 0)) (vec3 ![9, 9, 9] (num 0)) (vec3 ![5, 6, 9] (num 0)) = true := by
  rw [C83_orientedBox _ _ _ _ _ _ _ _ _ _ exQ_unit (by intro i; simp)]
  refine ⟨![1, 2, 3], ?_, tri_mem0 ..⟩
  rw [mem_obox exQ_unit, sub_self, rot_zero (nstar exQ_unit), mem_box]; simp

end DXM.Props
