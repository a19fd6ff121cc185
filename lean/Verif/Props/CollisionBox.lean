import Verif.Lemmas.Geo
import Verif.Lemmas.RealGeo
import Verif.Model.CollisionBox

/-
C73-C77: axis-aligned boxes.  Exact-real lanes.
-/

set_option linter.all false

namespace DXM.Props
open DXM.E DXM.Spec DXM.RG DXM.Geo Matrix Classical

/-! ### C73 -/

/-- The box between two opposite corners. -/
theorem mid_box (c : Cfg) (m M : Pt) (w w' : E) :
    (⟨store3 (XMVectorScale c (XMVectorAdd (vec3 m w) (vec3 M w')) Lane.cHalf), store3 (XMVectorScale c (XMVectorSubtract (vec3 M w') (vec3 m w)) Lane.cHalf)⟩ : BoundingBox E)
      = boxOf ((1/2 : ℝ) • (m + M)) ((1/2 : ℝ) • (M - m)) := by
  geo
  rfl
theorem mid_lo (m M : Pt) (i : Fin 3) : ((1/2 : ℝ) • (m + M)) i - ((1/2 : ℝ) • (M - m)) i = m i := by
  simp only [Pi.smul_apply, Pi.add_apply, Pi.sub_apply, smul_eq_mul]; ring
theorem mid_hi (m M : Pt) (i : Fin 3) : ((1/2 : ℝ) • (m + M)) i + ((1/2 : ℝ) • (M - m)) i = M i := by
  simp only [Pi.smul_apply, Pi.add_apply, Pi.sub_apply, smul_eq_mul]; ring
theorem mem_mid {p m M : Pt} : p ∈ box ((1/2 : ℝ) • (m + M)) ((1/2 : ℝ) • (M - m)) ↔ ∀ i, m i ≤ p i ∧ p i ≤ M i := by
  rw [mem_box]; simp only [mid_lo, mid_hi]

theorem minMax_fold (ps : List Pt) : ∀ (m M : Pt), ∃ m' M' : Pt,
    ((ps.map f3).map load3).foldl (fun (m : V4 E × V4 E) Point => (XMVectorMin m.1 Point, XMVectorMax m.2 Point)) (vec3 m (num 0), vec3 M (num 0))
      = (vec3 m' (num 0), vec3 M' (num 0)) ∧
    (∀ i, m' i ≤ m i ∧ M i ≤ M' i) ∧ (∀ p ∈ ps, ∀ i, m' i ≤ p i ∧ p i ≤ M' i) ∧
    (∀ l : Pt, (∀ i, l i ≤ m i) → (∀ p ∈ ps, ∀ i, l i ≤ p i) → ∀ i, l i ≤ m' i) ∧
    (∀ l : Pt, (∀ i, M i ≤ l i) → (∀ p ∈ ps, ∀ i, p i ≤ l i) → ∀ i, M' i ≤ l i) := by
  induction ps with
  | nil => intro m M; exact ⟨m, M, rfl, fun i => ⟨le_refl _, le_refl _⟩, by simp, fun l h _ => h, fun l h _ => h⟩
  | cons p ps ih =>
    intro m M
    obtain ⟨m', M', e, h1, h2, h3, h4⟩ := ih (m ⊓ p) (M ⊔ p)
    refine ⟨m', M', ?_, ?_, ?_, ?_, ?_⟩
    · rw [← e]; simp only [List.map_cons, List.foldl_cons]; geo; simp only [min_self, max_self]
    · intro i; exact ⟨(h1 i).1.trans (min_le_left _ _), (le_max_left _ _).trans (h1 i).2⟩
    · intro q hq i
      rcases List.mem_cons.1 hq with rfl | hq
      · exact ⟨(h1 i).1.trans (min_le_right _ _), (le_max_right _ _).trans (h1 i).2⟩
      · exact h2 q hq i
    · intro l hl hp
      exact h3 l (fun i => le_min (hl i) (hp p (by simp) i)) (fun q hq => hp q (by simp [hq]))
    · intro l hl hp
      exact h4 l (fun i => max_le (hl i) (hp p (by simp) i)) (fun q hq => hp q (by simp [hq]))

/-- The box created from a non-empty list of points (any length, any order) contains every point and lies inside every box that
contains them all. -/
theorem C73_fromPoints (c : Cfg) (ps : List Pt) (hne : ps ≠ []) :
    ∃ a e, BoundingBox.CreateFromPoints c (ps.map f3) = boxOf a e ∧ (∀ i, 0 ≤ e i) ∧ (∀ p ∈ ps, p ∈ box a e) ∧
      ∀ a' e', (∀ p ∈ ps, p ∈ box a' e') → box a e ⊆ box a' e' := by
  obtain ⟨p, ps', rfl⟩ := List.exists_cons_of_ne_nil hne
  obtain ⟨m, M, e, h1, h2, h3, h4⟩ := minMax_fold ps' p p
  refine ⟨(1/2 : ℝ) • (m + M), (1/2 : ℝ) • (M - m), ?_, ?_, ?_, ?_⟩
  · have hm : BoundingBox.minMax ((p :: ps').map f3) = (vec3 m (num 0), vec3 M (num 0)) := by
      simp only [BoundingBox.minMax, List.map_cons]; rw [v_load3]; exact e
    simp only [BoundingBox.CreateFromPoints, hm, mid_box]
  · intro i; simp only [Pi.smul_apply, Pi.sub_apply, smul_eq_mul]; linarith [(h1 i).1, (h1 i).2]
  · intro q hq
    rw [mem_mid]
    rcases List.mem_cons.1 hq with rfl | hq
    · exact h1
    · exact h2 q hq
  · intro a' e' h q hq
    rw [mem_mid] at hq
    rw [mem_box]
    intro i
    have hp : ∀ q ∈ p :: ps', ∀ i, a' i - e' i ≤ q i ∧ q i ≤ a' i + e' i := fun q hq => mem_box.1 (h q hq)
    have k1 := h3 (fun i => a' i - e' i) (fun i => (hp p (by simp) i).1) (fun q hq i => (hp q (by simp [hq]) i).1) i
    have k2 := h4 (fun i => a' i + e' i) (fun i => (hp p (by simp) i).2) (fun q hq i => (hp q (by simp [hq]) i).2) i
    exact ⟨k1.trans (hq i).1, (hq i).2.trans k2⟩

theorem box_unique {a e b f : Pt} (he : ∀ i, 0 ≤ e i) (hf : ∀ i, 0 ≤ f i) (h1 : box a e ⊆ box b f) (h2 : box b f ⊆ box a e) : boxOf a e = boxOf b f := by
  rw [box_subset _ _ _ _ he] at h1; rw [box_subset _ _ _ _ hf] at h2
  obtain ⟨rfl, rfl⟩ := box_ext a e b f (fun i => le_antisymm (h2 i).1 (h1 i).1) (fun i => le_antisymm (h1 i).2 (h2 i).2)
  rfl

/-- The order and multiplicity of the points do not matter. -/
theorem C73_order (c : Cfg) (ps qs : List Pt) (hne : ps ≠ []) (h : ∀ p, p ∈ ps ↔ p ∈ qs) :
    BoundingBox.CreateFromPoints c (ps.map f3) = BoundingBox.CreateFromPoints c (qs.map f3) := by
  have hq : qs ≠ [] := by
    rintro rfl
    obtain ⟨p, hp⟩ := List.exists_mem_of_ne_nil ps hne
    simpa using (h p).1 hp
  obtain ⟨a, e, h1, he, h2, h3⟩ := C73_fromPoints c ps hne
  obtain ⟨b, f, g1, hf, g2, g3⟩ := C73_fromPoints c qs hq
  rw [h1, g1]
  exact box_unique he hf (h3 b f fun p hp => g2 p ((h p).1 hp)) (g3 a e fun p hp => h2 p ((h p).2 hp))

example (c : Cfg) : BoundingBox.CreateFromPoints c ([![0, 0, 0], ![4, 1, 0], ![2, 3, 1]].map f3) = boxOf ![2, 3/2, 1/2] ![2, 3/2, 1/2] := by
  obtain ⟨a, e, h1, he, h2, h3⟩ := C73_fromPoints c [![0, 0, 0], ![4, 1, 0], ![2, 3, 1]] (by simp)
  rw [h1]
  refine box_unique he (by intro i; fin_cases i <;> norm_num) (h3 _ _ ?_) ?_
  · intro p hp; simp at hp; rw [mem_box]; rcases hp with rfl | rfl | rfl <;> intro i <;> fin_cases i <;> norm_num
  · have k1 := mem_box.1 (h2 ![0, 0, 0] (by simp)); have k2 := mem_box.1 (h2 ![4, 1, 0] (by simp)); have k3 := mem_box.1 (h2 ![2, 3, 1] (by simp))
    rw [box_subset _ _ _ _ (by intro i; fin_cases i <;> norm_num)]
    intro i; have := k1 i; have := k2 i; have := k3 i
    fin_cases i <;> norm_num at * <;> constructor <;> linarith

/-! ### C74 -/

/-- The merged box contains both boxes and lies inside every box that contains both. -/
theorem C74_merged (c : Cfg) (a e b f : Pt) (he : ∀ i, 0 ≤ e i) (hf : ∀ i, 0 ≤ f i) :
    ∃ m g, BoundingBox.CreateMerged c (boxOf a e) (boxOf b f) = boxOf m g ∧ (∀ i, 0 ≤ g i) ∧ box a e ⊆ box m g ∧ box b f ⊆ box m g ∧
      ∀ m' g', box a e ⊆ box m' g' → box b f ⊆ box m' g' → box m g ⊆ box m' g' := by
  refine ⟨(1/2 : ℝ) • ((a - e) ⊓ (b - f) + (a + e) ⊔ (b + f)), (1/2 : ℝ) • ((a + e) ⊔ (b + f) - (a - e) ⊓ (b - f)), ?_, ?_, ?_, ?_, ?_⟩
  · rw [← mid_box c _ _ (num 0) (num 0)]
    simp only [BoundingBox.CreateMerged, boxOf]
    geo
  · intro i
    have : min (a i - e i) (b i - f i) ≤ max (a i + e i) (b i + f i) :=
      (min_le_left _ _).trans (le_trans (by linarith [he i]) (le_max_left _ _))
    simp only [Pi.smul_apply, Pi.sub_apply, Pi.sup_apply, Pi.inf_apply, Pi.add_apply, smul_eq_mul]; linarith
  · intro p hp; rw [mem_mid]; intro i; have := mem_box.1 hp i
    exact ⟨(min_le_left _ _).trans this.1, this.2.trans (le_max_left _ _)⟩
  · intro p hp; rw [mem_mid]; intro i; have := mem_box.1 hp i
    exact ⟨(min_le_right _ _).trans this.1, this.2.trans (le_max_right _ _)⟩
  · intro m' g' h1 h2 p hp
    rw [mem_mid] at hp; rw [mem_box]; intro i
    rw [box_subset _ _ _ _ he] at h1; rw [box_subset _ _ _ _ hf] at h2
    exact ⟨(le_min (h1 i).1 (h2 i).1).trans (hp i).1, (hp i).2.trans (max_le (h1 i).2 (h2 i).2)⟩

/-- Merging is commutative and idempotent. -/
theorem C74_comm (c : Cfg) (a e b f : Pt) (he : ∀ i, 0 ≤ e i) (hf : ∀ i, 0 ≤ f i) :
    BoundingBox.CreateMerged c (boxOf a e) (boxOf b f) = BoundingBox.CreateMerged c (boxOf b f) (boxOf a e) ∧
    BoundingBox.CreateMerged c (boxOf a e) (boxOf a e) = boxOf a e := by
  obtain ⟨m, g, h1, hg, h2, h3, h4⟩ := C74_merged c a e b f he hf
  obtain ⟨n, k, j1, hk, j2, j3, j4⟩ := C74_merged c b f a e hf he
  obtain ⟨o, l, i1, hl, i2, i3, i4⟩ := C74_merged c a e a e he he
  rw [h1, j1, i1]
  exact ⟨box_unique hg hk (h4 _ _ j3 j2) (j4 _ _ h3 h2), box_unique hl he (i4 _ _ subset_rfl subset_rfl) i2⟩

example : (∀ i, 0 ≤ (![1, 2, 3] : Pt) i) := by intro i; fin_cases i <;> norm_num

/-! ### C75 -/

/-- A point is reported contained exactly when it lies in the closed box, and disjoint otherwise. -/
theorem C75_containsPoint (c : Cfg) (a e p : Pt) (w : E) :
    BoundingBox.ContainsPoint c (boxOf a e) (vec3 p w) = if p ∈ box a e then .CONTAINS else .DISJOINT := by
  simp only [BoundingBox.ContainsPoint, boxOf]
  geo
  exact if_congr Iff.rfl rfl rfl

/-- Two boxes intersect exactly when they share a point. -/
theorem C75_intersects (c : Cfg) (a e b f : Pt) (he : ∀ i, 0 ≤ e i) (hf : ∀ i, 0 ≤ f i) :
    BoundingBox.IntersectsBox c (boxOf a e) (boxOf b f) = true ↔ (box a e ∩ box b f).Nonempty := by
  rw [box_inter _ _ _ _ he hf]
  simp only [BoundingBox.IntersectsBox, boxOf, Bool.not_eq_true', ← Bool.not_eq_true]
  geo
  push Not
  rfl

/-- The intersection answer is symmetric, for any extents. -/
theorem C75_symm (c : Cfg) (a e b f : Pt) :
    BoundingBox.IntersectsBox c (boxOf a e) (boxOf b f) = BoundingBox.IntersectsBox c (boxOf b f) (boxOf a e) := by
  rw [Bool.eq_iff_iff]
  simp only [BoundingBox.IntersectsBox, boxOf, Bool.not_eq_true', ← Bool.not_eq_true]
  geo
  simp only [or_comm]

/-- Box-box containment: CONTAINS exactly for a subset, DISJOINT exactly when no point is shared. -/
theorem C75_containsBox (c : Cfg) (a e b f : Pt) (he : ∀ i, 0 ≤ e i) (hf : ∀ i, 0 ≤ f i) :
    (BoundingBox.ContainsBox c (boxOf a e) (boxOf b f) = .CONTAINS ↔ box b f ⊆ box a e) ∧
    (BoundingBox.ContainsBox c (boxOf a e) (boxOf b f) = .DISJOINT ↔ box a e ∩ box b f = ∅) := by
  rw [← Set.not_nonempty_iff_eq_empty, box_inter _ _ _ _ he hf, box_subset _ _ _ _ hf]
  simp only [BoundingBox.ContainsBox, boxOf]
  geo
  simp only [Pi.sub_apply, Pi.add_apply]
  constructor
  · split_ifs with h1 h2
    · obtain ⟨i, h⟩ := h1
      simp only [reduceCtorEq, false_iff, not_forall]
      exact ⟨i, fun k => by rcases h with h | h <;> linarith [he i, hf i]⟩
    · simpa using h2
    · simpa using h2
  · split_ifs with h1 h2
    · obtain ⟨i, h⟩ := h1
      simp only [true_iff, not_forall]
      exact ⟨i, fun k => by rcases h with h | h <;> linarith⟩
    all_goals
      simp only [reduceCtorEq, false_iff, not_not]
      push Not at h1; exact h1

example (c : Cfg) : BoundingBox.ContainsBox c (boxOf ![0, 0, 0] ![4, 4, 4]) (boxOf ![3, 0, 0] ![1, 2, 3]) = .CONTAINS := by
  rw [(C75_containsBox c _ _ _ _ (by intro i; fin_cases i <;> norm_num) (by intro i; fin_cases i <;> norm_num)).1,
    box_subset _ _ _ _ (by intro i; fin_cases i <;> norm_num)]
  intro i; fin_cases i <;> norm_num

/-! ### C76 -/

theorem clamp_delta (a e b : Pt) (he : ∀ i, 0 ≤ e i) :
    (fun i => if (a + e) i < b i then (b - (a + e)) i else if b i < (a - e) i then (b - (a - e)) i else 0) = b - clampB a e b := by
  funext i
  simp only [clampB, Pi.sub_apply, Pi.add_apply]
  have := he i
  split_ifs with h1 h2
  · rw [min_eq_right h1.le, max_eq_right (by linarith)]
  · rw [min_eq_left (not_lt.1 h1), max_eq_left h2.le]
  · rw [min_eq_left (not_lt.1 h1), max_eq_right (not_lt.1 h2), sub_self]

/-- Box and sphere intersect exactly when they share a point; asking the sphere gives the same answer. -/
theorem C76_intersects (c : Cfg) (a e b : Pt) (r : ℝ) (he : ∀ i, 0 ≤ e i) (hr : 0 ≤ r) :
    (BoundingBox.IntersectsSphere c (boxOf a e) (sphereOf b r) = true ↔ (box a e ∩ ball b r).Nonempty) ∧
    (BoundingSphere.IntersectsBox c (sphereOf b r) (boxOf a e) = true ↔ (box a e ∩ ball b r).Nonempty) := by
  have : BoundingBox.IntersectsSphere c (boxOf a e) (sphereOf b r) = true ↔ (box a e ∩ ball b r).Nonempty := by
    rw [ball_box _ _ _ _ hr he]
    simp only [BoundingBox.IntersectsSphere, boxOf, sphereOf]
    geo
    rw [clamp_delta a e b he]
  exact ⟨this, this⟩

/-- Sphere in box: CONTAINS exactly when the ball is a subset and its radius is less than every side length; in particular
CONTAINS is never wrong, and for a positive radius it is exact.  DISJOINT exactly when no point is shared. -/
theorem C76_containsSphere (c : Cfg) (a e b : Pt) (r : ℝ) (he : ∀ i, 0 ≤ e i) (hr : 0 ≤ r) :
    (BoundingBox.ContainsSphere c (boxOf a e) (sphereOf b r) = .CONTAINS ↔ ball b r ⊆ box a e ∧ ∀ i, r < 2 * e i) ∧
    (0 < r → (BoundingBox.ContainsSphere c (boxOf a e) (sphereOf b r) = .CONTAINS ↔ ball b r ⊆ box a e)) ∧
    (BoundingBox.ContainsSphere c (boxOf a e) (sphereOf b r) = .DISJOINT ↔ box a e ∩ ball b r = ∅) := by
  have key : (BoundingBox.ContainsSphere c (boxOf a e) (sphereOf b r) = .CONTAINS ↔ ball b r ⊆ box a e ∧ ∀ i, r < 2 * e i) ∧
      (BoundingBox.ContainsSphere c (boxOf a e) (sphereOf b r) = .DISJOINT ↔ box a e ∩ ball b r = ∅) := by
    rw [← Set.not_nonempty_iff_eq_empty, ball_box _ _ _ _ hr he, not_le]
    simp only [BoundingBox.ContainsSphere, boxOf, sphereOf]
    geo
    rw [clamp_delta a e b he]
    simp only [Pi.sub_apply, Pi.add_apply]
    constructor
    · split_ifs with h1 h2
      · simp only [reduceCtorEq, false_iff]
        rintro ⟨h, -⟩
        have hb : b ∈ ball b r := by rw [mem_ball, sub_self, len_zero]; exact hr
        exact not_le.2 h1 ((ball_box _ _ _ _ hr he).1 ⟨b, h hb, hb⟩)
      all_goals rw [ball_subset_box _ _ _ _ hr]
      · simp only [true_iff]
        exact ⟨fun i => ⟨by linarith [(h2 i).1.1], by linarith [(h2 i).1.2]⟩, fun i => by linarith [(h2 i).2]⟩
      · simp only [reduceCtorEq, false_iff]
        rintro ⟨k1, k2⟩
        exact h2 fun i => ⟨⟨by linarith [(k1 i).1], by linarith [(k1 i).2]⟩, by linarith [k2 i]⟩
    · split_ifs <;> simp_all
  refine ⟨key.1, fun h => ?_, key.2⟩
  rw [key.1, and_iff_left_iff_imp]
  intro hs i
  rw [ball_subset_box _ _ _ _ hr] at hs
  have := hs i; linarith

/-- The extra condition matters: the degenerate sphere at the center of a flat box is inside it but not reported CONTAINS. -/
example (c : Cfg) : ball ![0, 0, 0] 0 ⊆ box ![0, 0, 0] ![1, 1, 0] ∧
    BoundingBox.ContainsSphere c (boxOf ![0, 0, 0] ![1, 1, 0]) (sphereOf ![0, 0, 0] 0) ≠ .CONTAINS := by
  have he : ∀ i, 0 ≤ (![1, 1, 0] : Pt) i := by intro i; fin_cases i <;> norm_num
  refine ⟨?_, ?_⟩
  · rw [ball_subset_box _ _ _ _ (le_refl _)]; intro i; fin_cases i <;> norm_num
  · rw [Ne, (C76_containsSphere c _ _ _ _ he (le_refl _)).1]
    rintro ⟨-, h⟩; exact absurd (h 2) (by simp [Matrix.cons_val])

theorem corners_iff (o e : Pt) (r : ℝ) (he : ∀ i, 0 ≤ e i) :
    (∀ s : Fin 3 → ℝ, (∀ i, s i = 1 ∨ s i = -1) → (o + e * s) ⬝ᵥ (o + e * s) ≤ r * r) ↔ ∀ p ∈ box o e, p ⬝ᵥ p ≤ r * r := by
  constructor
  · intro h p hp
    obtain ⟨s, hs, hle⟩ := corner_far e p o hp
    exact hle.trans (h s hs)
  · intro h s hs
    exact h _ (corner_mem e o s he hs)

/-- The eight sign vectors, in the order of `g_BoxOffset`. -/
def signs : List Pt := [![-1, -1, 1], ![1, -1, 1], ![1, 1, 1], ![-1, 1, 1], ![-1, -1, -1], ![1, -1, -1], ![1, 1, -1], ![-1, 1, -1]]
theorem offset_signs : (g_BoxOffset : List (V4 E)) = signs.map fun s => vec3 s (num 0) := by
  simp [g_BoxOffset, g_BoxOffset0, g_BoxOffset1, signs]
theorem mem_signs {s : Pt} : s ∈ signs ↔ ∀ i, s i = 1 ∨ s i = -1 := by
  constructor
  · intro h; simp [signs] at h
    rcases h with rfl | rfl | rfl | rfl | rfl | rfl | rfl | rfl <;> intro i <;> fin_cases i <;> simp
  · intro h
    have e : s = ![s 0, s 1, s 2] := by ext i; fin_cases i <;> rfl
    rw [e]
    rcases h 0 with h0 | h0 <;> rcases h 1 with h1 | h1 <;> rcases h 2 with h2 | h2 <;> rw [h0, h1, h2] <;> simp [signs]

theorem fold_and (f : V4 E → V4 E) (g : Pt → Prop) (l : List Pt) (h : ∀ s ∈ l, f (vec3 s (num 0)) = msk (g s)) : ∀ p : Prop,
    (l.map fun s => vec3 s (num 0)).foldl (fun acc o => XMVectorAndInt acc (f o)) (msk p) = msk (p ∧ ∀ s ∈ l, g s) := by
  induction l with
  | nil => intro p; simp
  | cons s l ih =>
    intro p
    simp only [List.map_cons, List.foldl_cons]
    rw [h s (by simp), m_and, ih (fun t ht => h t (by simp [ht]))]
    congr 1; simp [and_assoc]

/-- Box in sphere: CONTAINS exactly when every point of the box is in the ball, DISJOINT exactly when no point is shared. -/
theorem C76_containsBox (c : Cfg) (a e b : Pt) (r : ℝ) (he : ∀ i, 0 ≤ e i) (hr : 0 ≤ r) :
    (BoundingSphere.ContainsBox c (sphereOf b r) (boxOf a e) = .CONTAINS ↔ box a e ⊆ ball b r) ∧
    (BoundingSphere.ContainsBox c (sphereOf b r) (boxOf a e) = .DISJOINT ↔ box a e ∩ ball b r = ∅) := by
  have hsub : box a e ⊆ ball b r ↔ ∀ p ∈ box (a - b) e, p ⬝ᵥ p ≤ r * r := by
    constructor
    · intro h p hp
      have : p + b ∈ ball b r := h (mem_box.2 fun i => by
        have := mem_box.1 hp i; simp only [Pi.sub_apply, Pi.add_apply] at *; constructor <;> linarith [this.1, this.2])
      rwa [mem_ball, add_sub_cancel_right, len_le_iff hr] at this
    · intro h p hp
      rw [mem_ball, len_le_iff hr]
      exact h _ (mem_box.2 fun i => by
        have := mem_box.1 hp i; simp only [Pi.sub_apply]; constructor <;> linarith [this.1, this.2])
  have hi := (C76_intersects c a e b r he hr).1
  simp only [BoundingSphere.ContainsBox, Bool.not_eq_true', ← Bool.not_eq_true, hi]
  simp only [boxOf, sphereOf]
  rw [offset_signs]
  geo
  rw [fold_and _ (fun s => (e * s + (a - b)) ⬝ᵥ (e * s + (a - b)) ≤ r * r) signs (fun s _ => by geo)]
  simp only [m_eq3]
  rw [← Set.not_nonempty_iff_eq_empty, hsub, ← corners_iff _ _ _ he]
  by_cases h1 : (box a e ∩ ball b r).Nonempty
  · simp only [h1, not_true, if_false, true_and]
    by_cases h2 : ∀ s ∈ signs, (e * s + (a - b)) ⬝ᵥ (e * s + (a - b)) ≤ r * r
    · rw [if_pos h2]
      simp only [true_iff, reduceCtorEq, and_true]
      intro s hs; rw [add_comm]; exact h2 s (mem_signs.2 hs)
    · rw [if_neg h2]
      simp only [reduceCtorEq, false_iff, iff_self, and_true]
      intro h
      exact h2 fun s hs => by rw [add_comm]; exact h s (mem_signs.1 hs)
  · simp only [h1, not_false_iff, if_true, reduceCtorEq, false_iff, and_true]
    intro h
    rw [corners_iff _ _ _ he, ← hsub] at h
    exact h1 ⟨a, mem_box.2 fun i => ⟨by linarith [he i], by linarith [he i]⟩, h (mem_box.2 fun i => ⟨by linarith [he i], by linarith [he i]⟩)⟩

example (c : Cfg) : BoundingSphere.ContainsBox c (sphereOf ![0, 0, 0] 3) (boxOf ![0, 0, 0] ![1, 2, 2]) = .CONTAINS := by
  rw [(C76_containsBox c _ _ _ _ (by intro i; fin_cases i <;> norm_num) (by norm_num)).1]
  intro p hp
  have h0 := hp 0; have h1 := hp 1; have h2 := hp 2
  simp at h0 h1 h2
  rw [mem_ball, len_le_iff (by norm_num)]
  rw [abs_le] at h0 h1 h2
  rw [show p - ![0, 0, 0] = p by ext i; fin_cases i <;> simp, dotProduct, Fin.sum_univ_three]
  nlinarith

/-! ### C77 -/

/-- The sphere created from a box contains it, and no sphere containing the box is smaller. -/
theorem C77_sphereFromBox (c : Cfg) (a e : Pt) (he : ∀ i, 0 ≤ e i) :
    BoundingSphere.CreateFromBoundingBox c (boxOf a e) = sphereOf a (len e) ∧ box a e ⊆ ball a (len e) ∧
    ∀ m ρ, box a e ⊆ ball m ρ → len e ≤ ρ := by
  refine ⟨?_, ?_, ?_⟩
  · simp only [BoundingSphere.CreateFromBoundingBox, boxOf]; geo; rfl
  · intro p hp
    rw [mem_ball, len_le_iff (len_nonneg e), len_sq]
    refine Finset.sum_le_sum fun i _ => ?_
    have := hp i
    rw [← abs_mul_abs_self ((p - a) i), Pi.sub_apply]
    exact mul_self_le_mul_self (abs_nonneg _) this
  · intro m ρ h
    have h1 : a + e ∈ ball m ρ := h (mem_box.2 fun i => by simp only [Pi.add_apply]; constructor <;> linarith [he i])
    have h2 : a - e ∈ ball m ρ := h (mem_box.2 fun i => by simp only [Pi.sub_apply]; constructor <;> linarith [he i])
    have := two_points h2 h1
    rw [show a + e - (a - e) = (2:ℝ) • e by module, len_smul, abs_of_pos (by norm_num)] at this
    linarith

/-- The box created from a sphere contains it and lies inside every box that contains it. -/
theorem C77_boxFromSphere (c : Cfg) (a : Pt) (r : ℝ) (hr : 0 ≤ r) :
    BoundingBox.CreateFromSphere c (sphereOf a r) = boxOf a (fun _ => r) ∧ ball a r ⊆ box a (fun _ => r) ∧
    ∀ m g, ball a r ⊆ box m g → box a (fun _ => r) ⊆ box m g := by
  refine ⟨?_, ?_, ?_⟩
  · simp only [BoundingBox.CreateFromSphere, sphereOf, boxOf]; geo
    congr 2 <;> funext i <;> simp only [Pi.smul_apply, Pi.add_apply, Pi.sub_apply, smul_eq_mul] <;> ring
  · rw [ball_subset_box _ _ _ _ hr]; intro i; exact ⟨le_refl _, le_refl _⟩
  · intro m g h
    rw [ball_subset_box _ _ _ _ hr] at h
    rw [box_subset _ _ _ _ (fun _ => hr)]
    exact h

example (c : Cfg) : BoundingSphere.CreateFromBoundingBox c (boxOf ![1, 1, 1] ![2, 1, 2]) = sphereOf ![1, 1, 1] 3 := by
  rw [(C77_sphereFromBox c _ _ (by intro i; fin_cases i <;> norm_num)).1]
  congr 2
  rw [len, show (![2, 1, 2] : Pt) ⬝ᵥ ![2, 1, 2] = 3 * 3 by simp [dot3]; norm_num, Real.sqrt_mul_self (by norm_num)]

end DXM.Props
