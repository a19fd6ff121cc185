import Verif.Lemmas.OBBSat
import Verif.Props.CollisionOBB

/-
C84: the oriented-box/oriented-box test is exact and symmetric.
-/

set_option linter.all false

namespace DXM.Props
open DXM.E DXM.Spec DXM.RG DXM.Geo Matrix Classical

theorem C84_intersectsOrientedBox (c : Cfg) (a e b f : Pt) (q r : Quaternion ℝ) (hq : Quaternion.normSq q = 1) (hr : Quaternion.normSq r = 1)
    (he : ∀ i, 0 ≤ e i) (hf : ∀ i, 0 ≤ f i) :
    BoundingOrientedBox.IntersectsOrientedBox c (oboxOf a e q) (oboxOf b f r) = true ↔ (obox a e q ∩ obox b f r).Nonempty := by
  have hQ : Quaternion.normSq (star r * q) = 1 := by rw [map_mul, nstar hr, hq, one_mul]
  rw [← not_iff_not, obb_sat hq hr he hf]
  simp only [osep_a hq hr, osep_b hq hr, osep_ab hq hr, ex3]
  simp only [cla0, cla1, cla2, cra0, cra1, cra2]
  simp only [cl0, cl1, cl2]
  simp only [BoundingOrientedBox.IntersectsOrientedBox, BoundingOrientedBox.satTest, oboxOf, q_conj, XMQuaternionMultiply_quat, rm_r0, rm_r1, rm_r2,
    rmt_r0 c hQ, rmt_r1 c hQ, rmt_r2 c hQ, v_irot]
  geo
  simp only [abs_zero, sw3210, sw2301, sw1032, pm3610, pm2341, pm5032]
  geo
  simp only [← Bool.not_eq_true, m_ne4, not_not, or_assoc]

/-- The test gives the same answer with the boxes exchanged. -/
theorem C84_symm (c : Cfg) (a e b f : Pt) (q r : Quaternion ℝ) (hq : Quaternion.normSq q = 1) (hr : Quaternion.normSq r = 1)
    (he : ∀ i, 0 ≤ e i) (hf : ∀ i, 0 ≤ f i) :
    BoundingOrientedBox.IntersectsOrientedBox c (oboxOf a e q) (oboxOf b f r) =
      BoundingOrientedBox.IntersectsOrientedBox c (oboxOf b f r) (oboxOf a e q) := by
  rw [Bool.eq_iff_iff, C84_intersectsOrientedBox c a e b f q r hq hr he hf, C84_intersectsOrientedBox c b f a e r q hr hq hf he, Set.inter_comm]

theorem C84_intersectsBox (c : Cfg) (a e b f : Pt) (q : Quaternion ℝ) (hq : Quaternion.normSq q = 1) (he : ∀ i, 0 ≤ e i) (hf : ∀ i, 0 ≤ f i) :
    BoundingOrientedBox.IntersectsBox c (oboxOf a e q) (boxOf b f) = true ↔ (obox a e q ∩ box b f).Nonempty := by
  rw [← obox_one, ← C84_intersectsOrientedBox c a e b f q 1 hq (by simp) he hf]
  simp only [BoundingOrientedBox.IntersectsBox, orientBox, boxOf, oboxOf, q_one]


/-- The same through the axis-aligned box. -/
theorem C84_boxIntersectsOrientedBox (c : Cfg) (a e b f : Pt) (q : Quaternion ℝ) (hq : Quaternion.normSq q = 1) (he : ∀ i, 0 ≤ e i) (hf : ∀ i, 0 ≤ f i) :
    BoundingBox.IntersectsOrientedBox c (boxOf b f) (oboxOf a e q) = true ↔ (box b f ∩ obox a e q).Nonempty := by
  rw [Set.inter_comm]; exact C84_intersectsBox c a e b f q hq he hf

/-! ### C85: containment of oriented boxes -/

theorem obox_subset_iff {b f : Pt} {r : Quaternion ℝ} (hr : Quaternion.normSq r = 1) (hf : ∀ i, 0 ≤ f i) {S : Set Pt} (hS : Convex ℝ S) :
    obox b f r ⊆ S ↔ ∀ s ∈ signs, b + rot r (f * s) ∈ S := by
  have h : obox b f r = rigid b r '' box 0 f := rigid_image hr b _
  rw [h, box_hull f hf, AffineMap.image_convexHull]
  constructor
  · intro h s hs
    exact h (subset_convexHull ℝ _ ⟨_, ⟨s, hs, rfl⟩, rigid_apply hr _ _⟩)
  · intro h
    refine convexHull_min ?_ hS
    rintro _ ⟨u, ⟨s, hs, rfl⟩, rfl⟩
    rw [rigid_apply hr]; exact h s hs
theorem ball_convex (b : Pt) (r : ℝ) (hr : 0 ≤ r) : Convex ℝ (ball b r) := by
  intro x hx y hy s t hs ht hst
  rw [mem_ball] at *
  have : s • x + t • y - b = s • (x - b) + t • (y - b) := by
    have : b = (s + t) • b := by rw [hst, one_smul]
    conv_lhs => rw [this]
    module
  rw [this]
  refine (len_add_le _ _).trans ?_
  rw [len_smul, len_smul, abs_of_nonneg hs, abs_of_nonneg ht]
  nlinarith

/-- Oriented box in oriented box: CONTAINS exactly for a subset, DISJOINT exactly when no point is shared. -/
theorem C85_containsOrientedBox (c : Cfg) (a e b f : Pt) (q r : Quaternion ℝ) (hq : Quaternion.normSq q = 1) (hr : Quaternion.normSq r = 1)
    (he : ∀ i, 0 ≤ e i) (hf : ∀ i, 0 ≤ f i) :
    (BoundingOrientedBox.ContainsOrientedBox c (oboxOf a e q) (oboxOf b f r) = .CONTAINS ↔ obox b f r ⊆ obox a e q) ∧
    (BoundingOrientedBox.ContainsOrientedBox c (oboxOf a e q) (oboxOf b f r) = .DISJOINT ↔ obox a e q ∩ obox b f r = ∅) := by
  have hi := C84_intersectsOrientedBox c a e b f q r hq hr he hf
  rw [← Set.not_nonempty_iff_eq_empty, ← hi]
  have hne : obox b f r ⊆ obox a e q → (obox a e q ∩ obox b f r).Nonempty := fun h => by
    obtain ⟨p, hp⟩ := obox_extreme hr b f hf 0
    exact ⟨p, h hp.1, hp.1⟩
  have hb : (g_BoxOffset.all fun o => XMVector3InBounds c (XMVector3InverseRotate c (XMVectorAdd (XMVector3Rotate c (XMVectorMultiply
      (load3 (f3 f)) o) (quat r)) (XMVectorSubtract (load3 (f3 b)) (load3 (f3 a)))) (quat q)) (load3 (f3 e))) = true ↔ obox b f r ⊆ obox a e q := by
    rw [obox_subset_iff hr hf (obox_convex hq a e), List.all_eq_true, offset_signs]
    simp only [List.mem_map, forall_exists_index, and_imp, forall_apply_eq_imp_iff₂]
    refine forall₂_congr fun s _ => ?_
    geo
    rw [mem_obox' hq, show b + rot r (f * s) - a = rot r (f * s) + (b - a) by abel]
  simp only [BoundingOrientedBox.ContainsOrientedBox]
  cases h : BoundingOrientedBox.IntersectsOrientedBox c (oboxOf a e q) (oboxOf b f r)
  · rw [h] at hi
    simp only [Bool.not_false, if_true, reduceCtorEq, false_iff, not_false_eq_true, iff_true, and_true, Bool.false_eq_true]
    intro k; exact absurd (hi.2 (hne k)) (by simp)
  · simp only [Bool.not_true, Bool.false_eq_true, if_false, oboxOf, hb]
    split_ifs <;> simp_all

theorem C85_containsBox (c : Cfg) (a e b f : Pt) (q : Quaternion ℝ) (hq : Quaternion.normSq q = 1) (he : ∀ i, 0 ≤ e i) (hf : ∀ i, 0 ≤ f i) :
    (BoundingOrientedBox.ContainsBox c (oboxOf a e q) (boxOf b f) = .CONTAINS ↔ box b f ⊆ obox a e q) ∧
    (BoundingOrientedBox.ContainsBox c (oboxOf a e q) (boxOf b f) = .DISJOINT ↔ obox a e q ∩ box b f = ∅) := by
  have := C85_containsOrientedBox c a e b f q 1 hq (by simp) he hf
  rw [obox_one] at this
  simpa only [BoundingOrientedBox.ContainsBox, orientBox, boxOf, oboxOf, q_one] using this

/-- Oriented box in sphere. -/
theorem C85_sphereContainsOrientedBox (c : Cfg) (a b f : Pt) (ρ : ℝ) (r : Quaternion ℝ) (hr : Quaternion.normSq r = 1) (hρ : 0 ≤ ρ) (hf : ∀ i, 0 ≤ f i) :
    (BoundingSphere.ContainsOrientedBox c (sphereOf a ρ) (oboxOf b f r) = .CONTAINS ↔ obox b f r ⊆ ball a ρ) ∧
    (BoundingSphere.ContainsOrientedBox c (sphereOf a ρ) (oboxOf b f r) = .DISJOINT ↔ obox b f r ∩ ball a ρ = ∅) := by
  have hi := (C85_intersectsSphere c b f a r ρ hr hf hρ).1
  rw [← Set.not_nonempty_iff_eq_empty, ← hi]
  have hne : obox b f r ⊆ ball a ρ → (obox b f r ∩ ball a ρ).Nonempty := fun h => by
    obtain ⟨p, hp⟩ := obox_extreme hr b f hf 0
    exact ⟨p, hp.1, h hp.1⟩
  have hb : obox b f r ⊆ ball a ρ ↔ ∀ s ∈ signs, (a - (rot r (f * s) + b)) ⬝ᵥ (a - (rot r (f * s) + b)) ≤ ρ * ρ := by
    rw [obox_subset_iff hr hf (ball_convex a ρ hρ)]
    refine forall₂_congr fun s _ => ?_
    rw [mem_ball, len_le_iff hρ, ← neg_dotProduct_neg]
    simp only [neg_sub, add_comm b]
  simp only [BoundingSphere.ContainsOrientedBox]
  cases h : BoundingOrientedBox.IntersectsSphere c (oboxOf b f r) (sphereOf a ρ)
  · rw [h] at hi
    simp only [Bool.not_false, if_true, reduceCtorEq, false_iff, not_false_eq_true, iff_true, and_true, Bool.false_eq_true]
    intro k; exact absurd (hi.2 (hne k)) (by simp)
  · simp only [Bool.not_true, Bool.false_eq_true, if_false, oboxOf, sphereOf, offset_signs, v_true]
    rw [fold_and _ (fun s => (a - (rot r (f * s) + b)) ⬝ᵥ (a - (rot r (f * s) + b)) ≤ ρ * ρ) signs (fun s _ => by geo)]
    simp only [true_and, m_eq3, ← hb]
    split_ifs <;> simp_all

theorem fold_and3 (f : V4 E → V4 E) (g : Pt → Fin 3 → Prop) (l : List Pt) (h : ∀ s ∈ l, ∃ w, f (vec3 s (num 0)) = msk3 (g s) w) : ∀ (p : Fin 3 → Prop) (w : E),
    ∃ w', (l.map fun s => vec3 s (num 0)).foldl (fun acc o => XMVectorAndInt acc (f o)) (msk3 p w) = msk3 (fun i => p i ∧ ∀ s ∈ l, g s i) w' := by
  induction l with
  | nil => intro p w; exact ⟨w, by simp⟩
  | cons s l ih =>
    intro p w
    obtain ⟨w1, h1⟩ := h s (by simp)
    simp only [List.map_cons, List.foldl_cons]
    rw [h1, m3_and]
    obtain ⟨w2, h2⟩ := ih (fun t ht => h t (by simp [ht])) (fun i => p i ∧ g s i) (Lane.band w w1)
    refine ⟨w2, h2.trans ?_⟩
    congr 1; ext i; simp [and_assoc]

/-- Oriented box in axis-aligned box. -/
theorem C85_boxContainsOrientedBox (c : Cfg) (a e b f : Pt) (r : Quaternion ℝ) (hr : Quaternion.normSq r = 1) (he : ∀ i, 0 ≤ e i) (hf : ∀ i, 0 ≤ f i) :
    (BoundingBox.ContainsOrientedBox c (boxOf a e) (oboxOf b f r) = .CONTAINS ↔ obox b f r ⊆ box a e) ∧
    (BoundingBox.ContainsOrientedBox c (boxOf a e) (oboxOf b f r) = .DISJOINT ↔ obox b f r ∩ box a e = ∅) := by
  have hi := C84_intersectsBox c b f a e r hr hf he
  rw [← Set.not_nonempty_iff_eq_empty, ← hi]
  have hne : obox b f r ⊆ box a e → (obox b f r ∩ box a e).Nonempty := fun h => by
    obtain ⟨p, hp⟩ := obox_extreme hr b f hf 0
    exact ⟨p, hp.1, h hp.1⟩
  have hb : obox b f r ⊆ box a e ↔ ∀ i, ∀ s ∈ signs, |rot r (f * s) + (b - a)| i ≤ e i := by
    rw [obox_subset_iff hr hf (box_convex a e)]
    constructor
    · intro h i s hs
      have := h s hs i
      rwa [Pi.abs_apply, show rot r (f * s) + (b - a) = b + rot r (f * s) - a by abel]
    · intro h s hs i
      have := h i s hs
      rwa [Pi.abs_apply, show rot r (f * s) + (b - a) = b + rot r (f * s) - a by abel] at this
  simp only [BoundingBox.ContainsOrientedBox]
  cases h : BoundingOrientedBox.IntersectsBox c (oboxOf b f r) (boxOf a e)
  · rw [h] at hi
    simp only [Bool.not_false, if_true, reduceCtorEq, false_iff, not_false_eq_true, iff_true, and_true, Bool.false_eq_true]
    intro k; exact absurd (hi.2 (hne k)) (by simp)
  · simp only [Bool.not_true, Bool.false_eq_true, if_false, oboxOf, boxOf, offset_signs, v_true]
    obtain ⟨w', hw⟩ := fold_and3 (fun o => XMVectorLessOrEqual (XMVectorAbs c (XMVectorAdd (XMVector3Rotate c (XMVectorMultiply (load3 (f3 f)) o) (quat r))
      (XMVectorSubtract (load3 (f3 b)) (load3 (f3 a))))) (load3 (f3 e))) (fun s i => |rot r (f * s) + (b - a)| i ≤ e i) signs
      (fun s _ => by geo; exact ⟨_, rfl⟩) (fun _ => True) (dm True)
    have : (msk True) = msk3 (fun _ => True) (dm True) := rfl
    rw [this, hw, ← this]
    simp only [true_and, m3_eq3, ← hb]
    split_ifs <;> simp_all

/-! The hypotheses are met by actual boxes: -/
example (c : Cfg) : BoundingOrientedBox.IntersectsOrientedBox c (oboxOf 0 ![1, 2, 3] exQ) (oboxOf ![0, 0, 1] ![1, 1, 1] 1) = true :=
  (C84_intersectsOrientedBox c _ _ _ _ _ _ exQ_unit (by simp) (by intro i; fin_cases i <;> norm_num)
    (by intro i; fin_cases i <;> norm_num)).2 ⟨0, ⟨0, by intro i; fin_cases i <;> simp, by rw [rot_zero exQ_unit]; simp⟩,
      by rw [obox_one]; intro i; fin_cases i <;> norm_num⟩
/-- Two cubes whose axis-aligned hulls overlap but which are separated along an oblique axis. -/
example (c : Cfg) : BoundingOrientedBox.IntersectsOrientedBox c (oboxOf 0 ![1, 1, 1] exQ) (oboxOf ![2.5, 0, 0] ![1, 1, 1] 1) = false := by
  rw [← Bool.not_eq_true, C84_intersectsOrientedBox c _ _ _ _ _ _ exQ_unit (by simp) (by intro i; fin_cases i <;> norm_num)
    (by intro i; fin_cases i <;> norm_num), obox_one]
  rintro ⟨p, h1, h2⟩
  have h2 := mem_box.1 h2 0
  obtain ⟨u, hu, rfl⟩ := h1
  have e0 := abs_le.1 (hu 0); have e1 := abs_le.1 (hu 1)
  rw [exQ_rot] at h2
  norm_num at h2 e0 e1
  linarith [h2.1, e0.2, e1.1]

end DXM.Props
