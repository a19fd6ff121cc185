import Verif.Props.CollisionPlane

/-
C90: the frustum's points, planes and corners.
-/

set_option linter.all false

namespace DXM.Geo
open DXM.E DXM.Spec DXM.RG Matrix Classical
theorem v_planeNormalize (c : Cfg) (v : Pt) (d : ℝ) (h : v ≠ 0) :
    XMPlaneNormalize c (vec3 v (num d)) = vec3 ((len v)⁻¹ • v) (num ((len v)⁻¹ * d)) := by
  have hs : 0 < len v := lt_of_le_of_ne (len_nonneg v) (fun k => h (len_eq_zero.1 k.symm))
  have e : len v = √(v 0 * v 0 + v 1 * v 1 + v 2 * v 2) := by rw [len]; simp [dotProduct, Fin.sum_univ_three]
  have h0 : 0 < v 0 * v 0 + v 1 * v 1 + v 2 * v 2 := by rw [e] at hs; exact Real.sqrt_pos.1 hs
  rw [e] at hs ⊢
  unfold XMPlaneNormalize
  split_ifs
  · simp [sqrt_num _ h0.le, div_num _ _ hs.ne', div_eq_inv_mul]
  · simp [sqrt_num _ h0.le, div_num _ _ hs.ne', div_eq_inv_mul, hs, mul_comm, h0]
/-- Folding `Or` of comparison results. -/
theorem fold_or {ι : Type} (L : List ι) (f : V4 E → ι → V4 E) (p : ι → Prop) (a : Prop) (h : ∀ x i, i ∈ L → f (msk x) i = msk (x ∨ p i)) :
    L.foldl f (msk a) = msk (a ∨ ∃ i ∈ L, p i) := by
  induction L generalizing a with
  | nil => simp
  | cons i L ih =>
    rw [List.foldl_cons, h a i (by simp), ih (a ∨ p i) (fun x j hj => h x j (by simp [hj]))]
    congr 1; simp [or_assoc]
theorem fold_and {ι : Type} (L : List ι) (f : V4 E → ι → V4 E) (p : ι → Prop) (a : Prop) (h : ∀ x i, i ∈ L → f (msk x) i = msk (x ∧ p i)) :
    L.foldl f (msk a) = msk (a ∧ ∀ i ∈ L, p i) := by
  induction L generalizing a with
  | nil => simp
  | cons i L ih =>
    rw [List.foldl_cons, h a i (by simp), ih (a ∧ p i) (fun x j hj => h x j (by simp [hj]))]
    congr 1; simp [and_assoc]
theorem zero_msk : (all 0 : V4 E) = msk False := by simp [msk, dm]
theorem v_false' : (XMVectorFalseInt : V4 E) = msk False := by simp [msk, XMVectorFalseInt, Lane.mask, dm_f]
end DXM.Geo

namespace DXM.Props
open DXM.E DXM.Spec DXM.RG DXM.Geo Matrix Classical

/-- Exact: CONTAINS if the point is in the frustum, DISJOINT otherwise. -/
theorem C90_containsPoint (c : Cfg) (o p : Pt) (q : Quaternion ℝ) (r l t b n f : ℝ) (w : E) (hq : Quaternion.normSq q = 1) :
    BoundingFrustum.ContainsPoint c (frustumOf o q r l t b n f) (vec3 p w) =
      if p ∈ frustum o q r l t b n f then .CONTAINS else .DISJOINT := by
  simp only [BoundingFrustum.ContainsPoint, fr_o, fr_q, fr_planes]
  geo
  rw [zero_msk, fold_or _ _ (fun P => ∃ P' ∈ fplanes r l t b n f, P = vec3 P'.1 (num (-P'.2)) ∧ P'.2 < P'.1 ⬝ᵥ rot (star q) (p - o))]
  · rw [← v_true]
    simp only [m_ne4, v_true]
    have : (¬ (False ∨ ∃ i ∈ List.map (fun P : Pt × ℝ => (vec3 P.1 (num (-P.2)) : V4 E)) (fplanes r l t b n f),
        ∃ P' ∈ fplanes r l t b n f, i = vec3 P'.1 (num (-P'.2)) ∧ P'.2 < P'.1 ⬝ᵥ rot (star q) (p - o))) ↔ p ∈ frustum o q r l t b n f := by
      rw [mem_frustum hq, mem_frustum0]
      constructor
      · intro h P hP
        by_contra k
        exact h (Or.inr ⟨_, List.mem_map_of_mem hP, P, hP, rfl, not_le.1 k⟩)
      · rintro h (k | ⟨_, -, P', hP', -, k⟩)
        · exact k
        · exact not_lt.2 (h P' hP') k
    exact if_congr this rfl rfl
  · intro x i hi
    obtain ⟨P, hP, rfl⟩ := List.mem_map.1 hi
    geo
    rw [← zero_msk]
    geo
    congr 1
    refine propext (or_congr Iff.rfl ⟨fun h => ⟨P, hP, rfl, ?_⟩, ?_⟩)
    · rw [dotProduct_comm] at h; linarith
    · rintro ⟨P', hP', e, h⟩
      have e1 : P = P' := by
        simp at e
        refine Prod.ext ?_ ?_
        · ext i; fin_cases i
          · exact e.1
          · exact e.2.1
          · exact e.2.2.1
        · exact e.2.2.2
      subst e1
      rw [dotProduct_comm] at h; linarith

theorem world_plane (c : Cfg) (o v : Pt) (q : Quaternion ℝ) (r l t b n f d : ℝ) (hq : Quaternion.normSq q = 1) (hv : v ≠ 0) :
    BoundingFrustum.worldPlane c (frustumOf o q r l t b n f) (vec3 v (num d)) =
      vec3 ((len v)⁻¹ • rot q v) (num ((len v)⁻¹ * (d - rot q v ⬝ᵥ o))) := by
  have h : rot q v ≠ 0 := by
    intro h; apply hv; rw [← rot_star_rot hq v, h, rot_zero (by simpa using hq)]
  simp only [BoundingFrustum.worldPlane, fr_o, fr_q, planeTransform]
  geo
  rw [v_planeNormalize c _ _ h, rot_len hq]

/-- The six planes are unit planes pointing outwards: at the point with local coordinates `u` they have the signed distances of the
near, far, right, left, top and bottom faces. -/
theorem C90_getPlanes (c : Cfg) (o : Pt) (q : Quaternion ℝ) (r l t b n f : ℝ) (hq : Quaternion.normSq q = 1) :
    ∃ (N : Fin 6 → Pt) (D : Fin 6 → ℝ),
      BoundingFrustum.GetPlanes c (frustumOf o q r l t b n f) = (vec3 (N 0) (num (D 0)), vec3 (N 1) (num (D 1)), vec3 (N 2) (num (D 2)),
        vec3 (N 3) (num (D 3)), vec3 (N 4) (num (D 4)), vec3 (N 5) (num (D 5))) ∧
      (∀ k, len (N k) = 1) ∧
      (∀ u, planeAt (N 0) (D 0) (o + rot q u) = n - u 2 ∧ planeAt (N 1) (D 1) (o + rot q u) = u 2 - f ∧
        planeAt (N 2) (D 2) (o + rot q u) = (u 0 - r * u 2) / √(1 + r ^ 2) ∧ planeAt (N 3) (D 3) (o + rot q u) = (l * u 2 - u 0) / √(1 + l ^ 2) ∧
        planeAt (N 4) (D 4) (o + rot q u) = (u 1 - t * u 2) / √(1 + t ^ 2) ∧ planeAt (N 5) (D 5) (o + rot q u) = (b * u 2 - u 1) / √(1 + b ^ 2)) ∧
      ∀ p, p ∈ frustum o q r l t b n f ↔ ∀ k, planeAt (N k) (D k) p ≤ 0 := by
  have e0 : (![0, 0, -1] : Pt) ≠ 0 := fun h => by simpa using congrFun h 2
  have e1 : (![0, 0, 1] : Pt) ≠ 0 := fun h => by simpa using congrFun h 2
  have e2 : (![1, 0, -r] : Pt) ≠ 0 := fun h => by simpa using congrFun h 0
  have e3 : (![-1, 0, l] : Pt) ≠ 0 := fun h => by simpa using congrFun h 0
  have e4 : (![0, 1, -t] : Pt) ≠ 0 := fun h => by simpa using congrFun h 1
  have e5 : (![0, -1, b] : Pt) ≠ 0 := fun h => by simpa using congrFun h 1
  have s0 : len (![0, 0, -1] : Pt) = 1 := by simp [len, dotProduct, Fin.sum_univ_three]
  have s1 : len (![0, 0, 1] : Pt) = 1 := by simp [len, dotProduct, Fin.sum_univ_three]
  have s2 : len (![1, 0, -r] : Pt) = √(1 + r ^ 2) := by simp [len, dotProduct, Fin.sum_univ_three, sq]
  have s3 : len (![-1, 0, l] : Pt) = √(1 + l ^ 2) := by simp [len, dotProduct, Fin.sum_univ_three, sq]
  have s4 : len (![0, 1, -t] : Pt) = √(1 + t ^ 2) := by simp [len, dotProduct, Fin.sum_univ_three, sq]
  have s5 : len (![0, -1, b] : Pt) = √(1 + b ^ 2) := by simp [len, dotProduct, Fin.sum_univ_three, sq]
  have pos : ∀ x : ℝ, 0 < √(1 + x ^ 2) := fun x => Real.sqrt_pos.2 (by positivity)
  let P : Fin 6 → Pt := ![![0, 0, -1], ![0, 0, 1], ![1, 0, -r], ![-1, 0, l], ![0, 1, -t], ![0, -1, b]]
  let d : Fin 6 → ℝ := ![n, -f, 0, 0, 0, 0]
  have hP : ∀ k, P k ≠ 0 := by intro k; fin_cases k; exacts [e0, e1, e2, e3, e4, e5]
  have key : ∀ k u, planeAt ((len (P k))⁻¹ • rot q (P k)) ((len (P k))⁻¹ * (d k - rot q (P k) ⬝ᵥ o)) (o + rot q u) = (len (P k))⁻¹ * (P k ⬝ᵥ u + d k) := by
    intro k u
    unfold planeAt
    rw [smul_dotProduct, dotProduct_add, rot_dot hq, smul_eq_mul]; ring
  refine ⟨fun k => (len (P k))⁻¹ • rot q (P k), fun k => (len (P k))⁻¹ * (d k - rot q (P k) ⬝ᵥ o), ?_, ?_, ?_, ?_⟩
  · have ex : ∀ x y z w : ℝ, (XMVectorSet (num x) (num y) (num z) (num w) : V4 E) = vec3 ![x, y, z] (num w) := by
      intro x y z w; simp [XMVectorSet]
    simp only [BoundingFrustum.GetPlanes, fr_n, fr_f, fr_r, fr_l, fr_t, fr_b, s_c0, s_c1, neg_num, show (Lane.cNeg1 : E) = num (-1) by simp, ex]
    rw [world_plane c o _ q r l t b n f _ hq e0, world_plane c o _ q r l t b n f _ hq e1, world_plane c o _ q r l t b n f _ hq e2,
      world_plane c o _ q r l t b n f _ hq e3, world_plane c o _ q r l t b n f _ hq e4, world_plane c o _ q r l t b n f _ hq e5]
    rfl
  · intro k
    have : 0 < len (P k) := lt_of_le_of_ne (len_nonneg _) (fun h => hP k (len_eq_zero.1 h.symm))
    show len ((len (P k))⁻¹ • rot q (P k)) = 1
    rw [len_smul, rot_len hq, abs_of_pos (inv_pos.2 this), inv_mul_cancel₀ this.ne']
  · intro u
    refine ⟨?_, ?_, ?_, ?_, ?_, ?_⟩
    all_goals dsimp only; rw [key]; simp [P, d, s0, s1, s2, s3, s4, s5, dotProduct, Fin.sum_univ_three]; ring
  · intro p
    rw [mem_frustum hq, mem_frustum0]
    have hp : p = o + rot q (rot (star q) (p - o)) := by rw [rot_rot_star hq]; abel
    have hk : ∀ k, planeAt ((len (P k))⁻¹ • rot q (P k)) ((len (P k))⁻¹ * (d k - rot q (P k) ⬝ᵥ o)) p ≤ 0 ↔ P k ⬝ᵥ rot (star q) (p - o) ≤ -d k := by
      intro k
      have : 0 < (len (P k))⁻¹ := inv_pos.2 (lt_of_le_of_ne (len_nonneg _) (fun h => hP k (len_eq_zero.1 h.symm)))
      conv_lhs => rw [hp, key]
      rw [← mul_zero (len (P k))⁻¹, mul_le_mul_iff_right₀ this]
      constructor <;> intro h <;> linarith
    simp only [hk, fplanes, List.forall_mem_cons, List.not_mem_nil, IsEmpty.forall_iff, implies_true, and_true, Fin.forall_fin_succ]
    simp [P, d]

/-- The frustum is where no face is exceeded. -/
theorem frustum_faces {o p : Pt} {q : Quaternion ℝ} {r l t b n f : ℝ} (hq : Quaternion.normSq q = 1) :
    p ∈ frustum o q r l t b n f ↔ ∀ k, frustumFace r l t b n f k (rot (star q) (p - o)) ≤ 0 := by
  rw [mem_frustum hq]
  simp [frustum0, frustumFace, Fin.forall_fin_succ]
  tauto

/-- A test that is `ContainedBy` for `S` and any six unit planes becomes the containment test of the frustum. -/
theorem six_test (c : Cfg) (o : Pt) (q : Quaternion ℝ) (r l t b n f : ℝ) (hq : Quaternion.normSq q = 1) (S : Set Pt)
    (F : V4 E → V4 E → V4 E → V4 E → V4 E → V4 E → ContainmentType)
    (h : ∀ (N : Fin 6 → Pt) (D : Fin 6 → ℝ), (∀ k, len (N k) = 1) →
      (sixOf F N D = .DISJOINT ↔ ∃ k, ∀ p ∈ S, 0 < planeAt (N k) (D k) p) ∧ (sixOf F N D = .CONTAINS ↔ ∀ k, ∀ p ∈ S, planeAt (N k) (D k) p < 0)) :
    (BoundingFrustum.sixPlaneTest c (frustumOf o q r l t b n f) F = .DISJOINT ↔
      ∃ k, ∀ p ∈ S, 0 < frustumFace r l t b n f k (rot (star q) (p - o))) ∧
    (BoundingFrustum.sixPlaneTest c (frustumOf o q r l t b n f) F = .CONTAINS ↔
      ∀ k, ∀ p ∈ S, frustumFace r l t b n f k (rot (star q) (p - o)) < 0) := by
  obtain ⟨N, D, h1, h2, h3, -⟩ := C90_getPlanes c o q r l t b n f hq
  have e : BoundingFrustum.sixPlaneTest c (frustumOf o q r l t b n f) F = sixOf F N D := by
    simp only [BoundingFrustum.sixPlaneTest, h1, sixOf]
  rw [e]
  obtain ⟨g1, g2⟩ := h N D h2
  rw [g1, g2]
  have pos : ∀ x : ℝ, 0 < √(1 + x ^ 2) := fun x => Real.sqrt_pos.2 (by positivity)
  have key : ∀ k p, ∃ s : ℝ, 0 < s ∧ planeAt (N k) (D k) p = s * frustumFace r l t b n f k (rot (star q) (p - o)) := by
    intro k p
    have hp : p = o + rot q (rot (star q) (p - o)) := by rw [rot_rot_star hq]; abel
    obtain ⟨a0, a1, a2, a3, a4, a5⟩ := h3 (rot (star q) (p - o))
    rw [← hp] at a0 a1 a2 a3 a4 a5
    fin_cases k
    · exact ⟨1, one_pos, by rw [one_mul]; exact a0⟩
    · exact ⟨1, one_pos, by rw [one_mul]; exact a1⟩
    · exact ⟨(√(1 + r ^ 2))⁻¹, inv_pos.2 (pos r), by rw [inv_mul_eq_div]; exact a2⟩
    · exact ⟨(√(1 + l ^ 2))⁻¹, inv_pos.2 (pos l), by rw [inv_mul_eq_div]; exact a3⟩
    · exact ⟨(√(1 + t ^ 2))⁻¹, inv_pos.2 (pos t), by rw [inv_mul_eq_div]; exact a4⟩
    · exact ⟨(√(1 + b ^ 2))⁻¹, inv_pos.2 (pos b), by rw [inv_mul_eq_div]; exact a5⟩
  have k1 : ∀ k p, 0 < planeAt (N k) (D k) p ↔ 0 < frustumFace r l t b n f k (rot (star q) (p - o)) := by
    intro k p; obtain ⟨s, hs, e⟩ := key k p; rw [e, mul_pos_iff_of_pos_left hs]
  have k2 : ∀ k p, planeAt (N k) (D k) p < 0 ↔ frustumFace r l t b n f k (rot (star q) (p - o)) < 0 := by
    intro k p; obtain ⟨s, hs, e⟩ := key k p; rw [e]; constructor
    · intro h; by_contra h'; exact absurd (mul_nonneg hs.le (not_lt.1 h')) (not_le.2 h)
    · intro h; exact mul_neg_of_pos_of_neg hs h
  simp only [k1, k2, and_self]

/-- What the `Contains` functions of a frustum promise about the volume `S`: DISJOINT exactly if `S` is strictly outside one face, CONTAINS
exactly if `S` is strictly inside all of them. -/
def FrustumContains (o : Pt) (q : Quaternion ℝ) (r l t b n f : ℝ) (S : Set Pt) (R : ContainmentType) : Prop :=
  (R = .DISJOINT ↔ ∃ k, ∀ p ∈ S, 0 < frustumFace r l t b n f k (rot (star q) (p - o))) ∧
  (R = .CONTAINS ↔ ∀ k, ∀ p ∈ S, frustumFace r l t b n f k (rot (star q) (p - o)) < 0)
/-- Hence DISJOINT means disjoint and CONTAINS means contained. -/
theorem C90_sound (o : Pt) (q : Quaternion ℝ) (r l t b n f : ℝ) (hq : Quaternion.normSq q = 1) (S : Set Pt) (R : ContainmentType)
    (h : FrustumContains o q r l t b n f S R) :
    (R = .DISJOINT → Disjoint S (frustum o q r l t b n f)) ∧ (R = .CONTAINS → S ⊆ frustum o q r l t b n f) := by
  constructor
  · intro k
    obtain ⟨i, hi⟩ := h.1.1 k
    rw [Set.disjoint_left]
    intro p hp hp'
    exact absurd (hi p hp) (not_lt.2 ((frustum_faces hq).1 hp' i))
  · intro k p hp
    exact (frustum_faces hq).2 fun i => (h.2.1 k i p hp).le
theorem C90_containsSphere (c : Cfg) (o : Pt) (q : Quaternion ℝ) (r l t b n f : ℝ) (hq : Quaternion.normSq q = 1) (a : Pt) (ρ : ℝ) (hρ : 0 ≤ ρ) :
    FrustumContains o q r l t b n f (ball a ρ) (BoundingFrustum.ContainsSphere c (frustumOf o q r l t b n f) (sphereOf a ρ)) :=
  six_test c o q r l t b n f hq _ _ fun N D hN => C82_sphere c a ρ N D hN hρ
theorem C90_containsBox (c : Cfg) (o : Pt) (q : Quaternion ℝ) (r l t b n f : ℝ) (hq : Quaternion.normSq q = 1) (a e : Pt) (he : ∀ i, 0 ≤ e i) :
    FrustumContains o q r l t b n f (box a e) (BoundingFrustum.ContainsBox c (frustumOf o q r l t b n f) (boxOf a e)) :=
  six_test c o q r l t b n f hq _ _ fun N D hN => C82_box c a e N D he
theorem C90_containsOrientedBox (c : Cfg) (o : Pt) (q : Quaternion ℝ) (r l t b n f : ℝ) (hq : Quaternion.normSq q = 1) (a e : Pt)
    (q' : Quaternion ℝ) (hq' : Quaternion.normSq q' = 1) (he : ∀ i, 0 ≤ e i) :
    FrustumContains o q r l t b n f (obox a e q') (BoundingFrustum.ContainsOrientedBox c (frustumOf o q r l t b n f) (oboxOf a e q')) :=
  six_test c o q r l t b n f hq _ _ fun N D hN => C82_orientedBox c a e q' N D hq' he
theorem C90_containsFrustum (c : Cfg) (o : Pt) (q : Quaternion ℝ) (r l t b n f : ℝ) (hq : Quaternion.normSq q = 1) (o' : Pt)
    (q' : Quaternion ℝ) (r' l' t' b' n' f' : ℝ) (hq' : Quaternion.normSq q' = 1) (hv : ValidFrustum r' l' t' b' n' f') :
    FrustumContains o q r l t b n f (frustum o' q' r' l' t' b' n' f')
      (BoundingFrustum.ContainsFrustum c (frustumOf o q r l t b n f) (frustumOf o' q' r' l' t' b' n' f')) :=
  six_test c o q r l t b n f hq _ _ fun N D hN => C82_frustum c o' q' r' l' t' b' n' f' N D hq' hv
theorem C90_containsTriangle (c : Cfg) (o : Pt) (q : Quaternion ℝ) (r l t b n f : ℝ) (hq : Quaternion.normSq q = 1) (v0 v1 v2 : Pt) (w0 w1 w2 : E) :
    FrustumContains o q r l t b n f (tri v0 v1 v2)
      (BoundingFrustum.ContainsTriangle c (frustumOf o q r l t b n f) (vec3 v0 w0) (vec3 v1 w1) (vec3 v2 w2)) :=
  six_test c o q r l t b n f hq _ _ fun N D hN => C82_triangle c v0 v1 v2 w0 w1 w2 N D

/-- The eight corners: the near face (left top, right top, right bottom, left bottom), then the far face; the frustum is their convex
hull. -/
theorem C90_getCorners (c : Cfg) (o : Pt) (q : Quaternion ℝ) (r l t b n f : ℝ) (hq : Quaternion.normSq q = 1) (hv : ValidFrustum r l t b n f) :
    ∃ ps : List Pt, BoundingFrustum.GetCorners c (frustumOf o q r l t b n f) = ps.map f3 ∧
      ps = [![l * n, t * n, n], ![r * n, t * n, n], ![r * n, b * n, n], ![l * n, b * n, n],
            ![l * f, t * f, f], ![r * f, t * f, f], ![r * f, b * f, f], ![l * f, b * f, f]].map (fun u => o + rot q u) ∧
      frustum o q r l t b n f = convexHull ℝ {p | p ∈ ps} := by
  have ev : ∀ k x y : ℝ, (k • ![x, y, 1] : Pt) = ![x * k, y * k, k] := by
    intro k x y; ext i; fin_cases i <;> simp [mul_comm]
  refine ⟨_, ?_, rfl, ?_⟩
  · simp only [BoundingFrustum.GetCorners, fr_o, fr_q, fr_n, fr_f, fr_rt, fr_rb, fr_lt, fr_lb, List.map_cons, List.map_nil]
    geo
    simp only [ev, add_comm o]
  · have h1 : frustum o q r l t b n f = rigid o q '' frustum0 r l t b n f := by
      rw [← rigid_image hq]; rfl
    rw [h1, frustum0_hull hv, AffineMap.image_convexHull]
    congr 1
    ext p
    simp only [Set.mem_image, Set.mem_setOf_eq, fcorners, ev]
    simp only [List.mem_cons, List.not_mem_nil, or_false, List.map_cons, List.map_nil]
    constructor
    · rintro ⟨u, hu, rfl⟩
      rw [rigid_apply hq]
      rcases hu with rfl | rfl | rfl | rfl | rfl | rfl | rfl | rfl <;> simp
    · rintro (rfl | rfl | rfl | rfl | rfl | rfl | rfl | rfl) <;> exact ⟨_, by simp, rigid_apply hq _ _⟩

example (c : Cfg) : BoundingFrustum.ContainsPoint c (frustumOf ![1, 0, 0] 1 1 (-1) 1 (-1) 1 10) (vec3 ![2, 0, 2] ones) = .CONTAINS := by
  rw [C90_containsPoint c _ _ _ _ _ _ _ _ _ _ (map_one _), if_pos]
  rw [mem_frustum (map_one _)]
  simp [rot_one, frustum0]; norm_num
example (c : Cfg) : BoundingFrustum.ContainsPoint c (frustumOf ![1, 0, 0] 1 1 (-1) 1 (-1) 1 10) (vec3 ![4, 0, 2] ones) = .DISJOINT := by
  rw [C90_containsPoint c _ _ _ _ _ _ _ _ _ _ (map_one _), if_neg]
  rw [mem_frustum (map_one _)]
  simp [rot_one, frustum0]; norm_num
example (c : Cfg) : BoundingFrustum.ContainsTriangle c (frustumOf 0 1 1 (-1) 1 (-1) 1 10) (vec3 ![0, 0, 2] ones) (vec3 ![1, 0, 2] ones) (vec3 ![0, 1, 3] ones)
    = .CONTAINS := by
  rw [(C90_containsTriangle c 0 1 1 (-1) 1 (-1) 1 10 (map_one _) ![0, 0, 2] ![1, 0, 2] ![0, 1, 3] ones ones ones).2]
  rintro k _ ⟨x, y, z, hx, hy, hz, h, rfl⟩
  fin_cases k <;> simp [frustumFace, rot_one] <;> linarith

end DXM.Props
