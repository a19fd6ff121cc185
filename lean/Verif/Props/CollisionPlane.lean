import Verif.Lemmas.Geo3

/-
C81 and C82: classification of the volumes against planes.  The plane is `n·p + d`, in lanes x, y, z and w.
-/

set_option linter.all false

namespace DXM.Props
open DXM.E DXM.Spec DXM.RG DXM.Geo Matrix Classical

theorem plane_spec (c : Cfg) (S : Set Pt) (n : Pt) (d : ℝ) {r : V4 E × V4 E}
    (h : r = (msk (∀ p ∈ S, 0 < planeAt n d p), msk (∀ p ∈ S, planeAt n d p < 0))) :
    planeResult c r = if ∀ p ∈ S, 0 < planeAt n d p then .FRONT else if ∀ p ∈ S, planeAt n d p < 0 then .BACK else .INTERSECTING := by
  rw [h, plane_res]
theorem six_spec (c : Cfg) (S : Set Pt) (hS : S.Nonempty) (fast : V4 E → V4 E × V4 E) (n : Fin 6 → Pt) (d : Fin 6 → ℝ)
    (h : ∀ k, fast (vec3 (n k) (num (d k))) = (msk (∀ p ∈ S, 0 < planeAt (n k) (d k) p), msk (∀ p ∈ S, planeAt (n k) (d k) p < 0))) :
    (sixPlanes c fast (vec3 (n 0) (num (d 0))) (vec3 (n 1) (num (d 1))) (vec3 (n 2) (num (d 2))) (vec3 (n 3) (num (d 3)))
      (vec3 (n 4) (num (d 4))) (vec3 (n 5) (num (d 5))) = .DISJOINT ↔ ∃ k, ∀ p ∈ S, 0 < planeAt (n k) (d k) p) ∧
    (sixPlanes c fast (vec3 (n 0) (num (d 0))) (vec3 (n 1) (num (d 1))) (vec3 (n 2) (num (d 2))) (vec3 (n 3) (num (d 3)))
      (vec3 (n 4) (num (d 4))) (vec3 (n 5) (num (d 5))) = .CONTAINS ↔ ∀ k, ∀ p ∈ S, planeAt (n k) (d k) p < 0) := by
  have := box_res fast c _ _ (fun k => vec3 (n k) (num (d k))) h
  refine ⟨this.1, this.2.trans ⟨And.right, fun k => ⟨?_, k⟩⟩⟩
  rintro ⟨i, hi⟩
  obtain ⟨p, hp⟩ := hS
  exact lt_asymm (hi p hp) (k i p hp)

/-! the plane test of each volume -/
theorem fast_sphere (c : Cfg) (a n : Pt) (ρ d : ℝ) (hn : len n = 1) (hρ : 0 ≤ ρ) :
    FastIntersectSpherePlane c (vec3 a (num 1)) (all ρ) (vec3 n (num d)) = (msk (∀ p ∈ ball a ρ, 0 < planeAt n d p), msk (∀ p ∈ ball a ρ, planeAt n d p < 0)) := by
  rw [(plane_ball n a d ρ hn hρ).1, (plane_ball n a d ρ hn hρ).2]
  simp only [FastIntersectSpherePlane]
  geo
  unfold planeAt
  rw [dotProduct_comm a, one_mul]
theorem fast_box (c : Cfg) (a e n : Pt) (d : ℝ) (he : ∀ i, 0 ≤ e i) (w : E) :
    FastIntersectAxisAlignedBoxPlane c (vec3 a (num 1)) (vec3 e w) (vec3 n (num d)) = (msk (∀ p ∈ box a e, 0 < planeAt n d p), msk (∀ p ∈ box a e, planeAt n d p < 0)) := by
  rw [(plane_box n a e d he).1, (plane_box n a e d he).2]
  simp only [FastIntersectAxisAlignedBoxPlane]
  geo
  unfold planeAt
  rw [dotProduct_comm a, one_mul]
theorem obox_forall {a e : Pt} {q : Quaternion ℝ} {P : Pt → Prop} : (∀ p ∈ obox a e q, P p) ↔ ∀ u ∈ box 0 e, P (a + rot q u) := by
  constructor
  · intro h u hu; exact h _ ⟨u, hu, rfl⟩
  · rintro h _ ⟨u, hu, rfl⟩; exact h u hu
theorem planeAt_loc {q : Quaternion ℝ} (hq : Quaternion.normSq q = 1) (n a u : Pt) (d : ℝ) :
    planeAt n d (a + rot q u) = planeAt (rot (star q) n) (planeAt n d a) u := by
  rw [plane_loc hq a, add_sub_cancel_left, rot_star_rot hq]
theorem fast_obox (c : Cfg) (a e n : Pt) (q : Quaternion ℝ) (d : ℝ) (hq : Quaternion.normSq q = 1) (he : ∀ i, 0 ≤ e i) (w : E) :
    FastIntersectOrientedBoxPlane c (vec3 a (num 1)) (vec3 e w) (vec3 (rotM q 0) (num 0)) (vec3 (rotM q 1) (num 0)) (vec3 (rotM q 2) (num 0)) (vec3 n (num d)) =
      (msk (∀ p ∈ obox a e q, 0 < planeAt n d p), msk (∀ p ∈ obox a e q, planeAt n d p < 0)) := by
  simp only [obox_forall, planeAt_loc hq]
  rw [(plane_box _ 0 e _ he).1, (plane_box _ 0 e _ he).2]
  simp only [FastIntersectOrientedBoxPlane]
  geo
  simp only [ins_y, ins_z]
  geo
  simp only [Matrix.cons_val_zero, Matrix.cons_val_one, rows_eq' hq]
  unfold planeAt
  rw [dotProduct_comm a, one_mul, dotProduct_zero, zero_add]
theorem fast_tri (c : Cfg) (v0 v1 v2 n : Pt) (d : ℝ) :
    FastIntersectTrianglePlane c (vec3 v0 (num 1)) (vec3 v1 (num 1)) (vec3 v2 (num 1)) (vec3 n (num d)) =
      (msk (∀ p ∈ tri v0 v1 v2, 0 < planeAt n d p), msk (∀ p ∈ tri v0 v1 v2, planeAt n d p < 0)) := by
  have e : ∀ a : Pt, a ⬝ᵥ n + 1 * d = planeAt n d a := fun a => by unfold planeAt; rw [dotProduct_comm, one_mul]
  have pl : ∀ x y z : ℝ, x + y + z = 1 → planeAt n d (x • v0 + y • v1 + z • v2) = x * planeAt n d v0 + y * planeAt n d v1 + z * planeAt n d v2 := by
    intro x y z h
    unfold planeAt
    rw [dotProduct_add, dotProduct_add, dotProduct_smul, dotProduct_smul, dotProduct_smul, smul_eq_mul, smul_eq_mul, smul_eq_mul]
    linear_combination (-d) * h
  simp only [FastIntersectTrianglePlane]
  geo
  simp only [e, lt_min_iff, max_lt_iff]
  congr 2
  · refine propext ⟨?_, fun h => ⟨⟨h _ (tri_mem0 _ _ _), h _ (tri_mem1 _ _ _)⟩, h _ (tri_mem2 _ _ _)⟩⟩
    rintro ⟨⟨h0, h1⟩, h2⟩ _ ⟨x, y, z, hx, hy, hz, h, rfl⟩
    rw [pl x y z h]
    by_contra hc
    have a0 := mul_nonneg hx h0.le; have a1 := mul_nonneg hy h1.le; have a2 := mul_nonneg hz h2.le
    have x0 : x = 0 := by by_contra k; linarith [mul_pos (lt_of_le_of_ne hx (Ne.symm k)) h0]
    have y0 : y = 0 := by by_contra k; linarith [mul_pos (lt_of_le_of_ne hy (Ne.symm k)) h1]
    have z0 : z = 0 := by by_contra k; linarith [mul_pos (lt_of_le_of_ne hz (Ne.symm k)) h2]
    linarith
  · refine propext ⟨?_, fun h => ⟨⟨h _ (tri_mem0 _ _ _), h _ (tri_mem1 _ _ _)⟩, h _ (tri_mem2 _ _ _)⟩⟩
    rintro ⟨⟨h0, h1⟩, h2⟩ _ ⟨x, y, z, hx, hy, hz, h, rfl⟩
    rw [pl x y z h]
    by_contra hc
    have a0 := mul_nonneg hx (neg_nonneg.2 h0.le); have a1 := mul_nonneg hy (neg_nonneg.2 h1.le); have a2 := mul_nonneg hz (neg_nonneg.2 h2.le)
    have x0 : x = 0 := by by_contra k; linarith [mul_pos (lt_of_le_of_ne hx (Ne.symm k)) (neg_pos.2 h0)]
    have y0 : y = 0 := by by_contra k; linarith [mul_pos (lt_of_le_of_ne hy (Ne.symm k)) (neg_pos.2 h1)]
    have z0 : z = 0 := by by_contra k; linarith [mul_pos (lt_of_le_of_ne hz (Ne.symm k)) (neg_pos.2 h2)]
    linarith
theorem fast_frustum (c : Cfg) (o v : Pt) (q : Quaternion ℝ) (r l t b n f d : ℝ) (hq : Quaternion.normSq q = 1) (hv : ValidFrustum r l t b n f) :
    BoundingFrustum.fastPlane c (BoundingFrustum.worldCorners c (frustumOf o q r l t b n f) (vec3 o (num 1)) (quat q)) (vec3 v (num d)) =
      (msk (∀ p ∈ frustum o q r l t b n f, 0 < planeAt v d p), msk (∀ p ∈ frustum o q r l t b n f, planeAt v d p < 0)) := by
  rw [fr_world _ _ _ _ _ _ _ _ c hq]
  have e1 : (∀ p ∈ frustum o q r l t b n f, 0 < planeAt v d p) ↔ ∀ u ∈ fcorners r l t b n f, -d < v ⬝ᵥ (o + rot q u) := by
    rw [frustum_forall]
    simp only [planeAt_loc hq]
    have := frustum0_lt hv (-rot (star q) v) (planeAt v d o)
    refine Iff.trans (forall₂_congr fun u _ => ?_) (this.trans (forall₂_congr fun u _ => ?_))
    · unfold planeAt; rw [neg_dotProduct]; constructor <;> intro h <;> linarith
    · unfold planeAt; rw [neg_dotProduct, dotProduct_add, dotProduct_comm v (rot q u), rot_adj hq, dotProduct_comm u]; constructor <;> intro h <;> linarith
  have e2 : (∀ p ∈ frustum o q r l t b n f, planeAt v d p < 0) ↔ ∀ u ∈ fcorners r l t b n f, v ⬝ᵥ (o + rot q u) < -d := by
    rw [frustum_forall]
    simp only [planeAt_loc hq]
    have := frustum0_lt hv (rot (star q) v) (-planeAt v d o)
    refine Iff.trans (forall₂_congr fun u _ => ?_) (this.trans (forall₂_congr fun u _ => ?_))
    · unfold planeAt; constructor <;> intro h <;> linarith
    · unfold planeAt; rw [dotProduct_add, dotProduct_comm v (rot q u), rot_adj hq, dotProduct_comm u]; constructor <;> intro h <;> linarith
  rw [e1, e2]
  simp only [fcorners, List.map_cons, List.map_nil, BoundingFrustum.fastPlane, FastIntersectFrustumPlane]
  geo
  simp only [lt_min_iff, max_lt_iff, List.forall_mem_cons, List.not_mem_nil, IsEmpty.forall_iff, implies_true, and_true, and_assoc]

/-! ### C81 -/

theorem C81_sphere (c : Cfg) (a n : Pt) (ρ d : ℝ) (hn : len n = 1) (hρ : 0 ≤ ρ) :
    BoundingSphere.IntersectsPlane c (sphereOf a ρ) (vec3 n (num d)) =
      if ∀ p ∈ ball a ρ, 0 < planeAt n d p then .FRONT else if ∀ p ∈ ball a ρ, planeAt n d p < 0 then .BACK else .INTERSECTING := by
  simp only [BoundingSphere.IntersectsPlane, sphereOf]
  geo
  exact plane_spec c _ n d (fast_sphere c a n ρ d hn hρ)
theorem C81_box (c : Cfg) (a e n : Pt) (d : ℝ) (he : ∀ i, 0 ≤ e i) :
    BoundingBox.IntersectsPlane c (boxOf a e) (vec3 n (num d)) =
      if ∀ p ∈ box a e, 0 < planeAt n d p then .FRONT else if ∀ p ∈ box a e, planeAt n d p < 0 then .BACK else .INTERSECTING := by
  simp only [BoundingBox.IntersectsPlane, boxOf]
  geo
  exact plane_spec c _ n d (fast_box c a e n d he _)
theorem C81_orientedBox (c : Cfg) (a e n : Pt) (q : Quaternion ℝ) (d : ℝ) (hq : Quaternion.normSq q = 1) (he : ∀ i, 0 ≤ e i) :
    BoundingOrientedBox.IntersectsPlane c (oboxOf a e q) (vec3 n (num d)) =
      if ∀ p ∈ obox a e q, 0 < planeAt n d p then .FRONT else if ∀ p ∈ obox a e q, planeAt n d p < 0 then .BACK else .INTERSECTING := by
  simp only [BoundingOrientedBox.IntersectsPlane, oboxOf, rm_r0, rm_r1, rm_r2]
  geo
  exact plane_spec c _ n d (fast_obox c a e n q d hq he _)
theorem C81_frustum (c : Cfg) (o v : Pt) (q : Quaternion ℝ) (r l t b n f d : ℝ) (hq : Quaternion.normSq q = 1) (hv : ValidFrustum r l t b n f) :
    BoundingFrustum.IntersectsPlane c (frustumOf o q r l t b n f) (vec3 v (num d)) =
      if ∀ p ∈ frustum o q r l t b n f, 0 < planeAt v d p then .FRONT
      else if ∀ p ∈ frustum o q r l t b n f, planeAt v d p < 0 then .BACK else .INTERSECTING := by
  simp only [BoundingFrustum.IntersectsPlane, fr_o, fr_q]
  geo
  exact plane_spec c _ v d (fast_frustum c o v q r l t b n f d hq hv)
theorem C81_triangle (c : Cfg) (v0 v1 v2 n : Pt) (d : ℝ) (w0 w1 w2 : E) :
    TriangleTests.IntersectsPlane c (vec3 v0 w0) (vec3 v1 w1) (vec3 v2 w2) (vec3 n (num d)) =
      if ∀ p ∈ tri v0 v1 v2, 0 < planeAt n d p then .FRONT else if ∀ p ∈ tri v0 v1 v2, planeAt n d p < 0 then .BACK else .INTERSECTING := by
  simp only [TriangleTests.IntersectsPlane]
  geo
  exact plane_spec c _ n d (fast_tri c v0 v1 v2 n d)

/-! concrete cases: a unit plane that cuts, and one that does not; the hypotheses hold and all outcomes occur -/
theorem len_e0 : len (![1, 0, 0] : Pt) = 1 := by simp [len, dotProduct, Fin.sum_univ_three]
example (c : Cfg) : BoundingSphere.IntersectsPlane c (sphereOf ![3, 0, 0] 2) (vec3 ![1, 0, 0] (num 0)) = .FRONT := by
  rw [C81_sphere c _ _ _ _ len_e0 (by norm_num), (plane_ball _ _ _ _ len_e0 (by norm_num)).1, if_pos]
  simp [planeAt, dotProduct, Fin.sum_univ_three]; norm_num
example (c : Cfg) : BoundingSphere.IntersectsPlane c (sphereOf ![2, 0, 0] 2) (vec3 ![1, 0, 0] (num 0)) = .INTERSECTING := by
  rw [C81_sphere c _ _ _ _ len_e0 (by norm_num), (plane_ball _ _ _ _ len_e0 (by norm_num)).1, (plane_ball _ _ _ _ len_e0 (by norm_num)).2, if_neg, if_neg]
  all_goals simp [planeAt, dotProduct, Fin.sum_univ_three]
example (c : Cfg) : BoundingBox.IntersectsPlane c (boxOf ![-3, 0, 0] ![2, 1, 1]) (vec3 ![1, 1/2, 0] (num 0)) = .BACK := by
  have he : ∀ i, (0 : ℝ) ≤ (![2, 1, 1] : Pt) i := by intro i; fin_cases i <;> simp
  rw [C81_box c _ _ _ _ he, (plane_box _ _ _ _ he).1, (plane_box _ _ _ _ he).2, if_neg, if_pos]
  all_goals simp [planeAt, dotProduct, Fin.sum_univ_three] <;> norm_num

example : ValidFrustum 1 (-1) 1 (-1) 1 10 := by norm_num [ValidFrustum]
example (c : Cfg) : BoundingFrustum.IntersectsPlane c (frustumOf 0 1 1 (-1) 1 (-1) 1 10) (vec3 ![0, 0, 1] (num (-1/2))) = .FRONT := by
  have hv : ValidFrustum 1 (-1) 1 (-1) 1 10 := by norm_num [ValidFrustum]
  rw [C81_frustum c _ _ _ _ _ _ _ _ _ _ (map_one _) hv, if_pos]
  rw [frustum_forall]
  intro u hu
  simp [frustum0] at hu
  simp [planeAt, rot_one, dotProduct, Fin.sum_univ_three]
  linarith
example (c : Cfg) : TriangleTests.IntersectsPlane c (vec3 ![0, 0, 0] ones) (vec3 ![1, 0, 0] ones) (vec3 ![0, 1, 0] ones) (vec3 ![1, 1, 1] (num (-1/2))) = .INTERSECTING := by
  rw [C81_triangle, if_neg, if_neg]
  · intro h; have := h _ (tri_mem1 _ _ _); simp [planeAt, dotProduct, Fin.sum_univ_three] at this; norm_num at this
  · intro h; have := h _ (tri_mem0 _ _ _); simp [planeAt, dotProduct, Fin.sum_univ_three] at this; norm_num at this

/-! ### C82 -/

/-- `ContainedBy` given the six planes `n k · p + d k`. -/
def sixOf (F : V4 E → V4 E → V4 E → V4 E → V4 E → V4 E → ContainmentType) (n : Fin 6 → Pt) (d : Fin 6 → ℝ) : ContainmentType :=
  F (vec3 (n 0) (num (d 0))) (vec3 (n 1) (num (d 1))) (vec3 (n 2) (num (d 2))) (vec3 (n 3) (num (d 3))) (vec3 (n 4) (num (d 4))) (vec3 (n 5) (num (d 5)))

theorem C82_sphere (c : Cfg) (a : Pt) (ρ : ℝ) (n : Fin 6 → Pt) (d : Fin 6 → ℝ) (hn : ∀ k, len (n k) = 1) (hρ : 0 ≤ ρ) :
    (sixOf (BoundingSphere.ContainedBy c (sphereOf a ρ)) n d = .DISJOINT ↔ ∃ k, ∀ p ∈ ball a ρ, 0 < planeAt (n k) (d k) p) ∧
    (sixOf (BoundingSphere.ContainedBy c (sphereOf a ρ)) n d = .CONTAINS ↔ ∀ k, ∀ p ∈ ball a ρ, planeAt (n k) (d k) p < 0) := by
  simp only [sixOf, BoundingSphere.ContainedBy, sphereOf]
  geo
  exact six_spec c _ ⟨a, by rw [mem_ball, sub_self, len_zero]; exact hρ⟩ _ n d (fun k => fast_sphere c a (n k) ρ (d k) (hn k) hρ)
theorem C82_box (c : Cfg) (a e : Pt) (n : Fin 6 → Pt) (d : Fin 6 → ℝ) (he : ∀ i, 0 ≤ e i) :
    (sixOf (BoundingBox.ContainedBy c (boxOf a e)) n d = .DISJOINT ↔ ∃ k, ∀ p ∈ box a e, 0 < planeAt (n k) (d k) p) ∧
    (sixOf (BoundingBox.ContainedBy c (boxOf a e)) n d = .CONTAINS ↔ ∀ k, ∀ p ∈ box a e, planeAt (n k) (d k) p < 0) := by
  simp only [sixOf, BoundingBox.ContainedBy, boxOf]
  geo
  exact six_spec c _ (box_nonempty he) _ n d (fun k => fast_box c a e (n k) (d k) he _)
theorem C82_orientedBox (c : Cfg) (a e : Pt) (q : Quaternion ℝ) (n : Fin 6 → Pt) (d : Fin 6 → ℝ) (hq : Quaternion.normSq q = 1) (he : ∀ i, 0 ≤ e i) :
    (sixOf (BoundingOrientedBox.ContainedBy c (oboxOf a e q)) n d = .DISJOINT ↔ ∃ k, ∀ p ∈ obox a e q, 0 < planeAt (n k) (d k) p) ∧
    (sixOf (BoundingOrientedBox.ContainedBy c (oboxOf a e q)) n d = .CONTAINS ↔ ∀ k, ∀ p ∈ obox a e q, planeAt (n k) (d k) p < 0) := by
  simp only [sixOf, BoundingOrientedBox.ContainedBy, oboxOf, rm_r0, rm_r1, rm_r2]
  geo
  obtain ⟨p, hp, -⟩ := obox_extreme hq a e he 0
  exact six_spec c _ ⟨p, hp⟩ _ n d (fun k => fast_obox c a e (n k) q (d k) hq he _)
theorem C82_frustum (c : Cfg) (o : Pt) (q : Quaternion ℝ) (r l t b nr f : ℝ) (n : Fin 6 → Pt) (d : Fin 6 → ℝ) (hq : Quaternion.normSq q = 1)
    (hv : ValidFrustum r l t b nr f) :
    (sixOf (BoundingFrustum.ContainedBy c (frustumOf o q r l t b nr f)) n d = .DISJOINT ↔ ∃ k, ∀ p ∈ frustum o q r l t b nr f, 0 < planeAt (n k) (d k) p) ∧
    (sixOf (BoundingFrustum.ContainedBy c (frustumOf o q r l t b nr f)) n d = .CONTAINS ↔ ∀ k, ∀ p ∈ frustum o q r l t b nr f, planeAt (n k) (d k) p < 0) := by
  simp only [sixOf, BoundingFrustum.ContainedBy, fr_o, fr_q]
  geo
  exact six_spec c _ (frustum_nonempty hv) _ n d (fun k => fast_frustum c o (n k) q r l t b nr f (d k) hq hv)
theorem C82_triangle (c : Cfg) (v0 v1 v2 : Pt) (w0 w1 w2 : E) (n : Fin 6 → Pt) (d : Fin 6 → ℝ) :
    (sixOf (TriangleTests.ContainedBy c (vec3 v0 w0) (vec3 v1 w1) (vec3 v2 w2)) n d = .DISJOINT ↔ ∃ k, ∀ p ∈ tri v0 v1 v2, 0 < planeAt (n k) (d k) p) ∧
    (sixOf (TriangleTests.ContainedBy c (vec3 v0 w0) (vec3 v1 w1) (vec3 v2 w2)) n d = .CONTAINS ↔ ∀ k, ∀ p ∈ tri v0 v1 v2, planeAt (n k) (d k) p < 0) := by
  simp only [sixOf, TriangleTests.ContainedBy]
  geo
  exact six_spec c _ ⟨_, tri_mem0 v0 v1 v2⟩ _ n d (fun k => fast_tri c v0 v1 v2 (n k) (d k))

/-- the six face planes of the cube `[-1, 1]³`, pointing outwards -/
def cubeN : Fin 6 → Pt := ![![1, 0, 0], ![-1, 0, 0], ![0, 1, 0], ![0, -1, 0], ![0, 0, 1], ![0, 0, -1]]
example (c : Cfg) : sixOf (BoundingSphere.ContainedBy c (sphereOf ![1/4, 0, 0] (1/2))) cubeN (fun _ => -1) = .CONTAINS := by
  have hn : ∀ k, len (cubeN k) = 1 := by intro k; fin_cases k <;> simp [cubeN, len, dotProduct, Fin.sum_univ_three]
  rw [(C82_sphere c _ _ _ _ hn (by norm_num)).2]
  intro k
  rw [(plane_ball _ _ _ _ (hn k) (by norm_num)).2]
  fin_cases k <;> simp [cubeN, planeAt, dotProduct, Fin.sum_univ_three] <;> norm_num
example (c : Cfg) : sixOf (BoundingBox.ContainedBy c (boxOf ![3, 0, 0] ![1, 1, 1])) cubeN (fun _ => -1) = .DISJOINT := by
  have he : ∀ i, (0 : ℝ) ≤ (![1, 1, 1] : Pt) i := by intro i; fin_cases i <;> simp
  rw [(C82_box c _ _ _ _ he).1]
  refine ⟨0, ?_⟩
  rw [(plane_box _ _ _ _ he).1]
  simp [cubeN, planeAt, dotProduct, Fin.sum_univ_three] <;> norm_num

end DXM.Props
