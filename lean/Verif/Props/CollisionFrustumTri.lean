import Verif.Props.CollisionFrustumFr

/-
C91: the frustum-triangle test.
-/

set_option linter.all false

namespace DXM.Props
open DXM.E DXM.Spec DXM.RG DXM.Geo Matrix Classical

theorem forall3 {p : Fin 3 → Prop} : (∀ i, p i) ↔ p 0 ∧ p 1 ∧ p 2 := by
  rw [Fin.forall_fin_succ, Fin.forall_fin_two]; rfl
theorem sat_if'' (a b d e : Prop) [Decidable a] [Decidable b] [Decidable d] [Decidable (d ∨ e)] :
    ((if a then false else if b then true else if d then false else if d ∨ e then false else true) = true) ↔ ¬ a ∧ (b ∨ (¬ d ∧ ¬ e)) := by
  by_cases a <;> by_cases b <;> by_cases d <;> by_cases e <;> simp [*]

set_option maxHeartbeats 800000 in
theorem ft_eval (c : Cfg) (o v0 v1 v2 : Pt) (w0 w1 w2 : E) (q : Quaternion ℝ) (r l t b n f : ℝ) (hq : Quaternion.normSq q = 1) :
    (BoundingFrustum.IntersectsTriangle c (frustumOf o q r l t b n f) (vec3 v0 w0) (vec3 v1 w1) (vec3 v2 w2) = true) ↔
      let U := fun i => rot (star q) (![v0, v1, v2] i - o)
      let V : Fin 3 → Pt := ![v0, v1, v2]
      let N := crossProduct (v1 - v0) (v2 - v0)
      (¬ ∃ P ∈ fplanes r l t b n f, ∀ i, P.2 < P.1 ⬝ᵥ U i) ∧
      ((∀ P ∈ fplanes r l t b n f, ∀ i, P.1 ⬝ᵥ U i ≤ P.2) ∨
        (¬ ((∀ u ∈ fcorners r l t b n f, N ⬝ᵥ v0 < N ⬝ᵥ u) ∨ (∀ u ∈ fcorners r l t b n f, N ⬝ᵥ u < N ⬝ᵥ v0))) ∧
        ¬ ∃ E ∈ [v1 - v0, v2 - v1, v0 - v2], ∃ E' ∈ fedges r l t b,
          (∀ u ∈ fcorners r l t b n f, ∀ i, crossProduct E E' ⬝ᵥ u < crossProduct E E' ⬝ᵥ V i) ∨
          (∀ u ∈ fcorners r l t b n f, ∀ i, crossProduct E E' ⬝ᵥ V i < crossProduct E E' ⬝ᵥ u)) := by
  have n1 : (Lane.cNeg1 : E) = num (-1) := by simp
  simp only [BoundingFrustum.IntersectsTriangle, fr_o, fr_q, fr_corners, fr_edges, fr_n, fr_f, fr_r, fr_l, fr_t, fr_b]
  geo
  simp only [n1, v_set]
  have hB : [vec3 ![0, 0, -1] (num (-n)), vec3 ![0, 0, 1] (num f), vec3 ![1, 0, -r] (num 0), vec3 ![-1, 0, l] (num 0), vec3 ![0, 1, -t] (num 0),
      vec3 ![0, -1, b] (num 0)] = (fplanes r l t b n f).map fun P => vec3 P.1 (num P.2) := by
    simp only [fplanes, List.map_cons, List.map_nil]
  have hE : [vec3 (v1 - v0) (Lane.sub w1 w0), vec3 (v2 - v1) (Lane.sub w2 w1), vec3 (v0 - v2) (Lane.sub w0 w2)] =
      [(v1 - v0, Lane.sub w1 w0), (v2 - v1, Lane.sub w2 w1), (v0 - v2, Lane.sub w0 w2)].map fun e => vec3 e.1 e.2 := rfl
  simp only [hB, hE, List.foldl_map]
  have hL : fcorners r l t b n f ≠ [] := by simp [fcorners]
  generalize fcorners r l t b n f = LB at *
  rw [v_false, fold_pair _ _ (fun P => ∀ i, P.2 < P.1 ⬝ᵥ rot (star q) (![v0, v1, v2] i - o)) (fun P => ∀ i, P.1 ⬝ᵥ rot (star q) (![v0, v1, v2] i - o) ≤ P.2)]
  rotate_left
  · intro x y P hP
    geo
    refine Prod.ext ?_ ?_
    · simp only; congr 1; refine propext (or_congr Iff.rfl ?_)
      rw [forall3]; simp only [lt_min_iff, dotProduct_comm _ P.1, and_assoc, cons_val_zero, cons_val_one, cons_val]
    · simp only; congr 1; refine propext (and_congr Iff.rfl ?_)
      rw [forall3]; simp only [max_le_iff, dotProduct_comm _ P.1, and_assoc, cons_val_zero, cons_val_one, cons_val]
  obtain ⟨mn, mx, e1, e2, e3, e4, e5⟩ := minMax_s' (fun u : V4 E => XMVector3Dot c u (vec3 (crossProduct (v1 - v0) (v2 - v0)) (num 0))) (fun u => crossProduct (v1 - v0) (v2 - v0) ⬝ᵥ u) (num 0) LB hL
    (fun u => by geo; rw [dotProduct_comm])
  rw [e1]
  geo
  rw [fold_or _ _ (fun E => ∃ E' ∈ fedges r l t b,
                (∀ u ∈ LB, ∀ (i : Fin 3), (crossProduct E.1) E' ⬝ᵥ u < (crossProduct E.1) E' ⬝ᵥ ![v0, v1, v2] i) ∨
                  ∀ u ∈ LB, ∀ (i : Fin 3), (crossProduct E.1) E' ⬝ᵥ ![v0, v1, v2] i < (crossProduct E.1) E' ⬝ᵥ u)]
  rotate_left
  · intro x Ed hE
    refine fold_or _ _ _ _ ?_
    intro x Ed' hE'
    obtain ⟨mn', mx', e1', e2', e3', e4', e5'⟩ := minMax_s' (fun u : V4 E => XMVector3Dot c (vec3 (crossProduct Ed.1 Ed') (num 0)) u) (fun u => crossProduct Ed.1 Ed' ⬝ᵥ u) (num 0) LB hL (fun u => by geo)
    rw [e1']
    geo
    congr 1
    refine propext ?_
    rw [or_assoc]
    refine or_congr Iff.rfl (or_congr ?_ ?_)
    · rw [e3']; refine forall₂_congr fun u hu => ?_
      rw [forall3]; simp only [lt_min_iff, dotProduct_comm _ (crossProduct Ed.1 Ed'), and_assoc, cons_val_zero, cons_val_one, cons_val]
    · rw [e2']; refine forall₂_congr fun u hu => ?_
      rw [forall3]; simp only [max_lt_iff, dotProduct_comm _ (crossProduct Ed.1 Ed'), and_assoc, cons_val_zero, cons_val_one, cons_val]
  simp only [m_eq4, false_or, true_and, e2, e3]
  have e3 : ∀ p : Pt → Prop, (∃ i ∈ [(v1 - v0, Lane.sub w1 w0), (v2 - v1, Lane.sub w2 w1), (v0 - v2, Lane.sub w0 w2)], p i.1) ↔ ∃ E ∈ [v1 - v0, v2 - v1, v0 - v2], p E := by
    intro p; simp
  rw [← e3 (fun E => ∃ E' ∈ fedges r l t b,
                (∀ u ∈ LB, ∀ (i : Fin 3), (crossProduct E) E' ⬝ᵥ u < (crossProduct E) E' ⬝ᵥ ![v0, v1, v2] i) ∨
                  ∀ u ∈ LB, ∀ (i : Fin 3), (crossProduct E) E' ⬝ᵥ ![v0, v1, v2] i < (crossProduct E) E' ⬝ᵥ u)]
  exact sat_if'' _ _ _ _

theorem tri_lt (v0 v1 v2 m : Pt) (d : ℝ) : (∀ p ∈ tri v0 v1 v2, m ⬝ᵥ p < d) ↔ ∀ i, m ⬝ᵥ ![v0, v1, v2] i < d := by
  rw [forall3]
  simp only [cons_val_zero, cons_val_one, cons_val]
  constructor
  · intro h; exact ⟨h _ (tri_mem0 ..), h _ (tri_mem1 ..), h _ (tri_mem2 ..)⟩
  · rintro ⟨h0, h1, h2⟩ p ⟨x, y, z, hx, hy, hz, hs, rfl⟩
    simp only [dotProduct_add, dotProduct_smul, smul_eq_mul]
    have : d = x * d + y * d + z * d := by rw [← add_mul, ← add_mul, hs, one_mul]
    rw [this]
    rcases lt_or_eq_of_le hx with hx | hx
    · have := mul_lt_mul_of_pos_left h0 hx
      have := mul_le_mul_of_nonneg_left h1.le hy
      have := mul_le_mul_of_nonneg_left h2.le hz
      linarith
    · rcases lt_or_eq_of_le hy with hy | hy
      · have := mul_le_mul_of_nonneg_left h0.le hx.le
        have := mul_lt_mul_of_pos_left h1 hy
        have := mul_le_mul_of_nonneg_left h2.le hz
        linarith
      · have : z = 1 := by linarith
        subst this; rw [← hx, ← hy]; linarith
theorem tri_gt (v0 v1 v2 m : Pt) (d : ℝ) : (∀ p ∈ tri v0 v1 v2, d < m ⬝ᵥ p) ↔ ∀ i, d < m ⬝ᵥ ![v0, v1, v2] i := by
  have := tri_lt v0 v1 v2 (-m) (-d)
  simpa only [neg_dotProduct, neg_lt_neg_iff] using this
theorem sep_tri (S : Set Pt) (v0 v1 v2 m : Pt) :
    (Sep S (tri v0 v1 v2) m ↔ ∀ u ∈ S, ∀ i, m ⬝ᵥ u < m ⬝ᵥ ![v0, v1, v2] i) ∧
    (Sep (tri v0 v1 v2) S m ↔ ∀ u ∈ S, ∀ i, m ⬝ᵥ ![v0, v1, v2] i < m ⬝ᵥ u) := by
  constructor
  · exact forall₂_congr fun u _ => tri_gt v0 v1 v2 m _
  · constructor
    · intro h u hu; exact (tri_lt v0 v1 v2 m _).1 fun y hy => h y hy u hu
    · intro h x hx u hu; exact (tri_lt v0 v1 v2 m _).2 (h u hu) x hx
/-- The normal is constant on the triangle. -/
theorem tri_normal (v0 v1 v2 : Pt) (i : Fin 3) : crossProduct (v1 - v0) (v2 - v0) ⬝ᵥ ![v0, v1, v2] i = crossProduct (v1 - v0) (v2 - v0) ⬝ᵥ v0 := by
  fin_cases i <;> simp [crossProduct, dotProduct, Fin.sum_univ_three] <;> ring

/-- The test against a triangle is exact for a frustum with its apex at the origin that looks along +z. -/
theorem C91_triangle_partial (c : Cfg) (v0 v1 v2 : Pt) (w0 w1 w2 : E) (r l t b n f : ℝ) (hv : ValidFrustum r l t b n f) (hlr : l ≠ r) (hbt : b ≠ t) :
    BoundingFrustum.IntersectsTriangle c (frustumOf 0 1 r l t b n f) (vec3 v0 w0) (vec3 v1 w1) (vec3 v2 w2) = true ↔
      (frustum 0 1 r l t b n f ∩ tri v0 v1 v2).Nonempty := by
  have f0 : frustum 0 1 r l t b n f = frustum0 r l t b n f := by
    ext p; rw [mem_frustum (map_one _)]; simp [rot_one]
  rw [ft_eval c 0 v0 v1 v2 w0 w1 w2 1 r l t b n f (map_one _), f0]
  simp only [star_one, rot_one, sub_zero]
  have sN : (Sep (tri v0 v1 v2) (frustum0 r l t b n f) (crossProduct (v1 - v0) (v2 - v0)) ↔
      ∀ u ∈ fcorners r l t b n f, crossProduct (v1 - v0) (v2 - v0) ⬝ᵥ v0 < crossProduct (v1 - v0) (v2 - v0) ⬝ᵥ u) := by
    rw [(sep_tri _ _ _ _ _).2]; simp only [tri_normal, forall_const]; exact frustum0_gt hv _ _
  have sN' : (Sep (frustum0 r l t b n f) (tri v0 v1 v2) (crossProduct (v1 - v0) (v2 - v0)) ↔
      ∀ u ∈ fcorners r l t b n f, crossProduct (v1 - v0) (v2 - v0) ⬝ᵥ u < crossProduct (v1 - v0) (v2 - v0) ⬝ᵥ v0) := by
    rw [(sep_tri _ _ _ _ _).1]; simp only [tri_normal, forall_const]; exact frustum0_lt hv _ _
  have sE : ∀ m, (Sep (frustum0 r l t b n f) (tri v0 v1 v2) m ↔ ∀ u ∈ fcorners r l t b n f, ∀ i, m ⬝ᵥ u < m ⬝ᵥ ![v0, v1, v2] i) := by
    intro m; rw [(sep_tri _ _ _ _ _).1]
    exact ⟨fun h u hu i => (frustum0_lt hv m _).1 (fun x hx => h x hx i) u hu, fun h u hu i => (frustum0_lt hv m _).2 (fun x hx => h x hx i) u hu⟩
  have sE' : ∀ m, (Sep (tri v0 v1 v2) (frustum0 r l t b n f) m ↔ ∀ u ∈ fcorners r l t b n f, ∀ i, m ⬝ᵥ ![v0, v1, v2] i < m ⬝ᵥ u) := by
    intro m; rw [(sep_tri _ _ _ _ _).2]
    exact ⟨fun h u hu i => (frustum0_gt hv m _).1 (fun x hx => h x hx i) u hu, fun h u hu i => (frustum0_gt hv m _).2 (fun x hx => h x hx i) u hu⟩
  have sP : ∀ P ∈ fplanes r l t b n f, (Sep (frustum0 r l t b n f) (tri v0 v1 v2) P.1 ↔ ∀ i, P.2 < P.1 ⬝ᵥ ![v0, v1, v2] i) := by
    intro P hP; rw [sep_face hv hP]; exact tri_gt _ _ _ _ _
  constructor
  · rintro ⟨h1, h2 | ⟨h2, h3⟩⟩
    · exact ⟨v0, mem_frustum0.2 fun P hP => h2 P hP 0, tri_mem0 ..⟩
    · by_contra hd
      rw [poly_sat (supp_frustum0 hv hlr hbt) (supp_tri v0 v1 v2) frustum0_convex (frustum0_compact hv)
        (tri_convex ..) (tri_compact ..) (Or.inl trivial)] at hd
      rcases hd with ⟨m, ⟨P, hP, rfl⟩, k⟩ | ⟨m, rfl | rfl, k⟩ | ⟨E', hE', E, hE, k⟩
      · exact h1 ⟨P, hP, (sP P hP).1 k⟩
      · exact h2 (Or.inl (sN.1 k))
      · rw [sep_neg] at k; exact h2 (Or.inr (sN'.1 k))
      · rw [← cross_anticomm E E', sep_neg, sep_neg] at k
        refine h3 ⟨E, by rcases hE with rfl | rfl | rfl <;> simp, E', hE', ?_⟩
        rcases k with k | k
        · exact Or.inr ((sE' _).1 k)
        · exact Or.inl ((sE _).1 k)
  · intro h
    refine ⟨?_, Or.inr ⟨?_, ?_⟩⟩
    · rintro ⟨P, hP, k⟩; exact Sep.disj ((sP P hP).2 k) h
    · rintro (k | k)
      · exact Sep.disj' (sN.2 k) h
      · exact Sep.disj (sN'.2 k) h
    · rintro ⟨E, hE, E', hE', k | k⟩
      · exact Sep.disj ((sE _).2 k) h
      · exact Sep.disj' ((sE' _).2 k) h

/-- A triangle with its three vertices in the frustum is found for every position and orientation of the frustum. -/
theorem C91_triangleInside (c : Cfg) (o v0 v1 v2 : Pt) (w0 w1 w2 : E) (q : Quaternion ℝ) (r l t b n f : ℝ) (hq : Quaternion.normSq q = 1)
    (hv : ValidFrustum r l t b n f) (h : ∀ i, ![v0, v1, v2] i ∈ frustum o q r l t b n f) :
    BoundingFrustum.IntersectsTriangle c (frustumOf o q r l t b n f) (vec3 v0 w0) (vec3 v1 w1) (vec3 v2 w2) = true := by
  rw [ft_eval c o v0 v1 v2 w0 w1 w2 q r l t b n f hq]
  have k : ∀ P ∈ fplanes r l t b n f, ∀ i, P.1 ⬝ᵥ rot (star q) (![v0, v1, v2] i - o) ≤ P.2 := by
    intro P hP i; exact mem_frustum0.1 ((mem_frustum hq).1 (h i)) P hP
  exact ⟨fun ⟨P, hP, hh⟩ => absurd (hh 0) (not_lt.2 (k P hP 0)), Or.inl k⟩

/-- For a frustum elsewhere the test can miss: this triangle cuts across the frustum with apex (0, 0, 10), and no build finds it
(the source goes on with the vertices as given instead of the transformed ones). -/
theorem C91_triangle_fails (c : Cfg) :
    (frustum ![0, 0, 10] 1 1 (-1) 1 (-1) 1 2 ∩ tri ![-100, -100, 11.5] ![100, -100, 11.5] ![0, 100, 11.5]).Nonempty ∧
    BoundingFrustum.IntersectsTriangle c (frustumOf ![0, 0, 10] 1 1 (-1) 1 (-1) 1 2)
      (vec3 ![-100, -100, 11.5] (num 0)) (vec3 ![100, -100, 11.5] (num 0)) (vec3 ![0, 100, 11.5] (num 0)) = false := by
  constructor
  · refine ⟨![0, 0, 11.5], ?_, 1/4, 1/4, 1/2, by norm_num, by norm_num, by norm_num, by norm_num, ?_⟩
    · rw [mem_frustum (map_one _)]
      simp [rot_one, frustum0]; norm_num
    · ext i; fin_cases i <;> simp <;> norm_num
  · rw [← Bool.not_eq_true, ft_eval c _ _ _ _ _ _ _ 1 _ _ _ _ _ _ (map_one _)]
    simp only [star_one, rot_one]
    rintro ⟨-, h | ⟨h, -⟩⟩
    · have := h (![1, 0, -1], 0) (by simp [fplanes]) 1
      revert this
      simp [dotProduct, Fin.sum_univ_three]; norm_num
    · refine h (Or.inr fun u hu => ?_)
      have : u 2 ≤ 2 := by
        simp only [fcorners, List.mem_cons, List.not_mem_nil, or_false] at hu
        rcases hu with rfl | rfl | rfl | rfl | rfl | rfl | rfl | rfl <;> simp
      have e : crossProduct (![100, -100, 11.5] - ![-100, -100, 11.5]) (![0, 100, 11.5] - ![-100, -100, 11.5]) = (![0, 0, 40000] : Pt) := by
        ext i; fin_cases i <;> simp [crossProduct] <;> norm_num
      rw [e]
      simp [dotProduct, Fin.sum_univ_three]; linarith

example : ValidFrustum 1 (-1) 1 (-1) 1 10 ∧ (-1 : ℝ) ≠ 1 := by constructor <;> norm_num [ValidFrustum]
/-- A triangle far to the side. -/
example (c : Cfg) : BoundingFrustum.IntersectsTriangle c (frustumOf 0 1 1 (-1) 1 (-1) 1 10) (vec3 ![20, 0, 5] ones) (vec3 ![21, 0, 5] ones) (vec3 ![20, 1, 6] ones) = false := by
  rw [← Bool.not_eq_true, C91_triangle_partial c _ _ _ _ _ _ _ _ _ _ _ _ (by norm_num [ValidFrustum]) (by norm_num) (by norm_num)]
  rintro ⟨p, h1, x, y, z, hx, hy, hz, hs, rfl⟩
  rw [mem_frustum (map_one _)] at h1
  simp [rot_one, frustum0] at h1
  linarith [h1.1, h1.2.2.2.1]

end DXM.Props
