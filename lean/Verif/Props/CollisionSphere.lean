import Verif.Lemmas.Geo
import Verif.Lemmas.RealGeo
import Verif.Model.CollisionBox

/-
C69-C72, C77, C78: bounding spheres.  Exact-real lanes; points given by the caller are `vec3 p w` with any fourth lane `w`.
-/

set_option linter.all false

namespace DXM.Props
open DXM.E DXM.Spec DXM.RG DXM.Geo Matrix Classical

/-! ### C69 -/

/-- A point is reported contained exactly when it lies in the closed ball, and disjoint otherwise. -/
theorem C69_containsPoint (c : Cfg) (a p : Pt) (r : ℝ) (w : E) (hr : 0 ≤ r) :
    BoundingSphere.ContainsPoint c (sphereOf a r) (vec3 p w) = if p ∈ ball a r then .CONTAINS else .DISJOINT := by
  simp only [BoundingSphere.ContainsPoint, sphereOf]
  geo
  simp only [mem_ball, len_le_iff hr]

example (c : Cfg) (w : E) : BoundingSphere.ContainsPoint c (sphereOf ![1, 2, 3] 2) (vec3 ![1, 2, 5] w) = .CONTAINS := by
  rw [C69_containsPoint c _ _ _ _ (by norm_num), if_pos]
  rw [mem_ball, len_le_iff (by norm_num)]; simp [dot3]; norm_num
example (c : Cfg) (w : E) : BoundingSphere.ContainsPoint c (sphereOf ![1, 2, 3] 2) (vec3 ![1, 3, 5] w) = .DISJOINT := by
  rw [C69_containsPoint c _ _ _ _ (by norm_num), if_neg]
  rw [mem_ball, len_le_iff (by norm_num)]; simp [dot3]; norm_num

/-! ### C70 -/

/-- Two spheres intersect exactly when the closed balls share a point. -/
theorem C70_intersects (c : Cfg) (a b : Pt) (r s : ℝ) (hr : 0 ≤ r) (hs : 0 ≤ s) :
    BoundingSphere.IntersectsSphere c (sphereOf a r) (sphereOf b s) = true ↔ (ball a r ∩ ball b s).Nonempty := by
  rw [ball_inter a b r s hr hs, len_le_iff (add_nonneg hr hs)]
  simp only [BoundingSphere.IntersectsSphere, sphereOf]
  geo

/-- The answer does not depend on the order of the spheres (any radii). -/
theorem C70_symm (c : Cfg) (a b : Pt) (r s : ℝ) :
    BoundingSphere.IntersectsSphere c (sphereOf a r) (sphereOf b s) = BoundingSphere.IntersectsSphere c (sphereOf b s) (sphereOf a r) := by
  rw [Bool.eq_iff_iff]
  simp only [BoundingSphere.IntersectsSphere, sphereOf]
  geo
  rw [show (b - a) ⬝ᵥ (b - a) = (a - b) ⬝ᵥ (a - b) by rw [← neg_sub a b, neg_dotProduct, dotProduct_neg, neg_neg], add_comm r s]

/-- Sphere-sphere containment: CONTAINS exactly for a subset, DISJOINT exactly when no point is shared. -/
theorem C70_contains (c : Cfg) (a b : Pt) (r s : ℝ) (hr : 0 ≤ r) (hs : 0 ≤ s) :
    (BoundingSphere.ContainsSphere c (sphereOf a r) (sphereOf b s) = .CONTAINS ↔ ball b s ⊆ ball a r) ∧
    (BoundingSphere.ContainsSphere c (sphereOf a r) (sphereOf b s) = .DISJOINT ↔ ball a r ∩ ball b s = ∅) := by
  rw [← Set.not_nonempty_iff_eq_empty, ball_inter a b r s hr hs, ball_subset a b r s hs]
  simp only [BoundingSphere.ContainsSphere, sphereOf]
  geo
  constructor <;> split_ifs <;> simp <;> linarith

example (c : Cfg) : BoundingSphere.ContainsSphere c (sphereOf ![0, 0, 0] 5) (sphereOf ![3, 0, 0] 2) = .CONTAINS := by
  rw [(C70_contains c _ _ _ _ (by norm_num) (by norm_num)).1, ball_subset _ _ _ _ (by norm_num)]
  rw [← le_sub_iff_add_le, len_le_iff (by norm_num)]; simp [dot3]; norm_num

/-! ### C71 -/

/-- The merged sphere contains both spheres, no sphere containing both has a smaller radius, and any sphere containing both with
the same radius is the same sphere. -/
theorem C71_merged (c : Cfg) (a b : Pt) (r s : ℝ) (hr : 0 ≤ r) (hs : 0 ≤ s) :
    ∃ m ρ, BoundingSphere.CreateMerged c (sphereOf a r) (sphereOf b s) = sphereOf m ρ ∧ 0 ≤ ρ ∧
      ball a r ⊆ ball m ρ ∧ ball b s ⊆ ball m ρ ∧
      ∀ m' ρ', ball a r ⊆ ball m' ρ' → ball b s ⊆ ball m' ρ' → ρ ≤ ρ' ∧ (ρ' = ρ → m' = m) := by
  have one : ∀ (a' b' : Pt) (r' s' : ℝ), 0 ≤ r' → len (b' - a') ≤ r' - s' → 0 ≤ s' → ball b' s' ⊆ ball a' r' ∧
      ∀ m' ρ', ball a' r' ⊆ ball m' ρ' → r' ≤ ρ' ∧ (ρ' = r' → m' = a') := by
    intro a' b' r' s' hr' h hs'
    refine ⟨(ball_subset _ _ _ _ hs').2 (by linarith), fun m' ρ' h1 => ?_⟩
    rw [ball_subset _ _ _ _ hr'] at h1
    have := len_nonneg (a' - m')
    refine ⟨by linarith, fun e => ?_⟩
    have : len (a' - m') = 0 := by linarith
    exact (sub_eq_zero.1 (len_eq_zero.1 this)).symm
  simp only [BoundingSphere.CreateMerged, sphereOf]
  geo
  have hd := len_nonneg (b - a)
  split_ifs with h1 h2
  · obtain ⟨g1, g2⟩ := one a b r s hr h1.2 hs
    exact ⟨a, r, rfl, hr, subset_rfl, g1, fun m' ρ' k1 _ => g2 m' ρ' k1⟩
  · obtain ⟨g1, g2⟩ := one b a s r hs (by rw [len_sub_comm]; exact h2.2) hr
    exact ⟨b, s, rfl, hs, g1, subset_rfl, fun m' ρ' _ k2 => g2 m' ρ' k2⟩
  · have e1 : r - s < len (b - a) := by by_contra h; push Not at h; exact h1 ⟨by linarith, h⟩
    have e2 : s - r < len (b - a) := by by_contra h; push Not at h; exact h2 ⟨by linarith, h⟩
    have hpos : 0 < len (b - a) := by linarith
    have hne : b - a ≠ 0 := fun h => by rw [h, len_zero] at hpos; exact lt_irrefl _ hpos
    rw [v_div _ _ _ hpos.ne', min_eq_left (by linarith), max_eq_right (by linarith)]
    geo
    set d := len (b - a) with hdef
    set n : Pt := d⁻¹ • (b - a) with hn
    have hn1 : len n = 1 := len_unit hne
    have hba : b - a = d • n := by rw [hn, smul_smul, mul_inv_cancel₀ hpos.ne', one_smul]
    set ρ := (d + s - -r) * (1/2) with hρ
    refine ⟨a + (ρ + -r) • n, ρ, rfl, by rw [hρ]; linarith, ?_, ?_, ?_⟩
    · rw [ball_subset _ _ _ _ hr]
      rw [show a - (a + (ρ + -r) • n) = (-(ρ + -r)) • n by module, len_smul, hn1, mul_one, abs_neg, abs_of_nonneg (by rw [hρ]; linarith)]
      linarith
    · rw [ball_subset _ _ _ _ hs]
      rw [show b - (a + (ρ + -r) • n) = (b - a) - (ρ + -r) • n by module, hba, ← sub_smul, len_smul, hn1, mul_one,
        abs_of_nonneg (by rw [hρ]; linarith)]
      rw [hρ]; linarith
    · intro m' ρ' k1 k2
      have p1 : a - r • n ∈ ball m' ρ' := k1 (by
        rw [mem_ball, show a - r • n - a = (-r) • n by module, len_smul, hn1, mul_one, abs_neg, abs_of_nonneg hr])
      have p2 : b + s • n ∈ ball m' ρ' := k2 (by
        rw [mem_ball, show b + s • n - b = s • n by module, len_smul, hn1, mul_one, abs_of_nonneg hs])
      have e : (b + s • n) - (a - r • n) = (2 * ρ) • n := by
        rw [show (b + s • n) - (a - r • n) = (b - a) + (s + r) • n by module, hba, ← add_smul]; congr 1; rw [hρ]; ring
      have el : len ((b + s • n) - (a - r • n)) = 2 * ρ := by
        rw [e, len_smul, hn1, mul_one, abs_of_nonneg (by rw [hρ]; linarith)]
      refine ⟨?_, ?_⟩
      · have := two_points p1 p2; linarith
      · rintro rfl
        rw [mid_unique p1 p2 el]
        have hb : b = a + d • n := by rw [← hba]; module
        rw [hb]
        ext i; simp only [Pi.smul_apply, Pi.add_apply, Pi.sub_apply, smul_eq_mul, hρ]; ring

/-- Two unit spheres four apart merge into the sphere of radius 3 at the midpoint. -/
example (c : Cfg) : ∃ m ρ, BoundingSphere.CreateMerged c (sphereOf ![0, 0, 0] 1) (sphereOf ![4, 0, 0] 1) = sphereOf m ρ ∧ ρ ≤ 3 := by
  obtain ⟨m, ρ, h, -, -, -, hm⟩ := C71_merged c ![0, 0, 0] ![4, 0, 0] 1 1 (by norm_num) (by norm_num)
  refine ⟨m, ρ, h, (hm ![2, 0, 0] 3 ?_ ?_).1⟩ <;>
    rw [ball_subset _ _ _ _ (by norm_num), ← le_sub_iff_add_le, len_le_iff (by norm_num)] <;> simp [dot3] <;> norm_num

/-! ### C72 -/

theorem grow_step (c : Cfg) (m p : Pt) (w : E) (ρ : ℝ) (hρ : 0 ≤ ρ) :
    ∃ m' w' ρ', BoundingSphere.grow c (vec3 m w, all ρ) (vec3 p (num 0)) = (vec3 m' w', all ρ') ∧ 0 ≤ ρ' ∧
      ball m ρ ⊆ ball m' ρ' ∧ p ∈ ball m' ρ' := by
  simp only [BoundingSphere.grow]
  geo
  split_ifs with h
  · have hd : 0 < len (p - m) := lt_of_le_of_lt hρ h
    rw [s_div _ _ hd.ne']
    geo
    set d := len (p - m) with hdef
    refine ⟨_, _, _, rfl, by positivity, ?_, ?_⟩
    · rw [ball_subset _ _ _ _ hρ]
      rw [show m - (m + (1 - 1/2 * (ρ + d) / d) • (p - m)) = (-(1 - 1/2 * (ρ + d) / d)) • (p - m) by module, len_smul, abs_neg,
        abs_of_nonneg (by rw [sub_nonneg, div_le_one hd]; linarith), ← hdef, sub_mul, div_mul_cancel₀ _ hd.ne']
      linarith
    · rw [mem_ball]
      rw [show p - (m + (1 - 1/2 * (ρ + d) / d) • (p - m)) = (1/2 * (ρ + d) / d) • (p - m) by module, len_smul,
        abs_of_nonneg (by positivity), ← hdef, div_mul_cancel₀ _ hd.ne']
  · exact ⟨m, w, ρ, rfl, hρ, subset_rfl, not_lt.1 h⟩

theorem grow_fold (c : Cfg) (ps : List Pt) : ∀ (m : Pt) (w : E) (ρ : ℝ), 0 ≤ ρ →
    ∃ m' w' ρ', ((ps.map f3).map load3).foldl (BoundingSphere.grow c) (vec3 m w, all ρ) = (vec3 m' w', all ρ') ∧ 0 ≤ ρ' ∧
      ball m ρ ⊆ ball m' ρ' ∧ ∀ p ∈ ps, p ∈ ball m' ρ' := by
  induction ps with
  | nil => intro m w ρ h; exact ⟨m, w, ρ, rfl, h, subset_rfl, by simp⟩
  | cons p ps ih =>
    intro m w ρ h
    obtain ⟨m1, w1, ρ1, e1, h1, s1, p1⟩ := grow_step c m p w ρ h
    obtain ⟨m2, w2, ρ2, e2, h2, s2, p2⟩ := ih m1 w1 ρ1 h1
    refine ⟨m2, w2, ρ2, ?_, h2, s1.trans s2, ?_⟩
    · simp only [List.map_cons, List.foldl_cons, v_load3, e1]; exact e2
    · intro q hq
      rcases List.mem_cons.1 hq with rfl | hq
      · exact s2 p1
      · exact p2 q hq

/-- All six kept points are real points. -/
def RealExt (e : BoundingSphere.Extremes E) : Prop :=
  ∃ a b d f g h : Pt, e = ⟨vec3 a (num 0), vec3 b (num 0), vec3 d (num 0), vec3 f (num 0), vec3 g (num 0), vec3 h (num 0)⟩

theorem extremes_real (c : Cfg) (ps : List Pt) : ∀ e, RealExt e → RealExt (((ps.map f3).map load3).foldl (BoundingSphere.Extremes.step c) e) := by
  induction ps with
  | nil => intro e h; exact h
  | cons p ps ih =>
    rintro _ ⟨a, b, d, f, g, h, rfl⟩
    simp only [List.map_cons, List.foldl_cons, v_load3]
    apply ih
    refine ⟨if Lane.lt (XMVectorGetX (vec3 p (num 0))) (XMVectorGetX (vec3 a (num 0))) then p else a,
      if Lane.gt (XMVectorGetX (vec3 p (num 0))) (XMVectorGetX (vec3 b (num 0))) then p else b,
      if Lane.lt (XMVectorGetY c (vec3 p (num 0))) (XMVectorGetY c (vec3 d (num 0))) then p else d,
      if Lane.gt (XMVectorGetY c (vec3 p (num 0))) (XMVectorGetY c (vec3 f (num 0))) then p else f,
      if Lane.lt (XMVectorGetZ c (vec3 p (num 0))) (XMVectorGetZ c (vec3 g (num 0))) then p else g,
      if Lane.gt (XMVectorGetZ c (vec3 p (num 0))) (XMVectorGetZ c (vec3 h (num 0))) then p else h, ?_⟩
    simp only [BoundingSphere.Extremes.step]
    congr 1 <;> exact (apply_ite (fun x => vec3 x (num 0)) _ _ _).symm

theorem lerp_real (c : Cfg) (a b : Pt) : ∃ m w, XMVectorLerp c (vec3 a (num 0)) (vec3 b (num 0)) Lane.cHalf = vec3 m w := by
  refine ⟨a + (1/2 : ℝ) • (b - a), num 0, ?_⟩
  unfold XMVectorLerp
  simp only [s_half]
  split_ifs
  · simp; refine ⟨?_, ?_, ?_⟩ <;> ring
  · rw [v_rep, v_sub, v_smuladd_r, add_comm]
    simp

theorem initial_real (c : Cfg) (e : BoundingSphere.Extremes E) (h : RealExt e) :
    ∃ m w ρ, BoundingSphere.initial c e = (vec3 m w, all ρ) ∧ 0 ≤ ρ := by
  obtain ⟨a, b, d, f, g, h, rfl⟩ := h
  simp only [BoundingSphere.initial]
  have key : ∀ x y : Pt, ∃ m w ρ, ((XMVectorLerp c (vec3 x (num 0)) (vec3 y (num 0)) Lane.cHalf, (all (1/2 * len (x - y)) : V4 E)) : V4 E × V4 E) =
      (vec3 m w, all ρ) ∧ 0 ≤ ρ := by
    intro x y
    obtain ⟨m, w, h⟩ := lerp_real c x y
    exact ⟨m, w, _, by rw [h], by have := len_nonneg (x - y); positivity⟩
  have key : ∀ x y : Pt, ∃ m w ρ, ((XMVectorLerp c (vec3 x (num 0)) (vec3 y (num 0)) (num (1/2)), (all (1/2 * len (x - y)) : V4 E)) : V4 E × V4 E) =
      (vec3 m w, all ρ) ∧ 0 ≤ ρ := by
    intro x y; simpa only [s_half] using key x y
  geo
  split_ifs <;> exact key _ _

/-- The sphere created from a non-empty list of points (of any length, in any order) contains every one of them. -/
theorem C72_fromPoints (c : Cfg) (ps : List Pt) (hne : ps ≠ []) :
    ∃ m ρ, BoundingSphere.CreateFromPoints c (ps.map f3) = sphereOf m ρ ∧ 0 ≤ ρ ∧ ∀ p ∈ ps, p ∈ ball m ρ := by
  obtain ⟨p, ps', rfl⟩ := List.exists_cons_of_ne_nil hne
  have hr : RealExt (BoundingSphere.extremes c ((p :: ps').map f3)) := by
    simp only [BoundingSphere.extremes, List.map_cons, v_load3]
    have := extremes_real c (p :: ps') ⟨vec3 p (num 0), vec3 p (num 0), vec3 p (num 0), vec3 p (num 0), vec3 p (num 0), vec3 p (num 0)⟩
      ⟨p, p, p, p, p, p, rfl⟩
    simpa only [List.map_cons, v_load3] using this
  obtain ⟨m, w, ρ, e, hρ⟩ := initial_real c _ hr
  obtain ⟨m', w', ρ', e', hρ', -, hp⟩ := grow_fold c (p :: ps') m w ρ hρ
  refine ⟨m', ρ', ?_, hρ', hp⟩
  simp only [BoundingSphere.CreateFromPoints, e, e']
  geo
  rfl

example (c : Cfg) : ∃ m ρ, BoundingSphere.CreateFromPoints c ([![0, 0, 0], ![4, 0, 0], ![2, 3, 1]].map f3) = sphereOf m ρ ∧
    (![2, 3, 1] : Pt) ∈ ball m ρ := by
  obtain ⟨m, ρ, h, -, hp⟩ := C72_fromPoints c [![0, 0, 0], ![4, 0, 0], ![2, 3, 1]] (by simp)
  exact ⟨m, ρ, h, hp _ (by simp)⟩

/-! ### C78 -/

theorem dot_line (a o d : Pt) (t : ℝ) (hd : len d = 1) :
    (o + t • d - a) ⬝ᵥ (o + t • d - a) = (t - (a - o) ⬝ᵥ d) * (t - (a - o) ⬝ᵥ d) + ((a - o) ⬝ᵥ (a - o) - ((a - o) ⬝ᵥ d) * ((a - o) ⬝ᵥ d)) := by
  have h : d ⬝ᵥ d = 1 := by rw [← len_sq, hd]; ring
  have : (o + t • d - a) ⬝ᵥ (o + t • d - a) = (a - o) ⬝ᵥ (a - o) - 2 * t * ((a - o) ⬝ᵥ d) + t * t * (d ⬝ᵥ d) := by
    simp only [dotProduct, Fin.sum_univ_three, Pi.sub_apply, Pi.smul_apply, Pi.add_apply, smul_eq_mul]; ring
  rw [this, h]; ring

/-- Ray against sphere, unit direction: true exactly when the half-line meets the closed ball.  Then the reported distance `t` is
non-negative, the point at `t` is on the surface, and it is the first point of the ball on the ray when the origin is outside,
the last one when the origin is inside.  Otherwise the result is (false, 0). -/
theorem C78_ray (c : Cfg) (a o d : Pt) (r : ℝ) (w w' : E) (hr : 0 ≤ r) (hd : len d = 1) :
    (if (ray o d ∩ ball a r).Nonempty then
      ∃ t, BoundingSphere.IntersectsRay c (sphereOf a r) (vec3 o w) (vec3 d w') = (true, num t) ∧ 0 ≤ t ∧ len (o + t • d - a) = r ∧
        (o ∉ ball a r → ∀ t', 0 ≤ t' → o + t' • d ∈ ball a r → t ≤ t') ∧
        (o ∈ ball a r → ∀ t', 0 ≤ t' → o + t' • d ∈ ball a r → t' ≤ t)
     else BoundingSphere.IntersectsRay c (sphereOf a r) (vec3 o w) (vec3 d w') = (false, num 0)) := by
  simp only [BoundingSphere.IntersectsRay, sphereOf]
  geo
  set s := (a - o) ⬝ᵥ d with hs
  set l2 := (a - o) ⬝ᵥ (a - o) with hl2
  have hm : ∀ t, o + t • d ∈ ball a r ↔ (t - s) * (t - s) + (l2 - s * s) ≤ r * r := by
    intro t; rw [mem_ball, len_le_iff hr, dot_line a o d t hd]
  have ho : o ∈ ball a r ↔ l2 ≤ r * r := by
    have := hm 0; rw [zero_smul, add_zero] at this; rw [this]; constructor <;> intro h <;> linarith
  have hq : (ray o d ∩ ball a r).Nonempty ↔ ¬ (s < 0 ∧ r * r < l2 ∨ r * r < l2 - s * s) := by
    constructor
    · rintro ⟨p, ⟨t, ht, rfl⟩, hp⟩
      rw [hm] at hp
      rintro (⟨h1, h2⟩ | h2)
      · nlinarith [mul_nonneg ht (neg_nonneg.2 h1.le), mul_self_nonneg t]
      · nlinarith [mul_self_nonneg (t - s)]
    · intro h
      push Not at h
      by_cases h0 : s < 0
      · refine ⟨o, ⟨0, le_refl _, by simp⟩, ho.2 (h.1 h0)⟩
      · refine ⟨o + s • d, ⟨s, not_lt.1 h0, rfl⟩, (hm s).2 ?_⟩
        have := h.2; linarith
  by_cases h : (ray o d ∩ ball a r).Nonempty
  · rw [if_pos h]
    have hn := hq.1 h
    rw [if_pos hn]
    have hn2 := hn
    push Not at hn2
    rw [s_sqrt _ (by linarith [hn2.2])]
    geo
    set q := √(r * r - (l2 - s * s)) with hqd
    have hq0 : 0 ≤ q := Real.sqrt_nonneg _
    have hqq : q * q = r * r - (l2 - s * s) := Real.mul_self_sqrt (by linarith [hn2.2])
    have onS : ∀ t, (t - s) * (t - s) = q * q → len (o + t • d - a) = r := by
      intro t ht
      unfold len
      rw [dot_line a o d t hd, ← hs, ← hl2, ht, hqq, show r * r - (l2 - s * s) + (l2 - s * s) = r * r by ring, Real.sqrt_mul_self hr]
    by_cases hi : l2 ≤ r * r
    · simp only [hi, if_true]
      refine ⟨_, rfl, ?_, onS _ (by ring), fun h => absurd (ho.2 hi) h, fun _ t' ht' hb => ?_⟩
      · have : s * s ≤ q * q := by linarith
        have := abs_le_abs (abs_le_of_sq_le_sq' (by nlinarith) hq0).2 (by nlinarith [abs_le_of_sq_le_sq' (by nlinarith : s ^ 2 ≤ q ^ 2) hq0])
        have := (abs_le_of_sq_le_sq' (by nlinarith : s ^ 2 ≤ q ^ 2) hq0).1
        linarith
      · rw [hm] at hb
        have := (abs_le_of_sq_le_sq' (by nlinarith : (t' - s) ^ 2 ≤ q ^ 2) hq0).2
        linarith
    · simp only [hi, if_false]
      have hs0 : 0 ≤ s := by by_contra h0; exact hi (hn2.1 (not_le.1 h0))
      refine ⟨_, rfl, ?_, onS _ (by ring), fun _ t' ht' hb => ?_, fun h => absurd (ho.1 h) hi⟩
      · have := (abs_le_of_sq_le_sq' (by nlinarith : q ^ 2 ≤ s ^ 2) hs0).2
        linarith
      · rw [hm] at hb
        have := (abs_le_of_sq_le_sq' (by nlinarith : (t' - s) ^ 2 ≤ q ^ 2) hq0).1
        linarith
  · rw [if_neg h]
    have hn : ¬ ¬ (s < 0 ∧ r * r < l2 ∨ r * r < l2 - s * s) := fun k => h (hq.2 k)
    rw [if_neg hn]

example : (ray ![-5, 1, 0] ![1, 0, 0] ∩ ball ![0, 0, 0] 2).Nonempty ∧ len ![1, 0, 0] = 1 := by
  refine ⟨⟨![0, 1, 0], ⟨5, by norm_num, by ext i; fin_cases i <;> simp⟩, ?_⟩, by simp [len]⟩
  rw [mem_ball, len_le_iff (by norm_num)]; simp [dot3]; norm_num

end DXM.Props
