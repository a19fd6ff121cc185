import Verif.Lemmas.FrustumPoly

/-
Evaluation of the frustum code's building blocks on real vectors.
-/

set_option linter.all false

namespace DXM.RG
open DXM.Spec DXM.E Matrix
theorem mem_frustum {o : Pt} {q : Quaternion ℝ} (hq : Quaternion.normSq q = 1) {r l t b n f : ℝ} {p : Pt} :
    p ∈ frustum o q r l t b n f ↔ rot (star q) (p - o) ∈ frustum0 r l t b n f := by
  constructor
  · rintro ⟨u, hu, rfl⟩; rwa [add_sub_cancel_left, rot_star_rot hq]
  · intro h; exact ⟨_, h, by rw [rot_rot_star hq]; abel⟩
theorem frustum_forall {o : Pt} {q : Quaternion ℝ} {r l t b n f : ℝ} {p : Pt → Prop} :
    (∀ u ∈ frustum o q r l t b n f, p u) ↔ ∀ u ∈ frustum0 r l t b n f, p (o + rot q u) := by
  constructor
  · intro h u hu; exact h _ ⟨u, hu, rfl⟩
  · rintro h _ ⟨u, hu, rfl⟩; exact h u hu
theorem frustum_convex {o : Pt} {q : Quaternion ℝ} (hq : Quaternion.normSq q = 1) {r l t b n f : ℝ} : Convex ℝ (frustum o q r l t b n f) :=
  rigid_convex hq o frustum0_convex
theorem frustum_compact {o : Pt} {q : Quaternion ℝ} (hq : Quaternion.normSq q = 1) {r l t b n f : ℝ} (h : ValidFrustum r l t b n f) :
    IsCompact (frustum o q r l t b n f) := rigid_compact hq o (frustum0_compact h)
theorem frustum_nonempty {o : Pt} {q : Quaternion ℝ} {r l t b n f : ℝ} (h : ValidFrustum r l t b n f) : (frustum o q r l t b n f).Nonempty := by
  obtain ⟨u, hu⟩ := frustum0_nonempty h; exact ⟨_, u, hu, rfl⟩
end DXM.RG

namespace DXM.Geo
open DXM.E DXM.Spec DXM.RG Matrix Classical
variable (o : Pt) (q : Quaternion ℝ) (r l t b n f : ℝ)

theorem fr_o : (frustumOf o q r l t b n f).Origin = f3 o := rfl
theorem fr_q : (frustumOf o q r l t b n f).Orientation = quat q := rfl
theorem fr_n : (frustumOf o q r l t b n f).Near = num n := rfl
theorem fr_f : (frustumOf o q r l t b n f).Far = num f := rfl
theorem fr_r : (frustumOf o q r l t b n f).RightSlope = num r := rfl
theorem fr_l : (frustumOf o q r l t b n f).LeftSlope = num l := rfl
theorem fr_t : (frustumOf o q r l t b n f).TopSlope = num t := rfl
theorem fr_b : (frustumOf o q r l t b n f).BottomSlope = num b := rfl
theorem fr_rt : BoundingFrustum.vRightTop (frustumOf o q r l t b n f) = vec3 ![r, t, 1] (num 0) := by
  simp [BoundingFrustum.vRightTop, frustumOf, XMVectorSet]
theorem fr_rb : BoundingFrustum.vRightBottom (frustumOf o q r l t b n f) = vec3 ![r, b, 1] (num 0) := by
  simp [BoundingFrustum.vRightBottom, frustumOf, XMVectorSet]
theorem fr_lt : BoundingFrustum.vLeftTop (frustumOf o q r l t b n f) = vec3 ![l, t, 1] (num 0) := by
  simp [BoundingFrustum.vLeftTop, frustumOf, XMVectorSet]
theorem fr_lb : BoundingFrustum.vLeftBottom (frustumOf o q r l t b n f) = vec3 ![l, b, 1] (num 0) := by
  simp [BoundingFrustum.vLeftBottom, frustumOf, XMVectorSet]
theorem fr_corners : BoundingFrustum.localCorners (frustumOf o q r l t b n f) = (fcorners r l t b n f).map fun u => vec3 u (num 0) := by
  simp only [BoundingFrustum.localCorners, fr_rt, fr_rb, fr_lt, fr_lb, fcorners, List.map_cons, List.map_nil, fr_n, fr_f]
  geo
  simp only [zero_mul]
theorem fr_edges : BoundingFrustum.localEdges (frustumOf o q r l t b n f) = (fedges r l t b).map fun u => vec3 u (num 0) := by
  simp only [BoundingFrustum.localEdges, fr_rt, fr_rb, fr_lt, fr_lb, fedges, List.map_cons, List.map_nil]
  geo
  simp only [sub_zero]
theorem fr_planes : BoundingFrustum.localPlanes (frustumOf o q r l t b n f) = (fplanes r l t b n f).map fun P => vec3 P.1 (num (-P.2)) := by
  simp [BoundingFrustum.localPlanes, frustumOf, XMVectorSet, fplanes]
theorem fr_world (c : Cfg) (hq : Quaternion.normSq q = 1) (w : ℝ) : BoundingFrustum.worldCorners c (frustumOf o q r l t b n f) (vec3 o (num w)) (quat q) =
    (fcorners r l t b n f).map fun u => vec3 (o + rot q u) (num w) := by
  simp only [BoundingFrustum.worldCorners, fr_rt, fr_rb, fr_lt, fr_lb, fcorners, List.map_cons, List.map_nil, fr_n, fr_f, rot_smul hq, add_comm o]
  geo
  simp only [zero_mul, zero_add]

/-- `minMaxOf` of a scalar function. -/
theorem minMax_s (g : V4 E → V4 E) (h : Pt → ℝ) (w : E) (p : Pt) (ps : List Pt) (hg : ∀ u ∈ p :: ps, g (vec3 u w) = all (h u)) :
    ∃ mn mx : ℝ, BoundingFrustum.minMaxOf g ((p :: ps).map fun u => vec3 u w) = (all mn, all mx) ∧
      (∀ d, d < mn ↔ ∀ u ∈ p :: ps, d < h u) ∧ (∀ d, mx < d ↔ ∀ u ∈ p :: ps, h u < d) ∧
      (∀ d, d ≤ mn ↔ ∀ u ∈ p :: ps, d ≤ h u) ∧ (∀ d, mx ≤ d ↔ ∀ u ∈ p :: ps, h u ≤ d) := by
  have key : ∀ (ps : List Pt) (a b : ℝ), (∀ u ∈ ps, g (vec3 u w) = all (h u)) →
      ∃ mn mx : ℝ, (ps.map fun u => vec3 u w).foldl (fun m p => (XMVectorMin m.1 (g p), XMVectorMax m.2 (g p))) (all a, all b) = (all mn, all mx) ∧
      (∀ d, d < mn ↔ d < a ∧ ∀ u ∈ ps, d < h u) ∧ (∀ d, mx < d ↔ b < d ∧ ∀ u ∈ ps, h u < d) ∧
      (∀ d, d ≤ mn ↔ d ≤ a ∧ ∀ u ∈ ps, d ≤ h u) ∧ (∀ d, mx ≤ d ↔ b ≤ d ∧ ∀ u ∈ ps, h u ≤ d) := by
    intro ps
    induction ps with
    | nil => intro a b _; exact ⟨a, b, rfl, by simp, by simp, by simp, by simp⟩
    | cons x xs ih =>
      intro a b hg
      obtain ⟨mn, mx, h1, h2, h3, h4, h5⟩ := ih (min a (h x)) (max b (h x)) (fun u hu => hg u (by simp [hu]))
      refine ⟨mn, mx, ?_, ?_, ?_, ?_, ?_⟩
      · rw [List.map_cons, List.foldl_cons, hg x (by simp), s_min, s_max, h1]
      · intro d; rw [h2, lt_min_iff]; simp [and_assoc]
      · intro d; rw [h3, max_lt_iff]; simp [and_assoc]
      · intro d; rw [h4, le_min_iff]; simp [and_assoc]
      · intro d; rw [h5, max_le_iff]; simp [and_assoc]
  obtain ⟨mn, mx, h1, h2, h3, h4, h5⟩ := key ps (h p) (h p) (fun u hu => hg u (by simp [hu]))
  refine ⟨mn, mx, ?_, ?_, ?_, ?_, ?_⟩
  · rw [List.map_cons]; unfold BoundingFrustum.minMaxOf; dsimp only; rw [hg p (by simp), h1]
  · intro d; rw [h2]; simp
  · intro d; rw [h3]; simp
  · intro d; rw [h4]; simp
  · intro d; rw [h5]; simp
end DXM.Geo
