import Verif.Lemmas.PolySat
import Verif.Props.CollisionFrustum

/-
C91: intersection tests of frusta.
-/

set_option linter.all false

namespace DXM.RG
open DXM.E DXM.Spec Matrix
/-- Boxes in another frame. -/
theorem mem_obox_loc {o b e : Pt} {q r : Quaternion ℝ} (hq : Quaternion.normSq q = 1) (hr : Quaternion.normSq r = 1) (p : Pt) :
    p ∈ obox b e r ↔ rot (star q) (p - o) ∈ obox (rot (star q) (b - o)) e (star q * r) := by
  have hs : Quaternion.normSq (star q) = 1 := nstar hq
  constructor
  · rintro ⟨u, hu, rfl⟩
    refine ⟨u, hu, ?_⟩
    rw [rot_mul hr hs, ← rot_add hs]; congr 1; abel
  · rintro ⟨u, hu, h⟩
    refine ⟨u, hu, ?_⟩
    rw [rot_mul hr hs, ← rot_add hs] at h
    have := congrArg (rot q) h
    rw [rot_rot_star hq, rot_rot_star hq] at this
    have : p = b - o + rot r u + o := by rw [← this]; abel
    rw [this]; abel
theorem mem_frustum_loc {o o' : Pt} {q q' : Quaternion ℝ} (hq : Quaternion.normSq q = 1) (hr : Quaternion.normSq q' = 1) {r l t b n f : ℝ} (p : Pt) :
    p ∈ frustum o' q' r l t b n f ↔ rot (star q) (p - o) ∈ frustum (rot (star q) (o' - o)) (star q * q') r l t b n f := by
  have hs : Quaternion.normSq (star q) = 1 := nstar hq
  constructor
  · rintro ⟨u, hu, rfl⟩
    refine ⟨u, hu, ?_⟩
    rw [rot_mul hr hs, ← rot_add hs]; congr 1; abel
  · rintro ⟨u, hu, h⟩
    refine ⟨u, hu, ?_⟩
    rw [rot_mul hr hs, ← rot_add hs] at h
    have := congrArg (rot q) h
    rw [rot_rot_star hq, rot_rot_star hq] at this
    have : p = o' - o + rot q' u + o := by rw [← this]; abel
    rw [this]; abel
end DXM.RG

namespace DXM.Geo
open DXM.E DXM.Spec DXM.RG Matrix Classical
/-- The loop over the planes. -/
theorem fold_tri {ι : Type} (L : List ι) (f : V4 E × V4 E × V4 E → ι → V4 E × V4 E × V4 E) (p p' p'' : ι → Prop) (a a' a'' : Prop)
    (h : ∀ x y z i, i ∈ L → f (msk x, msk y, msk z) i = (msk (x ∨ p i), msk (y ∧ p' i), msk (z ∧ p'' i))) :
    L.foldl f (msk a, msk a', msk a'') = (msk (a ∨ ∃ i ∈ L, p i), msk (a' ∧ ∀ i ∈ L, p' i), msk (a'' ∧ ∀ i ∈ L, p'' i)) := by
  induction L generalizing a a' a'' with
  | nil => simp
  | cons i L ih =>
    rw [List.foldl_cons, h a a' a'' i (by simp), ih _ _ _ (fun x y z j hj => h x y z j (by simp [hj]))]
    simp [or_assoc, and_assoc]
theorem fold_pair {ι : Type} (L : List ι) (f : V4 E × V4 E → ι → V4 E × V4 E) (p p' : ι → Prop) (a a' : Prop)
    (h : ∀ x y i, i ∈ L → f (msk x, msk y) i = (msk (x ∨ p i), msk (y ∧ p' i))) :
    L.foldl f (msk a, msk a') = (msk (a ∨ ∃ i ∈ L, p i), msk (a' ∧ ∀ i ∈ L, p' i)) := by
  induction L generalizing a a' with
  | nil => simp
  | cons i L ih =>
    rw [List.foldl_cons, h a a' i (by simp), ih _ _ (fun x y j hj => h x y j (by simp [hj]))]
    simp [or_assoc, and_assoc]
/-- `minMaxOf` of a vector function. -/
theorem minMax_v (g : V4 E → V4 E) (h : Pt → Pt) (w : E) (k : Pt → E) (p : Pt) (ps : List Pt) (hg : ∀ u ∈ p :: ps, g (vec3 u w) = vec3 (h u) (k u)) :
    ∃ mn mx : Pt, ∃ x y : E, BoundingFrustum.minMaxOf g ((p :: ps).map fun u => vec3 u w) = (vec3 mn x, vec3 mx y) ∧
      (∀ i, ∀ d : ℝ, d < mn i ↔ ∀ u ∈ p :: ps, d < h u i) ∧ (∀ i, ∀ d : ℝ, mx i < d ↔ ∀ u ∈ p :: ps, h u i < d) := by
  have key : ∀ (ps : List Pt) (a b : Pt) (x y : E), (∀ u ∈ ps, g (vec3 u w) = vec3 (h u) (k u)) →
      ∃ mn mx : Pt, ∃ x' y' : E, (ps.map fun u => vec3 u w).foldl (fun m p => (XMVectorMin m.1 (g p), XMVectorMax m.2 (g p))) (vec3 a x, vec3 b y) =
        (vec3 mn x', vec3 mx y') ∧
      (∀ i, ∀ d : ℝ, d < mn i ↔ d < a i ∧ ∀ u ∈ ps, d < h u i) ∧ (∀ i, ∀ d : ℝ, mx i < d ↔ b i < d ∧ ∀ u ∈ ps, h u i < d) := by
    intro ps
    induction ps with
    | nil => intro a b x y _; exact ⟨a, b, x, y, rfl, by simp, by simp⟩
    | cons z zs ih =>
      intro a b x y hg
      obtain ⟨mn, mx, x', y', h1, h2, h3⟩ := ih (a ⊓ h z) (b ⊔ h z) _ _ (fun u hu => hg u (by simp [hu]))
      refine ⟨mn, mx, x', y', ?_, ?_, ?_⟩
      · rw [List.map_cons, List.foldl_cons, hg z (by simp), v_min, v_max, h1]
      · intro i d; rw [h2, Pi.inf_apply, lt_inf_iff]; simp [and_assoc]
      · intro i d; rw [h3, Pi.sup_apply, sup_lt_iff]; simp [and_assoc]
  obtain ⟨mn, mx, x', y', h1, h2, h3⟩ := key ps (h p) (h p) (k p) (k p) (fun u hu => hg u (by simp [hu]))
  refine ⟨mn, mx, x', y', ?_, ?_, ?_⟩
  · rw [List.map_cons]; unfold BoundingFrustum.minMaxOf; dsimp only; rw [hg p (by simp), h1]
  · intro i d; rw [h2]; simp
  · intro i d; rw [h3]; simp
theorem minMax_v' (g : V4 E → V4 E) (h : Pt → Pt) (w : E) (k : Pt → E) (L : List Pt) (hL : L ≠ []) (hg : ∀ u, g (vec3 u w) = vec3 (h u) (k u)) :
    ∃ mn mx : Pt, ∃ x y : E, BoundingFrustum.minMaxOf g (L.map fun u => vec3 u w) = (vec3 mn x, vec3 mx y) ∧
      (∀ i, ∀ d : ℝ, d < mn i ↔ ∀ u ∈ L, d < h u i) ∧ (∀ i, ∀ d : ℝ, mx i < d ↔ ∀ u ∈ L, h u i < d) := by
  cases L with
  | nil => exact absurd rfl hL
  | cons p ps => exact minMax_v g h w k p ps (fun u _ => hg u)
theorem minMax_s' (g : V4 E → V4 E) (h : Pt → ℝ) (w : E) (L : List Pt) (hL : L ≠ []) (hg : ∀ u, g (vec3 u w) = all (h u)) :
    ∃ mn mx : ℝ, BoundingFrustum.minMaxOf g (L.map fun u => vec3 u w) = (all mn, all mx) ∧
      (∀ d, d < mn ↔ ∀ u ∈ L, d < h u) ∧ (∀ d, mx < d ↔ ∀ u ∈ L, h u < d) ∧
      (∀ d, d ≤ mn ↔ ∀ u ∈ L, d ≤ h u) ∧ (∀ d, mx ≤ d ↔ ∀ u ∈ L, h u ≤ d) := by
  cases L with
  | nil => exact absurd rfl hL
  | cons p ps => exact minMax_s g h w p ps (fun u _ => hg u)
end DXM.Geo

namespace DXM.Props
open DXM.E DXM.Spec DXM.RG DXM.Geo Matrix Classical

theorem sat_if (a b d e g : Prop) [Decidable a] [Decidable b] [Decidable d] [Decidable e] [Decidable (a ∨ g)] :
    ((if a then false else if b then true else if d then true else if e then false else if a ∨ g then false else true) = true) ↔
      ¬ a ∧ (b ∨ d ∨ (¬ e ∧ ¬ g)) := by
  by_cases a <;> by_cases b <;> by_cases d <;> by_cases e <;> by_cases g <;> simp [*]

set_option maxHeartbeats 800000 in
theorem fobb_eval (c : Cfg) (o b e : Pt) (q r' : Quaternion ℝ) (r l t bt n f : ℝ) (hq : Quaternion.normSq q = 1) (hr : Quaternion.normSq r' = 1) :
    (BoundingFrustum.IntersectsOrientedBox c (frustumOf o q r l t bt n f) (oboxOf b e r') = true) ↔
      let C := rot (star q) (b - o)
      let Q := star q * r'
      (¬ ∃ P ∈ fplanes r l t bt n f, P.2 < P.1 ⬝ᵥ C - e ⬝ᵥ |rot (star Q) P.1|) ∧
      ((∀ P ∈ fplanes r l t bt n f, P.1 ⬝ᵥ C - P.2 ≤ -(e ⬝ᵥ |rot (star Q) P.1|)) ∨ (∀ P ∈ fplanes r l t bt n f, P.1 ⬝ᵥ C ≤ P.2) ∨
        ((¬ ∃ i, (∀ u ∈ fcorners r l t bt n f, rotM Q i ⬝ᵥ C + e i < rotM Q i ⬝ᵥ u) ∨ (∀ u ∈ fcorners r l t bt n f, rotM Q i ⬝ᵥ u < rotM Q i ⬝ᵥ C - e i)) ∧
          ¬ ∃ i, ∃ E ∈ fedges r l t bt,
            (∀ u ∈ fcorners r l t bt n f, crossProduct (rotM Q i) E ⬝ᵥ u < crossProduct (rotM Q i) E ⬝ᵥ C - e ⬝ᵥ |rot (star Q) (crossProduct (rotM Q i) E)|) ∨
            (∀ u ∈ fcorners r l t bt n f, crossProduct (rotM Q i) E ⬝ᵥ C + e ⬝ᵥ |rot (star Q) (crossProduct (rotM Q i) E)| < crossProduct (rotM Q i) E ⬝ᵥ u))) := by
  have hQ : Quaternion.normSq (star q * r') = 1 := by rw [map_mul, nstar hq, hr, one_mul]
  simp only [BoundingFrustum.IntersectsOrientedBox, oboxOf, fr_o, fr_q, fr_planes, fr_corners, fr_edges, q_conj, XMQuaternionMultiply_quat]
  geo
  simp only [rm_r0, rm_r1, rm_r2, List.foldl_map]
  set Q := star q * r' with hQd
  set C := rot (star q) (b - o) with hC
  rw [v_false, fold_tri _ _ (fun P => P.2 < P.1 ⬝ᵥ C - e ⬝ᵥ |rot (star Q) P.1|) (fun P => P.1 ⬝ᵥ C - P.2 ≤ -(e ⬝ᵥ |rot (star Q) P.1|)) (fun P => P.1 ⬝ᵥ C ≤ P.2)]
  rotate_left
  · intro x y z P hP
    geo
    rw [pack3_all, rows_eq' hQ]
    geo
    rw [dotProduct_comm C]
    refine Prod.ext ?_ (Prod.ext ?_ ?_)
    · simp only; congr 1; refine propext (or_congr Iff.rfl ?_); constructor <;> intro h <;> linarith
    · simp only; congr 1; refine propext (and_congr Iff.rfl ?_); constructor <;> intro h <;> linarith
    · simp only; congr 1; refine propext (and_congr Iff.rfl ?_); constructor <;> intro h <;> linarith
  dsimp only
  simp only [m_eq4]
  have hL : fcorners r l t bt n f ≠ [] := by simp [fcorners]
  obtain ⟨mn, mx, wx, wy, e1, e2, e3⟩ := minMax_v' (fun u : V4 E => BoundingFrustum.pack3 (XMVector3Dot c u (vec3 (rotM Q 0) (num 0))) (XMVector3Dot c u (vec3 (rotM Q 1) (num 0)))
    (XMVector3Dot c u (vec3 (rotM Q 2) (num 0)))) (fun u => rot (star Q) u) (num 0) (fun u => num (u ⬝ᵥ rotM Q 0)) (fcorners r l t bt n f) hL (fun u => by
      geo; rw [pack3_all, rows_eq' hQ])
  rw [e1]
  simp only [List.foldl_cons, List.foldl_nil]
  geo
  rw [pack3_all, rows_eq' hQ]
  geo
  have fold1 : ∀ (x : Prop) (i : Fin 3), (fedges r l t bt).foldl (fun x y =>
      XMVectorOrInt (XMVectorOrInt x (XMVectorGreater (all (C ⬝ᵥ crossProduct (rotM Q i) y)) (XMVectorAdd
        (BoundingFrustum.minMaxOf (fun u => XMVector3Dot c (vec3 (crossProduct (rotM Q i) y) (num 0)) u) ((fcorners r l t bt n f).map fun u => vec3 u (num 0))).2
        (XMVector3Dot c (vec3 e (num 0)) (XMVectorAbs c (BoundingFrustum.pack3 (all (crossProduct (rotM Q i) y ⬝ᵥ rotM Q 0)) (all (crossProduct (rotM Q i) y ⬝ᵥ rotM Q 1)) (all (crossProduct (rotM Q i) y ⬝ᵥ rotM Q 2))))))))
        (XMVectorLess (all (C ⬝ᵥ crossProduct (rotM Q i) y)) (XMVectorSubtract
        (BoundingFrustum.minMaxOf (fun u => XMVector3Dot c (vec3 (crossProduct (rotM Q i) y) (num 0)) u) ((fcorners r l t bt n f).map fun u => vec3 u (num 0))).1
        (XMVector3Dot c (vec3 e (num 0)) (XMVectorAbs c (BoundingFrustum.pack3 (all (crossProduct (rotM Q i) y ⬝ᵥ rotM Q 0)) (all (crossProduct (rotM Q i) y ⬝ᵥ rotM Q 1)) (all (crossProduct (rotM Q i) y ⬝ᵥ rotM Q 2)))))))) (msk x)
      = msk (x ∨ ∃ E ∈ fedges r l t bt,
            (∀ u ∈ fcorners r l t bt n f, crossProduct (rotM Q i) E ⬝ᵥ u < crossProduct (rotM Q i) E ⬝ᵥ C - e ⬝ᵥ |rot (star Q) (crossProduct (rotM Q i) E)|) ∨
            (∀ u ∈ fcorners r l t bt n f, crossProduct (rotM Q i) E ⬝ᵥ C + e ⬝ᵥ |rot (star Q) (crossProduct (rotM Q i) E)| < crossProduct (rotM Q i) E ⬝ᵥ u)) := by
    intro x i
    refine fold_or _ _ _ _ ?_
    intro x Ed hE
    obtain ⟨mn, mx, e1, e2, e3, -, -⟩ := minMax_s' (fun u : V4 E => XMVector3Dot c (vec3 (crossProduct (rotM Q i) Ed) (num 0)) u) (fun u => crossProduct (rotM Q i) Ed ⬝ᵥ u) (num 0)
      (fcorners r l t bt n f) hL (fun u => by geo)
    rw [e1, pack3_all, rows_eq' hQ]
    geo
    congr 1
    refine propext ?_
    rw [or_assoc]
    refine or_congr Iff.rfl (or_congr ?_ ?_)
    · rw [← e3, dotProduct_comm C]; constructor <;> intro h <;> linarith
    · rw [← e2, dotProduct_comm C]; constructor <;> intro h <;> linarith
  rw [fold1, fold1, fold1]
  simp only [m_eq4]
  have ax : (∃ i, (rot (star Q) C + e) i < mn i ∨ mx i < (rot (star Q) C - e) i) ↔ ∃ i, (∀ u ∈ fcorners r l t bt n f, rotM Q i ⬝ᵥ C + e i < rotM Q i ⬝ᵥ u) ∨ (∀ u ∈ fcorners r l t bt n f, rotM Q i ⬝ᵥ u < rotM Q i ⬝ᵥ C - e i) := by
    refine exists_congr fun i => or_congr ?_ ?_
    · rw [e2]; simp only [dot_row hQ, Pi.add_apply]
    · rw [e3]; simp only [dot_row hQ, Pi.sub_apply]
  have ex3 : ∀ (x : Prop) (p : Fin 3 → Prop), (((x ∨ p 0) ∨ p 1) ∨ p 2) ↔ x ∨ ∃ i, p i := by
    intro x p; rw [Fin.exists_fin_succ, Fin.exists_fin_two]; tauto
  simp only [ax, false_or, true_and, ex3 _ (fun i => ∃ E ∈ fedges r l t bt,
            (∀ u ∈ fcorners r l t bt n f, crossProduct (rotM Q i) E ⬝ᵥ u < crossProduct (rotM Q i) E ⬝ᵥ C - e ⬝ᵥ |rot (star Q) (crossProduct (rotM Q i) E)|) ∨
            (∀ u ∈ fcorners r l t bt n f, crossProduct (rotM Q i) E ⬝ᵥ C + e ⬝ᵥ |rot (star Q) (crossProduct (rotM Q i) E)| < crossProduct (rotM Q i) E ⬝ᵥ u))]
  exact sat_if _ _ _ _ _

theorem row_radius {Q : Quaternion ℝ} (hQ : Quaternion.normSq Q = 1) (e : Pt) (i : Fin 3) : e ⬝ᵥ |rot (star Q) (rotM Q i)| = e i := by
  rw [row_eq hQ, rot_star_rot hQ]
  fin_cases i <;> simp [dotProduct, Fin.sum_univ_three, Pi.abs_apply]

theorem radius_nonneg {e : Pt} (he : ∀ i, 0 ≤ e i) (v : Pt) : 0 ≤ e ⬝ᵥ |v| := by
  simp only [dotProduct, Pi.abs_apply]
  exact Finset.sum_nonneg fun i _ => mul_nonneg (he i) (abs_nonneg _)

theorem center_mem_obox {a e : Pt} {q : Quaternion ℝ} (hq : Quaternion.normSq q = 1) (he : ∀ i, 0 ≤ e i) : a ∈ obox a e q :=
  ⟨0, by rw [mem_box]; intro i; simpa using he i, by rw [rot_zero hq, add_zero]⟩

/-- The test of a frustum against an oriented box never misses an intersection. -/
theorem C91_orientedBox_sound (c : Cfg) (o b e : Pt) (q r' : Quaternion ℝ) (r l t bt n f : ℝ) (hq : Quaternion.normSq q = 1)
    (hr : Quaternion.normSq r' = 1) (hv : ValidFrustum r l t bt n f) (he : ∀ i, 0 ≤ e i)
    (h : (frustum o q r l t bt n f ∩ obox b e r').Nonempty) :
    BoundingFrustum.IntersectsOrientedBox c (frustumOf o q r l t bt n f) (oboxOf b e r') = true := by
  have hQ : Quaternion.normSq (star q * r') = 1 := by rw [map_mul, nstar hq, hr, one_mul]
  rw [fobb_eval c o b e q r' r l t bt n f hq hr]
  rw [loc_nonempty hq (fun p => mem_frustum hq) (fun p => mem_obox_loc (o := o) hq hr p)] at h
  dsimp only
  set Q := star q * r'
  set C := rot (star q) (b - o)
  refine ⟨?_, Or.inr (Or.inr ⟨?_, ?_⟩)⟩
  · rintro ⟨P, hP, k⟩
    exact Sep.disj (((sep_face hv hP _).2 ((obox_gt hQ C e he _ _).2 k))) h
  · rintro ⟨i, k | k⟩
    · refine Sep.disj' (((sep_obox hQ C e he (frustum0 r l t bt n f) (rotM Q i)).2.2 ?_)) h
      rw [row_radius hQ]; exact (frustum0_gt hv _ _).2 k
    · refine Sep.disj (((sep_obox hQ C e he (frustum0 r l t bt n f) (rotM Q i)).1.2 ?_)) h
      rw [row_radius hQ]; exact (frustum0_lt hv _ _).2 k
  · rintro ⟨i, E, hE, k | k⟩
    · exact Sep.disj (((sep_obox hQ C e he (frustum0 r l t bt n f) _).1.2 ((frustum0_lt hv _ _).2 k))) h
    · exact Sep.disj' (((sep_obox hQ C e he (frustum0 r l t bt n f) _).2.2 ((frustum0_gt hv _ _).2 k))) h

/-- Exact for frusta that are not flat. -/
theorem C91_orientedBox (c : Cfg) (o b e : Pt) (q r' : Quaternion ℝ) (r l t bt n f : ℝ) (hq : Quaternion.normSq q = 1)
    (hr : Quaternion.normSq r' = 1) (hv : ValidFrustum r l t bt n f) (hlr : l ≠ r) (hbt : bt ≠ t) (he : ∀ i, 0 ≤ e i) :
    BoundingFrustum.IntersectsOrientedBox c (frustumOf o q r l t bt n f) (oboxOf b e r') = true ↔
      (frustum o q r l t bt n f ∩ obox b e r').Nonempty := by
  refine ⟨?_, C91_orientedBox_sound c o b e q r' r l t bt n f hq hr hv he⟩
  have hQ : Quaternion.normSq (star q * r') = 1 := by rw [map_mul, nstar hq, hr, one_mul]
  rw [fobb_eval c o b e q r' r l t bt n f hq hr, loc_nonempty hq (fun p => mem_frustum hq) (fun p => mem_obox_loc (o := o) hq hr p)]
  dsimp only
  set Q := star q * r'
  set C := rot (star q) (b - o)
  rintro ⟨h1, h2 | h2 | ⟨h2, h3⟩⟩
  · refine ⟨C, mem_frustum0.2 fun P hP => ?_, center_mem_obox hQ he⟩
    have := h2 P hP; have := radius_nonneg he (rot (star Q) P.1); linarith
  · exact ⟨C, mem_frustum0.2 h2, center_mem_obox hQ he⟩
  · by_contra hd
    rw [poly_sat (supp_frustum0 hv hlr hbt) (supp_obox hQ C e he) frustum0_convex (frustum0_compact hv) (obox_convex hQ C e) (obox_compact hQ C e) (Or.inl trivial)] at hd
    rcases hd with ⟨m, ⟨P, hP, rfl⟩, k⟩ | ⟨m, ⟨i, rfl | rfl⟩, k⟩ | ⟨E, hE, m, ⟨i, rfl⟩, k⟩
    · exact h1 ⟨P, hP, (obox_gt hQ C e he _ _).1 ((sep_face hv hP _).1 k)⟩
    · have k := (sep_obox hQ C e he (frustum0 r l t bt n f) (rotM Q i)).2.1 k
      rw [row_radius hQ] at k
      exact h2 ⟨i, Or.inl ((frustum0_gt hv _ _).1 k)⟩
    · rw [sep_neg] at k
      have k := (sep_obox hQ C e he (frustum0 r l t bt n f) (rotM Q i)).1.1 k
      rw [row_radius hQ] at k
      exact h2 ⟨i, Or.inr ((frustum0_lt hv _ _).1 k)⟩
    · rw [← cross_anticomm (rotM Q i) E, sep_neg, sep_neg] at k
      refine h3 ⟨i, E, hE, ?_⟩
      rcases k with k | k
      · exact Or.inr ((frustum0_gt hv _ _).1 ((sep_obox hQ C e he (frustum0 r l t bt n f) _).2.1 k))
      · exact Or.inl ((frustum0_lt hv _ _).1 ((sep_obox hQ C e he (frustum0 r l t bt n f) _).1.1 k))

end DXM.Props
