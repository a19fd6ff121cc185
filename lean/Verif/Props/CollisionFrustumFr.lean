import Verif.Props.CollisionFrustumSat

/-
C91: the frustum-frustum test.
-/

set_option linter.all false

namespace DXM.Props
open DXM.E DXM.Spec DXM.RG DXM.Geo Matrix Classical

theorem v_set (x y z : ℝ) (w : E) : XMVectorSet (num x) (num y) (num z) w = vec3 ![x, y, z] w := by simp [XMVectorSet]

theorem sat_if' (a b d e : Prop) [Decidable a] [Decidable b] [Decidable (a ∨ d)] [Decidable ((a ∨ d) ∨ e)] :
    ((if a then false else if b then true else if a ∨ d then false else if (a ∨ d) ∨ e then false else true) = true) ↔ ¬ a ∧ (b ∨ (¬ d ∧ ¬ e)) := by
  by_cases a <;> by_cases b <;> by_cases d <;> by_cases e <;> simp [*]

/-- The corners of the second frustum in the frame of the first. -/
noncomputable def cornersIn (Q : Quaternion ℝ) (O : Pt) (r l t b n f : ℝ) : List Pt := (fcorners r l t b n f).map fun u => O + rot Q u

set_option maxHeartbeats 800000 in
theorem ff_eval (c : Cfg) (o o' : Pt) (q q' : Quaternion ℝ) (r l t b n f r' l' t' b' n' f' : ℝ) (hq : Quaternion.normSq q = 1) (hq' : Quaternion.normSq q' = 1) :
    (BoundingFrustum.IntersectsFrustum c (frustumOf o q r l t b n f) (frustumOf o' q' r' l' t' b' n' f') = true) ↔
      let O := rot (star q) (o' - o)
      let Q := star q * q'
      (¬ ∃ P ∈ fplanes r l t b n f, ∀ u ∈ cornersIn Q O r' l' t' b' n' f', P.2 < P.1 ⬝ᵥ u) ∧
      ((∀ P ∈ fplanes r l t b n f, ∀ u ∈ cornersIn Q O r' l' t' b' n' f', P.1 ⬝ᵥ u ≤ P.2) ∨
        (¬ ∃ P ∈ fplanes r' l' t' b' n' f', ∀ u ∈ fcorners r l t b n f, rot Q P.1 ⬝ᵥ O + P.2 < rot Q P.1 ⬝ᵥ u) ∧
        ¬ ∃ E ∈ fedges r' l' t' b', ∃ E' ∈ fedges r l t b,
          (∀ u ∈ fcorners r l t b n f, ∀ v ∈ cornersIn Q O r' l' t' b' n' f', crossProduct (rot Q E) E' ⬝ᵥ u < crossProduct (rot Q E) E' ⬝ᵥ v) ∨
          (∀ u ∈ fcorners r l t b n f, ∀ v ∈ cornersIn Q O r' l' t' b' n' f', crossProduct (rot Q E) E' ⬝ᵥ v < crossProduct (rot Q E) E' ⬝ᵥ u)) := by
  have hQ : Quaternion.normSq (star q * q') = 1 := by rw [map_mul, nstar hq, hq', one_mul]
  have n1 : (Lane.cNeg1 : E) = num (-1) := by simp
  simp only [BoundingFrustum.IntersectsFrustum, fr_o, fr_q, fr_corners, fr_edges, q_conj, XMQuaternionMultiply_quat, fr_rt, fr_rb, fr_lt, fr_lb, fr_n, fr_f, fr_r, fr_l, fr_t, fr_b]
  geo
  simp only [n1, v_set]
  geo
  set Q := star q * q' with hQd
  set O := rot (star q) (o' - o) with hOA
  have hC : [vec3 (n' • rot Q ![r', t', 1] + O) (num (0 * n' + 0)), vec3 (n' • rot Q ![r', b', 1] + O) (num (0 * n' + 0)),
       vec3 (n' • rot Q ![l', t', 1] + O) (num (0 * n' + 0)), vec3 (n' • rot Q ![l', b', 1] + O) (num (0 * n' + 0)),
       vec3 (f' • rot Q ![r', t', 1] + O) (num (0 * f' + 0)), vec3 (f' • rot Q ![r', b', 1] + O) (num (0 * f' + 0)),
       vec3 (f' • rot Q ![l', t', 1] + O) (num (0 * f' + 0)), vec3 (f' • rot Q ![l', b', 1] + O) (num (0 * f' + 0))] =
       (cornersIn Q O r' l' t' b' n' f').map fun u => vec3 u (num 0) := by
    simp only [cornersIn, fcorners, List.map_cons, List.map_nil, zero_mul, zero_add, rot_smul hQ, add_comm O]
  have hB : [(vec3 ![0, 0, -1] (num 0), all (-n)), (vec3 ![0, 0, 1] (num 0), all f), (vec3 ![1, 0, -r] (num 0), all 0), (vec3 ![-1, 0, l] (num 0), all 0),
      (vec3 ![0, 1, -t] (num 0), all 0), (vec3 ![0, -1, b] (num 0), all 0)] = (fplanes r l t b n f).map fun P => (vec3 P.1 (num 0), all P.2) := by
    simp only [fplanes, List.map_cons, List.map_nil]
  have d1 : rot Q ![0, 0, -1] ⬝ᵥ (n' • rot Q ![r', t', 1] + O) = rot Q ![0, 0, -1] ⬝ᵥ O + -n' := by
    rw [dotProduct_add, dotProduct_smul, rot_dot hQ]; simp [dotProduct, Fin.sum_univ_three]; ring
  have d2 : -rot Q ![0, 0, -1] ⬝ᵥ (f' • rot Q ![r', t', 1] + O) = rot Q ![0, 0, 1] ⬝ᵥ O + f' := by
    have : (![0, 0, 1] : Pt) = -![0, 0, -1] := by ext i; fin_cases i <;> simp
    rw [this, rot_neg hQ, dotProduct_add, dotProduct_smul, neg_dotProduct, rot_dot hQ]; simp [dotProduct, Fin.sum_univ_three]; ring
  have d3 : -rot Q ![0, 0, -1] = rot Q ![0, 0, 1] := by
    have : (![0, 0, 1] : Pt) = -![0, 0, -1] := by ext i; fin_cases i <;> simp
    rw [this, rot_neg hQ]
  have hA : [(vec3 (rot Q ![0, 0, -1]) (num 0), all (rot Q ![0, 0, -1] ⬝ᵥ (n' • rot Q ![r', t', 1] + O))),
                          (vec3 (-rot Q ![0, 0, -1]) (num (-0)),
                            all (-rot Q ![0, 0, -1] ⬝ᵥ (f' • rot Q ![r', t', 1] + O))),
                          (vec3 (rot Q ![1, 0, -r']) (num 0), all (rot Q ![1, 0, -r'] ⬝ᵥ O)),
                          (vec3 (rot Q ![-1, 0, l']) (num 0), all (rot Q ![-1, 0, l'] ⬝ᵥ O)),
                          (vec3 (rot Q ![0, 1, -t']) (num 0), all (rot Q ![0, 1, -t'] ⬝ᵥ O)),
                          (vec3 (rot Q ![0, -1, b']) (num 0), all (rot Q ![0, -1, b'] ⬝ᵥ O))] =
       (fplanes r' l' t' b' n' f').map fun P => (vec3 (rot Q P.1) (num 0), all (rot Q P.1 ⬝ᵥ O + P.2)) := by
    rw [d1, d2, d3]
    simp only [fplanes, List.map_cons, List.map_nil, add_zero, neg_zero]
  have hE : [vec3 (rot Q ![r', t', 1]) (num 0), vec3 (rot Q ![r', b', 1]) (num 0),
                        vec3 (rot Q ![l', t', 1]) (num 0), vec3 (rot Q ![l', b', 1]) (num 0),
                        vec3 (rot Q ![r', t', 1] - rot Q ![l', t', 1]) (num (0 - 0)),
                        vec3 (rot Q ![l', b', 1] - rot Q ![l', t', 1]) (num (0 - 0))] = (fedges r' l' t' b').map fun E => vec3 (rot Q E) (num 0) := by
    simp only [fedges, List.map_cons, List.map_nil, sub_zero, rot_sub hQ]
  simp only [hC, hB, hA, hE, List.foldl_map]
  have hL : fcorners r l t b n f ≠ [] := by simp [fcorners]
  have hL' : cornersIn Q O r' l' t' b' n' f' ≠ [] := by simp [cornersIn, fcorners]
  generalize fcorners r l t b n f = LB at *
  generalize cornersIn Q O r' l' t' b' n' f' = LA at *
  rw [v_false, fold_pair _ _ (fun P => ∀ u ∈ LA, P.2 < P.1 ⬝ᵥ u) (fun P => ∀ u ∈ LA, P.1 ⬝ᵥ u ≤ P.2)]
  rotate_left
  · intro x y P hP
    obtain ⟨mn, mx, e1, e2, e3, e4, e5⟩ := minMax_s' (fun u : V4 E => XMVector3Dot c (vec3 P.1 (num 0)) u) (fun u => P.1 ⬝ᵥ u) (num 0) LA hL' (fun u => by geo)
    dsimp only
    rw [e1]
    geo
    simp only [← e2, ← e5]
  rw [fold_or _ _ (fun P => ∀ u ∈ LB, rot Q P.1 ⬝ᵥ O + P.2 < rot Q P.1 ⬝ᵥ u)]
  rotate_left
  · intro x P hP
    obtain ⟨mn, mx, e1, e2, e3, e4, e5⟩ := minMax_s' (fun u : V4 E => XMVector3Dot c (vec3 (rot Q P.1) (num 0)) u) (fun u => rot Q P.1 ⬝ᵥ u) (num 0) LB hL (fun u => by geo)
    rw [e1]
    geo
    simp only [← e2]
  rw [fold_or _ _ (fun E => ∃ E' ∈ fedges r l t b,
          (∀ u ∈ LB, ∀ v ∈ LA, crossProduct (rot Q E) E' ⬝ᵥ u < crossProduct (rot Q E) E' ⬝ᵥ v) ∨
          (∀ u ∈ LB, ∀ v ∈ LA, crossProduct (rot Q E) E' ⬝ᵥ v < crossProduct (rot Q E) E' ⬝ᵥ u))]
  rotate_left
  · intro x Ed hE
    refine fold_or _ _ _ _ ?_
    intro x Ed' hE'
    geo
    obtain ⟨mn, mx, e1, e2, e3, e4, e5⟩ := minMax_s' (fun u : V4 E => XMVector3Dot c (vec3 (crossProduct (rot Q Ed) Ed') (num 0)) u) (fun u => crossProduct (rot Q Ed) Ed' ⬝ᵥ u) (num 0) LA hL' (fun u => by geo)
    obtain ⟨mn', mx', e1', e2', e3', e4', e5'⟩ := minMax_s' (fun u : V4 E => XMVector3Dot c (vec3 (crossProduct (rot Q Ed) Ed') (num 0)) u) (fun u => crossProduct (rot Q Ed) Ed' ⬝ᵥ u) (num 0) LB hL (fun u => by geo)
    rw [e1, e1']
    geo
    congr 1
    refine propext ?_
    rw [or_assoc]
    refine or_congr Iff.rfl (or_congr ?_ ?_)
    · rw [e2]; simp only [e3']; exact ⟨fun h u hu v hv => h v hv u hu, fun h v hv u hu => h u hu v hv⟩
    · rw [e2']; simp only [e3]
  simp only [m_eq4, false_or, true_and]
  exact sat_if' _ _ _ _

section
variable {O : Pt} {Q : Quaternion ℝ} {r l t b n f : ℝ} (hQ : Quaternion.normSq Q = 1)
include hQ
theorem mem_cornersIn {p : Pt} : p ∈ cornersIn Q O r l t b n f ↔ ∃ u ∈ fcorners r l t b n f, p = O + rot Q u := by
  simp only [cornersIn, List.mem_map]
  exact exists_congr fun u => and_congr_right fun _ => eq_comm
theorem frustum_gt (hv : ValidFrustum r l t b n f) (m : Pt) (d : ℝ) :
    (∀ y ∈ frustum O Q r l t b n f, d < m ⬝ᵥ y) ↔ ∀ u ∈ cornersIn Q O r l t b n f, d < m ⬝ᵥ u := by
  rw [frustum_forall]
  have adj : ∀ x : Pt, m ⬝ᵥ (O + rot Q x) = m ⬝ᵥ O + rot (star Q) m ⬝ᵥ x := fun x => by
    rw [dotProduct_add, dotProduct_comm m (rot Q x), rot_adj hQ, dotProduct_comm x]
  have k := frustum0_gt hv (rot (star Q) m) (d - m ⬝ᵥ O)
  constructor
  · intro h p hp
    obtain ⟨u, hu, rfl⟩ := (mem_cornersIn hQ).1 hp
    have := k.1 (fun x hx => by have := h x hx; rw [adj] at this; linarith) u hu
    rw [adj]; linarith
  · intro h u hu
    have := k.2 (fun x hx => by have := h _ ((mem_cornersIn hQ).2 ⟨x, hx, rfl⟩); rw [adj] at this; linarith) u hu
    rw [adj]; linarith
theorem frustum_lt (hv : ValidFrustum r l t b n f) (m : Pt) (d : ℝ) :
    (∀ y ∈ frustum O Q r l t b n f, m ⬝ᵥ y < d) ↔ ∀ u ∈ cornersIn Q O r l t b n f, m ⬝ᵥ u < d := by
  have := frustum_gt hQ hv (-m) (-d) (O := O)
  simpa only [neg_dotProduct, neg_lt_neg_iff] using this
theorem frustum_le (hv : ValidFrustum r l t b n f) (m : Pt) (d : ℝ) :
    (∀ y ∈ frustum O Q r l t b n f, m ⬝ᵥ y ≤ d) ↔ ∀ u ∈ cornersIn Q O r l t b n f, m ⬝ᵥ u ≤ d := by
  constructor
  · intro h p hp
    obtain ⟨u, hu, rfl⟩ := (mem_cornersIn hQ).1 hp
    exact h _ ⟨u, corner_in hv u hu, rfl⟩
  · intro h y hy
    refine le_of_forall_gt fun d' hd => ?_
    exact (frustum_lt hQ hv m d').2 (fun u hu => lt_of_le_of_lt (h u hu) hd) y hy
theorem sep_face' (hv : ValidFrustum r l t b n f) {P : Pt × ℝ} (hP : P ∈ fplanes r l t b n f) (T : Set Pt) :
    Sep (frustum O Q r l t b n f) T (rot Q P.1) ↔ ∀ y ∈ T, rot Q P.1 ⬝ᵥ O + P.2 < rot Q P.1 ⬝ᵥ y := by
  constructor
  · intro h y hy
    obtain ⟨u, hu, e⟩ := face_attained hP
    have := h _ ⟨u, corner_in hv u hu, rfl⟩ y hy
    rwa [dotProduct_add, rot_dot hQ, e] at this
  · rintro h x ⟨u, hu, rfl⟩ y hy
    have := h y hy
    have k := mem_frustum0.1 hu P hP
    rw [dotProduct_add, rot_dot hQ]; linarith
end

section
variable (c : Cfg) (o o' : Pt) (q q' : Quaternion ℝ) (r l t b n f r' l' t' b' n' f' : ℝ) (hq : Quaternion.normSq q = 1) (hq' : Quaternion.normSq q' = 1)
  (hv : ValidFrustum r l t b n f) (hv' : ValidFrustum r' l' t' b' n' f')
include hq hq' hv hv'

theorem sep_corners {O : Pt} {Q : Quaternion ℝ} (hQ : Quaternion.normSq Q = 1) (m : Pt) :
    (Sep (frustum0 r l t b n f) (frustum O Q r' l' t' b' n' f') m ↔ ∀ u ∈ fcorners r l t b n f, ∀ v ∈ cornersIn Q O r' l' t' b' n' f', m ⬝ᵥ u < m ⬝ᵥ v) ∧
    (Sep (frustum O Q r' l' t' b' n' f') (frustum0 r l t b n f) m ↔ ∀ u ∈ fcorners r l t b n f, ∀ v ∈ cornersIn Q O r' l' t' b' n' f', m ⬝ᵥ v < m ⬝ᵥ u) := by
  constructor
  · constructor
    · intro h u hu v hv
      obtain ⟨w, hw, rfl⟩ := (mem_cornersIn hQ).1 hv
      exact h u (corner_in ‹ValidFrustum r l t b n f› u hu) _ ⟨w, corner_in hv' w hw, rfl⟩
    · intro h x hx
      refine (frustum_gt hQ hv' m _).2 fun v hv => ?_
      exact (frustum0_lt ‹ValidFrustum r l t b n f› m _).2 (fun u hu => h u hu v hv) x hx
  · constructor
    · intro h u hu v hv
      obtain ⟨w, hw, rfl⟩ := (mem_cornersIn hQ).1 hv
      exact h _ ⟨w, corner_in hv' w hw, rfl⟩ u (corner_in ‹ValidFrustum r l t b n f› u hu)
    · intro h x hx y hy
      refine (frustum_lt hQ hv' m _).2 (fun v hv => ?_) x hx
      exact (frustum0_gt ‹ValidFrustum r l t b n f› m _).2 (fun u hu => h u hu v hv) y hy

/-- The test of two frusta never misses an intersection. -/
theorem C91_frustum_sound (h : (frustum o q r l t b n f ∩ frustum o' q' r' l' t' b' n' f').Nonempty) :
    BoundingFrustum.IntersectsFrustum c (frustumOf o q r l t b n f) (frustumOf o' q' r' l' t' b' n' f') = true := by
  have hQ : Quaternion.normSq (star q * q') = 1 := by rw [map_mul, nstar hq, hq', one_mul]
  rw [ff_eval c o o' q q' r l t b n f r' l' t' b' n' f' hq hq']
  rw [loc_nonempty hq (fun p => mem_frustum hq) (fun p => mem_frustum_loc (o := o) hq hq' p)] at h
  dsimp only
  set Q := star q * q'
  set O := rot (star q) (o' - o)
  refine ⟨?_, Or.inr ⟨?_, ?_⟩⟩
  · rintro ⟨P, hP, k⟩
    exact Sep.disj ((sep_face hv hP _).2 ((frustum_gt hQ hv' _ _).2 k)) h
  · rintro ⟨P, hP, k⟩
    exact Sep.disj' ((sep_face' hQ hv' hP _).2 ((frustum0_gt hv _ _).2 k)) h
  · rintro ⟨E, hE, E', hE', k | k⟩
    · exact Sep.disj ((sep_corners q q' r l t b n f r' l' t' b' n' f' hq hq' hv hv' hQ _).1.2 k) h
    · exact Sep.disj' ((sep_corners q q' r l t b n f r' l' t' b' n' f' hq hq' hv hv' hQ _).2.2 k) h

/-- Exact for frusta that are not flat. -/
theorem C91_frustum (hlr : l ≠ r) (hbt : b ≠ t) (hlr' : l' ≠ r') (hbt' : b' ≠ t') :
    BoundingFrustum.IntersectsFrustum c (frustumOf o q r l t b n f) (frustumOf o' q' r' l' t' b' n' f') = true ↔
      (frustum o q r l t b n f ∩ frustum o' q' r' l' t' b' n' f').Nonempty := by
  refine ⟨?_, C91_frustum_sound c o o' q q' r l t b n f r' l' t' b' n' f' hq hq' hv hv'⟩
  have hQ : Quaternion.normSq (star q * q') = 1 := by rw [map_mul, nstar hq, hq', one_mul]
  rw [ff_eval c o o' q q' r l t b n f r' l' t' b' n' f' hq hq', loc_nonempty hq (fun p => mem_frustum hq) (fun p => mem_frustum_loc (o := o) hq hq' p)]
  dsimp only
  set Q := star q * q'
  set O := rot (star q) (o' - o)
  rintro ⟨h1, h2 | ⟨h2, h3⟩⟩
  · obtain ⟨u, hu⟩ := frustum0_nonempty hv'
    refine ⟨O + rot Q u, mem_frustum0.2 fun P hP => ?_, ⟨u, hu, rfl⟩⟩
    exact (frustum_le hQ hv' _ _).2 (h2 P hP) _ ⟨u, hu, rfl⟩
  · by_contra hd
    rw [poly_sat (supp_frustum0 hv hlr hbt) (supp_frustum hQ hv' hlr' hbt') frustum0_convex (frustum0_compact hv)
      (frustum_convex hQ) (frustum_compact hQ hv') (Or.inl trivial)] at hd
    have sc := sep_corners q q' r l t b n f r' l' t' b' n' f' hq hq' hv hv' hQ (O := O)
    rcases hd with ⟨m, ⟨P, hP, rfl⟩, k⟩ | ⟨m, ⟨P, hP, rfl⟩, k⟩ | ⟨E', hE', m, ⟨E, hE, rfl⟩, k⟩
    · exact h1 ⟨P, hP, (frustum_gt hQ hv' _ _).1 ((sep_face hv hP _).1 k)⟩
    · exact h2 ⟨P, hP, (frustum0_gt hv _ _).1 ((sep_face' hQ hv' hP _).1 k)⟩
    · rw [← cross_anticomm (rot Q E) E', sep_neg, sep_neg] at k
      refine h3 ⟨E, hE, E', hE', ?_⟩
      rcases k with k | k
      · exact Or.inr ((sc _).2.1 k)
      · exact Or.inl ((sc _).1.1 k)
end

end DXM.Props
