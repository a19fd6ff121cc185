import Verif.Lemmas.Geo3

/-
The separating-axis theorem for polytopes with listed face normals and edge directions, and its instances.
-/

set_option linter.all false

namespace DXM.RG
open DXM.Spec Matrix

/-- `S` lies strictly below `T` along `m`. -/
def Sep (S T : Set Pt) (m : Pt) : Prop := ∀ x ∈ S, ∀ y ∈ T, m ⬝ᵥ x < m ⬝ᵥ y
theorem Sep.disj {S T : Set Pt} {m : Pt} (h : Sep S T m) : ¬ (S ∩ T).Nonempty := fun ⟨p, h1, h2⟩ => lt_irrefl _ (h p h1 p h2)
theorem Sep.disj' {S T : Set Pt} {m : Pt} (h : Sep S T m) : ¬ (T ∩ S).Nonempty := fun ⟨p, h1, h2⟩ => lt_irrefl _ (h p h2 p h1)
theorem sep_neg {S T : Set Pt} {m : Pt} : Sep S T (-m) ↔ Sep T S m := by
  unfold Sep
  simp only [neg_dotProduct, neg_lt_neg_iff]
  exact ⟨fun h x hx y hy => h y hy x hx, fun h x hx y hy => h y hy x hx⟩
theorem sep_smul {S T : Set Pt} {m : Pt} {c : ℝ} (hc : 0 < c) : Sep S T (c • m) ↔ Sep S T m := by
  unfold Sep
  simp only [smul_dotProduct, smul_eq_mul, mul_lt_mul_iff_right₀ hc]
theorem sep_smul' {S T : Set Pt} {m : Pt} {c : ℝ} (hc : c ≠ 0) : Sep S T (c • m) → Sep S T m ∨ Sep T S m := by
  intro h
  rcases lt_or_gt_of_ne hc with k | k
  · right
    have : c • m = (-c) • (-m) := by rw [smul_neg, neg_smul, neg_neg]
    rw [this, sep_smul (by linarith), sep_neg] at h; exact h
  · left; rwa [sep_smul k] at h

/-- At some vertex that is extreme along `m`, the polytope `S` is in the cone of edge directions from `edges`; the planes spanned by two
edges there that bound the cone have normals in `faces`.  If `D`, the edges span space. -/
def Supp (S : Set Pt) (faces edges : Set Pt) (D : Prop) : Prop :=
  ∀ m : Pt, ∃ k : ℕ, ∃ v ∈ S, ∃ g : Fin k → Pt, (∀ i, m ⬝ᵥ g i ≤ 0) ∧
    (∀ u ∈ S, ∃ x : Fin k → ℝ, (∀ i, 0 ≤ x i) ∧ u = v + ∑ i, x i • g i) ∧
    (D → ∀ u : Pt, (∀ i, u ⬝ᵥ g i = 0) → u = 0) ∧
    (∀ i, ∃ E ∈ edges, ∃ c : ℝ, c ≠ 0 ∧ g i = c • E) ∧
    ∀ i j, ∀ s : ℝ, (s = 1 ∨ s = -1) → (∀ k, (s • crossProduct (g i) (g j)) ⬝ᵥ g k ≤ 0) → s • crossProduct (g i) (g j) ≠ 0 →
      ∃ P ∈ faces, ∃ c : ℝ, 0 < c ∧ s • crossProduct (g i) (g j) = c • P

theorem poly_sat {S T fS fT eS eT : Set Pt} {D D' : Prop} (hS : Supp S fS eS D) (hT : Supp T fT eT D') (cS : Convex ℝ S) (kS : IsCompact S)
    (cT : Convex ℝ T) (kT : IsCompact T) (hD : D ∨ D') :
    ¬ (S ∩ T).Nonempty ↔ (∃ P ∈ fS, Sep S T P) ∨ (∃ P ∈ fT, Sep T S P) ∨
      ∃ E ∈ eS, ∃ E' ∈ eT, Sep S T (crossProduct E E') ∨ Sep T S (crossProduct E E') := by
  constructor
  · intro h
    obtain ⟨n, hn⟩ := exists_sep cS kS cT kT (Set.disjoint_iff_inter_eq_empty.2 (Set.not_nonempty_iff_eq_empty.1 h))
    obtain ⟨k, v, hv, g, g1, g2, g3, g4, g5⟩ := hS n
    obtain ⟨k', w, hw, h, h1, h2, h3, h4, h5⟩ := hT (-n)
    obtain ⟨i, j, s, hs, m1, m2, m3⟩ := sat S T v w n g h g2 h2 (fun u hu hu' => by
      rcases hD with hD | hD
      · exact g3 hD u hu
      · exact h3 hD u hu') g1 (fun i => by have := h1 i; rw [neg_dotProduct] at this; linarith) (hn v hv w hw)
    have hne : s • crossProduct (Sum.elim g h i) (Sum.elim g h j) ≠ 0 := by
      intro h0; have := m3 v hv w hw; rw [h0, zero_dotProduct, zero_dotProduct] at this; exact lt_irrefl _ this
    rcases i with i | i <;> rcases j with j | j <;> simp only [Sum.elim_inl, Sum.elim_inr] at m1 m2 m3 hne
    · left
      obtain ⟨P, hP, c, hc, e⟩ := g5 i j s hs m1 hne
      refine ⟨P, hP, (sep_smul hc).1 ?_⟩
      rw [← e]; exact m3
    · right; right
      obtain ⟨E, hE, a, ha, ea⟩ := g4 i
      obtain ⟨E', hE', b, hb, eb⟩ := h4 j
      refine ⟨E, hE, E', hE', sep_smul' (c := s * (a * b)) ?_ ?_⟩
      · have : s ≠ 0 := by rcases hs with rfl | rfl <;> norm_num
        exact mul_ne_zero this (mul_ne_zero ha hb)
      · rw [ea, eb, smul_cross, smul_smul] at m3; exact m3
    · right; right
      obtain ⟨E, hE, a, ha, ea⟩ := g4 j
      obtain ⟨E', hE', b, hb, eb⟩ := h4 i
      refine ⟨E, hE, E', hE', sep_smul' (c := s * (-(b * a))) ?_ ?_⟩
      · have : s ≠ 0 := by rcases hs with rfl | rfl <;> norm_num
        exact mul_ne_zero this (neg_ne_zero.2 (mul_ne_zero hb ha))
      · rw [ea, eb, smul_cross, smul_smul, ← cross_anticomm, smul_neg, ← neg_smul, ← mul_neg] at m3; exact m3
    · right; left
      have e : (-s) • crossProduct (h i) (h j) = -(s • crossProduct (h i) (h j)) := neg_smul _ _
      obtain ⟨P, hP, c, hc, e'⟩ := h5 i j (-s) (by rcases hs with rfl | rfl <;> simp)
        (fun k => by rw [e, neg_dotProduct]; linarith [m2 k]) (by rw [e]; exact neg_ne_zero.2 hne)
      refine ⟨P, hP, (sep_smul hc).1 ?_⟩
      rw [← e', e, sep_neg]; exact m3
  · rintro (⟨P, -, h⟩ | ⟨P, -, h⟩ | ⟨E, -, E', -, h | h⟩)
    exacts [h.disj, h.disj', h.disj, h.disj']

/-! instances -/
theorem supp_frustum0 {r l t b n f : ℝ} (hv : ValidFrustum r l t b n f) (hlr : l ≠ r) (hbt : b ≠ t) :
    Supp (frustum0 r l t b n f) {m | ∃ P ∈ fplanes r l t b n f, m = P.1} {E | E ∈ fedges r l t b} True := by
  intro m
  obtain ⟨v, hv, g, g1, g2, g3, g4, g5⟩ := frustum0_support hv hlr hbt m
  refine ⟨3, v, hv, g, g1, g2, fun _ => g3, g4, fun i j s hs hm hne => ?_⟩
  obtain ⟨P, hP, e, -⟩ := g5 i j s hs hm hne
  exact ⟨P.1, ⟨P, hP, rfl⟩, 1, one_pos, by rw [one_smul]; exact e⟩
theorem supp_rigid {S F E : Set Pt} {D : Prop} (h : Supp S F E D) {q : Quaternion ℝ} (hq : Quaternion.normSq q = 1) (o : Pt) :
    Supp {p | ∃ u ∈ S, p = o + rot q u} {m | ∃ P ∈ F, m = rot q P} {m | ∃ P ∈ E, m = rot q P} D := by
  intro m
  obtain ⟨k, v, hv, g, g1, g2, g3, g4, g5⟩ := h (rot (star q) m)
  have adj : ∀ x : Pt, m ⬝ᵥ rot q x = rot (star q) m ⬝ᵥ x := fun x => by rw [dotProduct_comm, rot_adj hq, dotProduct_comm]
  refine ⟨k, o + rot q v, ⟨v, hv, rfl⟩, fun i => rot q (g i), ?_, ?_, ?_, ?_, ?_⟩
  · intro i; rw [adj]; exact g1 i
  · rintro _ ⟨u, hu, rfl⟩
    obtain ⟨x, hx, e⟩ := g2 u hu
    refine ⟨x, hx, ?_⟩
    rw [e, rot_add hq, add_assoc]
    congr 2
    have : ∀ s : Finset (Fin k), rot q (∑ i ∈ s, x i • g i) = ∑ i ∈ s, x i • rot q (g i) := by
      intro s
      induction s using Finset.induction_on with
      | empty => simp [rot_zero hq]
      | insert a s ha ih => rw [Finset.sum_insert ha, Finset.sum_insert ha, rot_add hq, rot_smul hq, ih]
    exact this _
  · intro hD u hu
    have : rot (star q) u = 0 := g3 hD _ (fun i => by
      have := hu i; rwa [dotProduct_comm, rot_adj hq, dotProduct_comm] at this)
    rw [← rot_rot_star hq u, this, rot_zero hq]
  · intro i
    obtain ⟨e, he, c, hc, h⟩ := g4 i
    exact ⟨rot q e, ⟨e, he, rfl⟩, c, hc, by dsimp only; rw [h, rot_smul hq]⟩
  · intro i j s hs hm hne
    have e : s • crossProduct (rot q (g i)) (rot q (g j)) = rot q (s • crossProduct (g i) (g j)) := by
      rw [rot_smul hq, rot_cross hq]
    rw [e] at hm hne ⊢
    obtain ⟨P, hP, c, hc, h⟩ := g5 i j s hs (fun k => by have := hm k; rwa [rot_dot hq] at this) (fun h => hne (by rw [h, rot_zero hq]))
    exact ⟨rot q P, ⟨P, hP, rfl⟩, c, hc, by rw [h, rot_smul hq]⟩
theorem supp_frustum {o : Pt} {q : Quaternion ℝ} (hq : Quaternion.normSq q = 1) {r l t b n f : ℝ} (hv : ValidFrustum r l t b n f) (hlr : l ≠ r) (hbt : b ≠ t) :
    Supp (frustum o q r l t b n f) {m | ∃ P ∈ fplanes r l t b n f, m = rot q P.1} {m | ∃ P ∈ fedges r l t b, m = rot q P} True := by
  have := supp_rigid (supp_frustum0 hv hlr hbt) hq o
  have e1 : {m | ∃ P ∈ {m | ∃ P ∈ fplanes r l t b n f, m = P.1}, m = rot q P} = {m | ∃ P ∈ fplanes r l t b n f, m = rot q P.1} := by
    ext m; constructor
    · rintro ⟨_, ⟨P, hP, rfl⟩, rfl⟩; exact ⟨P, hP, rfl⟩
    · rintro ⟨P, hP, rfl⟩; exact ⟨_, ⟨P, hP, rfl⟩, rfl⟩
  rw [e1] at this
  exact this
theorem supp_obox {q : Quaternion ℝ} (hq : Quaternion.normSq q = 1) (a e : Pt) (he : ∀ i, 0 ≤ e i) :
    Supp (obox a e q) {m | ∃ i, m = rotM q i ∨ m = -rotM q i} {m | ∃ i, m = rotM q i} True := by
  intro m
  obtain ⟨v, hv, s, hs, h1, h2⟩ := obox_support hq a e he m
  refine ⟨3, v, hv, fun i => s i • rotM q i, h1, h2, fun _ => rows_span hq hs, fun i => ⟨_, ⟨i, rfl⟩, s i, by rcases hs i with h | h <;> rw [h] <;> norm_num, rfl⟩, ?_⟩
  intro i j σ hσ _ hne
  rw [smul_cross, smul_smul] at hne ⊢
  rcases row_cross hq i j with ⟨k, s', hs', hk⟩ | hk
  · rw [hk, smul_smul]
    have : σ * (s i * s j) * s' = 1 ∨ σ * (s i * s j) * s' = -1 := sign_mul (sign_mul hσ (sign_mul (hs i) (hs j))) hs'
    rcases this with h | h
    · exact ⟨rotM q k, ⟨k, Or.inl rfl⟩, 1, one_pos, by rw [h]⟩
    · exact ⟨-rotM q k, ⟨k, Or.inr rfl⟩, 1, one_pos, by rw [h]; simp⟩
  · rw [hk, smul_zero] at hne; exact absurd rfl hne
theorem supp_tri (v0 v1 v2 : Pt) :
    Supp (tri v0 v1 v2) {m | m = crossProduct (v1 - v0) (v2 - v0) ∨ m = -crossProduct (v1 - v0) (v2 - v0)}
      {m | m = v1 - v0 ∨ m = v2 - v1 ∨ m = v0 - v2} False := by
  intro m
  obtain ⟨v, hv, g, hg, h1, h2⟩ := tri_support v0 v1 v2 m
  have hc : crossProduct (g 0) (g 1) = crossProduct (v1 - v0) (v2 - v0) := by
    rcases hg with ⟨e0, e1⟩ | ⟨e0, e1⟩ | ⟨e0, e1⟩ <;> rw [e0, e1] <;> (simp only [crossP]; ext i <;> fin_cases i <;> simp <;> ring)
  have neg : ∀ x y : Pt, ∃ c : ℝ, c ≠ 0 ∧ x - y = c • (y - x) := fun x y => ⟨-1, by norm_num, by simp⟩
  refine ⟨2, v, hv, g, h1, h2, False.elim, ?_, ?_⟩
  · have one : ∀ x : Pt, ∃ c : ℝ, c ≠ 0 ∧ x = c • x := fun x => ⟨1, one_ne_zero, by simp⟩
    intro i
    rcases hg with ⟨e0, e1⟩ | ⟨e0, e1⟩ | ⟨e0, e1⟩ <;> fin_cases i <;> simp only [Fin.zero_eta, Fin.mk_one, e0, e1]
    · exact ⟨v1 - v0, by simp, one _⟩
    · exact ⟨v0 - v2, by simp, neg _ _⟩
    · exact ⟨v2 - v1, by simp, one _⟩
    · exact ⟨v1 - v0, by simp, neg _ _⟩
    · exact ⟨v0 - v2, by simp, one _⟩
    · exact ⟨v2 - v1, by simp, neg _ _⟩
  · intro i j s hs _ hne
    have key : ∀ s : ℝ, (s = 1 ∨ s = -1) → ∃ P ∈ {m | m = crossProduct (v1 - v0) (v2 - v0) ∨ m = -crossProduct (v1 - v0) (v2 - v0)}, ∃ c : ℝ, 0 < c ∧
        s • crossProduct (v1 - v0) (v2 - v0) = c • P := by
      rintro s (rfl | rfl)
      · exact ⟨_, Or.inl rfl, 1, one_pos, rfl⟩
      · exact ⟨_, Or.inr rfl, 1, one_pos, by simp⟩
    fin_cases i <;> fin_cases j <;> simp only [Fin.zero_eta, Fin.mk_one] at hne ⊢
    · rw [cross_self, smul_zero] at hne; exact absurd rfl hne
    · rw [hc]; exact key s hs
    · rw [← cross_anticomm (g 0) (g 1), hc, smul_neg, ← neg_smul]; exact key _ (by rcases hs with rfl | rfl <;> simp)
    · rw [cross_self, smul_zero] at hne; exact absurd rfl hne

/-! the extent of the polytopes along an axis -/
theorem face_attained {r l t b n f : ℝ} {P : Pt × ℝ} (hP : P ∈ fplanes r l t b n f) : ∃ u ∈ fcorners r l t b n f, P.1 ⬝ᵥ u = P.2 := by
  simp only [fplanes, List.mem_cons, List.not_mem_nil, or_false] at hP
  rcases hP with rfl | rfl | rfl | rfl | rfl | rfl
  · exact ⟨n • ![r, t, 1], by simp [fcorners], by simp [dotProduct, Fin.sum_univ_three]⟩
  · exact ⟨f • ![r, t, 1], by simp [fcorners], by simp [dotProduct, Fin.sum_univ_three]⟩
  · exact ⟨n • ![r, t, 1], by simp [fcorners], by simp [dotProduct, Fin.sum_univ_three]; ring⟩
  · exact ⟨n • ![l, t, 1], by simp [fcorners], by simp [dotProduct, Fin.sum_univ_three]; ring⟩
  · exact ⟨n • ![r, t, 1], by simp [fcorners], by simp [dotProduct, Fin.sum_univ_three]; ring⟩
  · exact ⟨n • ![r, b, 1], by simp [fcorners], by simp [dotProduct, Fin.sum_univ_three]; ring⟩
/-- Below a threshold. -/
theorem sep_face {r l t b n f : ℝ} (hv : ValidFrustum r l t b n f) {P : Pt × ℝ} (hP : P ∈ fplanes r l t b n f) (T : Set Pt) :
    Sep (frustum0 r l t b n f) T P.1 ↔ ∀ y ∈ T, P.2 < P.1 ⬝ᵥ y := by
  constructor
  · intro h y hy
    obtain ⟨u, hu, e⟩ := face_attained hP
    rw [← e]; exact h u (corner_in hv u hu) y hy
  · intro h x hx y hy
    exact lt_of_le_of_lt (mem_frustum0.1 hx P hP) (h y hy)
theorem obox_gt {q : Quaternion ℝ} (hq : Quaternion.normSq q = 1) (a e : Pt) (he : ∀ i, 0 ≤ e i) (m : Pt) (d : ℝ) :
    (∀ y ∈ obox a e q, d < m ⬝ᵥ y) ↔ d < m ⬝ᵥ a - e ⬝ᵥ |rot (star q) m| := by
  constructor
  · intro h
    obtain ⟨p, hp, e1⟩ := obox_extreme hq a e he (-m)
    have := h p hp
    rw [neg_dotProduct, neg_dotProduct, rot_neg (nstar hq), abs_neg] at e1
    linarith
  · intro h y hy
    have := (abs_le.1 (obox_radius hq m hy)).1
    linarith
theorem obox_lt {q : Quaternion ℝ} (hq : Quaternion.normSq q = 1) (a e : Pt) (he : ∀ i, 0 ≤ e i) (m : Pt) (d : ℝ) :
    (∀ y ∈ obox a e q, m ⬝ᵥ y < d) ↔ m ⬝ᵥ a + e ⬝ᵥ |rot (star q) m| < d := by
  constructor
  · intro h
    obtain ⟨p, hp, e1⟩ := obox_extreme hq a e he m
    have := h p hp
    linarith
  · intro h y hy
    have := (abs_le.1 (obox_radius hq m hy)).2
    linarith
theorem frustum0_gt {r l t b n f : ℝ} (h : ValidFrustum r l t b n f) (m : Pt) (d : ℝ) :
    (∀ u ∈ frustum0 r l t b n f, d < m ⬝ᵥ u) ↔ ∀ u ∈ fcorners r l t b n f, d < m ⬝ᵥ u := by
  have := frustum0_lt h (-m) (-d)
  simp only [neg_dotProduct, neg_lt_neg_iff] at this
  exact this
/-- Being apart along `m`, with the extents of the box. -/
theorem sep_obox {q : Quaternion ℝ} (hq : Quaternion.normSq q = 1) (a e : Pt) (he : ∀ i, 0 ≤ e i) (S : Set Pt) (m : Pt) :
    (Sep S (obox a e q) m ↔ ∀ u ∈ S, m ⬝ᵥ u < m ⬝ᵥ a - e ⬝ᵥ |rot (star q) m|) ∧
    (Sep (obox a e q) S m ↔ ∀ u ∈ S, m ⬝ᵥ a + e ⬝ᵥ |rot (star q) m| < m ⬝ᵥ u) := by
  constructor
  · unfold Sep
    exact forall₂_congr fun u _ => obox_gt hq a e he m _
  · unfold Sep
    constructor
    · intro h u hu; exact (obox_lt hq a e he m _).1 fun y hy => h y hy u hu
    · intro h x hx u hu; exact (obox_lt hq a e he m _).2 (h u hu) x hx
end DXM.RG
