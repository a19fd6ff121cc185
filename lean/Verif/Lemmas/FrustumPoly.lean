import Verif.Lemmas.OBBSat

/-
The frustum as a polytope: corners, faces, edge directions, support vertices.
-/

set_option linter.all false

namespace DXM.RG
open DXM.Spec DXM.E Matrix

variable {r l t b n f : ℝ}

/-- The corners, in the order of the code. -/
def fcorners (r l t b n f : ℝ) : List Pt :=
  [n • ![r, t, 1], n • ![r, b, 1], n • ![l, t, 1], n • ![l, b, 1], f • ![r, t, 1], f • ![r, b, 1], f • ![l, t, 1], f • ![l, b, 1]]
/-- Outward face normals with the value of the face. -/
def fplanes (r l t b n f : ℝ) : List (Pt × ℝ) :=
  [(![0, 0, -1], -n), (![0, 0, 1], f), (![1, 0, -r], 0), (![-1, 0, l], 0), (![0, 1, -t], 0), (![0, -1, b], 0)]
/-- The edge directions. -/
def fedges (r l t b : ℝ) : List Pt :=
  [![r, t, 1], ![r, b, 1], ![l, t, 1], ![l, b, 1], ![r, t, 1] - ![l, t, 1], ![l, b, 1] - ![l, t, 1]]

theorem mem_frustum0 {u : Pt} : u ∈ frustum0 r l t b n f ↔ ∀ P ∈ fplanes r l t b n f, P.1 ⬝ᵥ u ≤ P.2 := by
  unfold frustum0 fplanes
  simp only [Set.mem_setOf_eq, List.forall_mem_cons, List.forall_mem_nil, and_true]
  simp [dotProduct, Fin.sum_univ_three]
  tauto
theorem frustum0_convex : Convex ℝ (frustum0 r l t b n f) := by
  intro x hx y hy p q hp hq hpq
  rw [mem_frustum0] at *
  intro P hP
  have h1 := hx P hP; have h2 := hy P hP
  rw [dotProduct_add, dotProduct_smul, dotProduct_smul, smul_eq_mul, smul_eq_mul]
  have : P.2 = p * P.2 + q * P.2 := by rw [← add_mul, hpq, one_mul]
  rw [this]
  gcongr

/-- The frustum lies at positive z. -/
def LH (r l t b n f : ℝ) : Prop := l ≤ r ∧ b ≤ t ∧ 0 ≤ n ∧ n ≤ f

theorem corner_inL (h : LH r l t b n f) : ∀ u ∈ fcorners r l t b n f, u ∈ frustum0 r l t b n f := by
  obtain ⟨h1, h2, h3, h4⟩ := h
  have h5 : 0 ≤ f := h3.trans h4
  have k1 : n * l ≤ n * r := mul_le_mul_of_nonneg_left h1 h3
  have k2 : n * b ≤ n * t := mul_le_mul_of_nonneg_left h2 h3
  have k3 : f * l ≤ f * r := mul_le_mul_of_nonneg_left h1 h5
  have k4 : f * b ≤ f * t := mul_le_mul_of_nonneg_left h2 h5
  unfold fcorners
  simp only [List.forall_mem_cons, List.forall_mem_nil, and_true]
  refine ⟨?_, ?_, ?_, ?_, ?_, ?_, ?_, ?_⟩ <;> unfold frustum0 <;> simp <;> constructorm* _ ∧ _ <;> linarith

theorem frustum0_hullL (h : LH r l t b n f) : frustum0 r l t b n f = convexHull ℝ {u | u ∈ fcorners r l t b n f} := by
  refine Set.Subset.antisymm ?_ (convexHull_min (fun u hu => corner_inL h u hu) frustum0_convex)
  obtain ⟨h1, h2, h3, h4⟩ := h
  set C := convexHull ℝ {u | u ∈ fcorners r l t b n f} with hC
  have hc : Convex ℝ C := convex_convexHull ℝ _
  have hcor : ∀ u ∈ fcorners r l t b n f, u ∈ C := fun u hu => subset_convexHull ℝ _ hu
  have sx : ∀ k x y : ℝ, x ∈ Set.Icc l r → k • ![l, y, 1] ∈ C → k • ![r, y, 1] ∈ C → k • ![x, y, 1] ∈ C := by
    intro k x y hx e1 e2
    rw [← segment_eq_Icc h1] at hx
    obtain ⟨p, q, hp, hq, hpq, rfl⟩ := hx
    have := hc e1 e2 hp hq hpq
    convert this using 1
    have q1 : q = 1 - p := by linarith
    ext i; fin_cases i <;> simp [q1] <;> ring
  have sy : ∀ k x y : ℝ, y ∈ Set.Icc b t → k • ![x, b, 1] ∈ C → k • ![x, t, 1] ∈ C → k • ![x, y, 1] ∈ C := by
    intro k x y hy e1 e2
    rw [← segment_eq_Icc h2] at hy
    obtain ⟨p, q, hp, hq, hpq, rfl⟩ := hy
    have := hc e1 e2 hp hq hpq
    convert this using 1
    have q1 : q = 1 - p := by linarith
    ext i; fin_cases i <;> simp [q1] <;> ring
  have near : ∀ x y : ℝ, x ∈ Set.Icc l r → y ∈ Set.Icc b t → n • ![x, y, 1] ∈ C := fun x y hx hy =>
    sx n x y hx (sy n l y hy (hcor _ (by simp [fcorners])) (hcor _ (by simp [fcorners])))
      (sy n r y hy (hcor _ (by simp [fcorners])) (hcor _ (by simp [fcorners])))
  have far : ∀ x y : ℝ, x ∈ Set.Icc l r → y ∈ Set.Icc b t → f • ![x, y, 1] ∈ C := fun x y hx hy =>
    sx f x y hx (sy f l y hy (hcor _ (by simp [fcorners])) (hcor _ (by simp [fcorners])))
      (sy f r y hy (hcor _ (by simp [fcorners])) (hcor _ (by simp [fcorners])))
  have sz : ∀ k x y : ℝ, k ∈ Set.Icc n f → x ∈ Set.Icc l r → y ∈ Set.Icc b t → k • ![x, y, 1] ∈ C := by
    intro k x y hk hx hy
    rw [← segment_eq_Icc h4] at hk
    obtain ⟨p, q, hp, hq, hpq, rfl⟩ := hk
    have := hc (near x y hx hy) (far x y hx hy) hp hq hpq
    convert this using 1
    simp only [smul_eq_mul, add_smul, smul_smul]
  rintro u ⟨g1, g2, g3, g4, g5, g6⟩
  by_cases hz : u 2 = 0
  · have : u = (0 : ℝ) • ![r, t, 1] := by
      rw [hz] at g3 g4 g5 g6
      ext i; fin_cases i <;> simp <;> linarith
    rw [this]
    exact sz 0 r t ⟨by linarith, by linarith⟩ ⟨h1, le_refl _⟩ ⟨h2, le_refl _⟩
  · have hz' : 0 < u 2 := lt_of_le_of_ne (h3.trans g1) (Ne.symm hz)
    have : u = u 2 • ![u 0 / u 2, u 1 / u 2, 1] := by
      ext i; fin_cases i <;> simp <;> field_simp
    rw [this]
    exact sz _ _ _ ⟨g1, g2⟩ ⟨(le_div_iff₀ hz').2 g3, (div_le_iff₀ hz').2 g4⟩ ⟨(le_div_iff₀ hz').2 g5, (div_le_iff₀ hz').2 g6⟩

/-! frusta at negative z are the reflected ones -/
theorem flip_mem {u : Pt} : -u ∈ frustum0 l r b t (-f) (-n) ↔ u ∈ frustum0 r l t b n f := by
  simp only [frustum0, Set.mem_setOf_eq, Pi.neg_apply, neg_le_neg_iff, mul_neg]
  tauto
theorem flip_corner {u : Pt} : -u ∈ fcorners l r b t (-f) (-n) ↔ u ∈ fcorners r l t b n f := by
  simp only [fcorners, List.mem_cons, List.not_mem_nil, neg_smul, neg_inj, or_false]
  tauto
theorem flip_LH (h : r ≤ l ∧ t ≤ b ∧ n ≤ f ∧ f ≤ 0) : LH l r b t (-f) (-n) := ⟨h.1, h.2.1, by linarith [h.2.2.2], by linarith [h.2.2.1]⟩
theorem corner_in (h : ValidFrustum r l t b n f) : ∀ u ∈ fcorners r l t b n f, u ∈ frustum0 r l t b n f := by
  rcases h with h | h
  · exact corner_inL h
  · intro u hu
    rw [← flip_mem]
    exact corner_inL (flip_LH h) _ (flip_corner.2 hu)
theorem frustum0_hull (h : ValidFrustum r l t b n f) : frustum0 r l t b n f = convexHull ℝ {u | u ∈ fcorners r l t b n f} := by
  rcases h with h | h
  · exact frustum0_hullL h
  · have := frustum0_hullL (flip_LH h)
    have e1 : frustum0 r l t b n f = -frustum0 l r b t (-f) (-n) := by ext u; rw [Set.mem_neg, flip_mem]
    have e2 : {u | u ∈ fcorners r l t b n f} = -{u | u ∈ fcorners l r b t (-f) (-n)} := by
      ext u; rw [Set.mem_neg, Set.mem_setOf_eq, Set.mem_setOf_eq, flip_corner]
    rw [e1, e2, this, convexHull_neg]

theorem frustum0_compact (h : ValidFrustum r l t b n f) : IsCompact (frustum0 r l t b n f) := by
  rw [frustum0_hull h]; exact (List.finite_toSet _).isCompact_convexHull ℝ
theorem frustum0_nonempty (h : ValidFrustum r l t b n f) : (frustum0 r l t b n f).Nonempty :=
  ⟨_, corner_in h (n • ![r, t, 1]) (by simp [fcorners])⟩

/-- A linear bound on the corners is a bound on the frustum. -/
theorem frustum0_le (h : ValidFrustum r l t b n f) (m : Pt) (d : ℝ) : (∀ u ∈ frustum0 r l t b n f, m ⬝ᵥ u ≤ d) ↔ ∀ u ∈ fcorners r l t b n f, m ⬝ᵥ u ≤ d := by
  refine ⟨fun k u hu => k u (corner_in h u hu), fun k => ?_⟩
  have : frustum0 r l t b n f ⊆ {u | m ⬝ᵥ u ≤ d} := by
    rw [frustum0_hull h]
    refine convexHull_min k ?_
    intro x hx y hy p q hp hq hpq
    simp only [Set.mem_setOf_eq] at *
    rw [dotProduct_add, dotProduct_smul, dotProduct_smul, smul_eq_mul, smul_eq_mul]
    have : d = p * d + q * d := by rw [← add_mul, hpq, one_mul]
    rw [this]; gcongr
  exact this
theorem frustum0_lt (h : ValidFrustum r l t b n f) (m : Pt) (d : ℝ) : (∀ u ∈ frustum0 r l t b n f, m ⬝ᵥ u < d) ↔ ∀ u ∈ fcorners r l t b n f, m ⬝ᵥ u < d := by
  refine ⟨fun k u hu => k u (corner_in h u hu), fun k => ?_⟩
  have : frustum0 r l t b n f ⊆ {u | m ⬝ᵥ u < d} := by
    rw [frustum0_hull h]
    refine convexHull_min k ?_
    intro x hx y hy p q hp hq hpq
    simp only [Set.mem_setOf_eq] at *
    rw [dotProduct_add, dotProduct_smul, dotProduct_smul, smul_eq_mul, smul_eq_mul]
    have : d = p * d + q * d := by rw [← add_mul, hpq, one_mul]
    rw [this]
    rcases hp.lt_or_eq with h0 | h0
    · nlinarith
    · subst h0; nlinarith
  exact this

theorem frustum0_supportL (hv : LH r l t b n f) (hlr : l < r) (hbt : b < t) (m : Pt) :
    ∃ v ∈ frustum0 r l t b n f, ∃ g : Fin 3 → Pt, (∀ i, m ⬝ᵥ g i ≤ 0) ∧
      (∀ u ∈ frustum0 r l t b n f, ∃ x : Fin 3 → ℝ, (∀ i, 0 ≤ x i) ∧ u = v + ∑ i, x i • g i) ∧
      (∀ u : Pt, (∀ i, u ⬝ᵥ g i = 0) → u = 0) ∧
      (∀ i, ∃ E ∈ fedges r l t b, ∃ c : ℝ, c ≠ 0 ∧ g i = c • E) ∧
      ∀ i j, ∀ s : ℝ, (s = 1 ∨ s = -1) → (∀ k, (s • crossProduct (g i) (g j)) ⬝ᵥ g k ≤ 0) → s • crossProduct (g i) (g j) ≠ 0 →
        ∃ P ∈ fplanes r l t b n f, s • crossProduct (g i) (g j) = P.1 ∧ P.1 ⬝ᵥ v = P.2 := by
  obtain ⟨h1, h2, h3, h4⟩ := hv
  have key : ∀ σ τ ρ X Y k : ℝ, ((σ = -1 ∧ X = r) ∨ (σ = 1 ∧ X = l)) → ((τ = -1 ∧ Y = t) ∨ (τ = 1 ∧ Y = b)) → ((ρ = -1 ∧ k = f) ∨ (ρ = 1 ∧ k = n)) →
      m 0 * σ ≤ 0 → m 1 * τ ≤ 0 → m ⬝ᵥ (ρ • ![X, Y, 1]) ≤ 0 →
      ∃ v ∈ frustum0 r l t b n f, ∃ g : Fin 3 → Pt, (∀ i, m ⬝ᵥ g i ≤ 0) ∧
      (∀ u ∈ frustum0 r l t b n f, ∃ x : Fin 3 → ℝ, (∀ i, 0 ≤ x i) ∧ u = v + ∑ i, x i • g i) ∧
      (∀ u : Pt, (∀ i, u ⬝ᵥ g i = 0) → u = 0) ∧
      (∀ i, ∃ E ∈ fedges r l t b, ∃ c : ℝ, c ≠ 0 ∧ g i = c • E) ∧
      ∀ i j, ∀ s : ℝ, (s = 1 ∨ s = -1) → (∀ k, (s • crossProduct (g i) (g j)) ⬝ᵥ g k ≤ 0) → s • crossProduct (g i) (g j) ≠ 0 →
        ∃ P ∈ fplanes r l t b n f, s • crossProduct (g i) (g j) = P.1 ∧ P.1 ⬝ᵥ v = P.2 := by
    intro σ τ ρ X Y k hx hy hz m0 m1 m2
    have hk0 : 0 ≤ k := by rcases hz with ⟨-, rfl⟩ | ⟨-, rfl⟩ <;> linarith
    have hσ : σ ≠ 0 := by rcases hx with ⟨rfl, -⟩ | ⟨rfl, -⟩ <;> norm_num
    have hτ : τ ≠ 0 := by rcases hy with ⟨rfl, -⟩ | ⟨rfl, -⟩ <;> norm_num
    have hρ : ρ ≠ 0 := by rcases hz with ⟨rfl, -⟩ | ⟨rfl, -⟩ <;> norm_num
    refine ⟨k • ![X, Y, 1], ?_, ![![σ, 0, 0], ![0, τ, 0], ρ • ![X, Y, 1]], ?_, ?_, ?_, ?_, ?_⟩
    · refine corner_inL ⟨h1, h2, h3, h4⟩ _ ?_
      rcases hx with ⟨-, rfl⟩ | ⟨-, rfl⟩ <;> rcases hy with ⟨-, rfl⟩ | ⟨-, rfl⟩ <;> rcases hz with ⟨-, rfl⟩ | ⟨-, rfl⟩ <;> simp [fcorners]
    · intro i; fin_cases i
      · simpa [dotProduct, Fin.sum_univ_three] using m0
      · simpa [dotProduct, Fin.sum_univ_three] using m1
      · exact m2
    · rintro u ⟨g1, g2, g3, g4, g5, g6⟩
      refine ⟨![(u 0 - X * u 2) / σ, (u 1 - Y * u 2) / τ, (u 2 - k) / ρ], ?_, ?_⟩
      · intro i; fin_cases i <;> simp
        · rcases hx with ⟨rfl, rfl⟩ | ⟨rfl, rfl⟩ <;> linarith
        · rcases hy with ⟨rfl, rfl⟩ | ⟨rfl, rfl⟩ <;> linarith
        · rcases hz with ⟨rfl, rfl⟩ | ⟨rfl, rfl⟩ <;> linarith
      · ext i; fin_cases i <;> simp [Fin.sum_univ_three] <;> field_simp <;> ring
    · intro u hu
      have u0 := hu 0; have u1 := hu 1; have u2 := hu 2
      simp [dotProduct, Fin.sum_univ_three, hσ, hτ] at u0 u1 u2
      rw [u0, u1] at u2
      simp [hρ] at u2
      ext i; fin_cases i <;> simp [*]
    · intro i; fin_cases i
      · refine ⟨![r, t, 1] - ![l, t, 1], by simp [fedges], σ / (r - l), div_ne_zero hσ (by linarith), ?_⟩
        have : r - l ≠ 0 := by linarith
        ext i; fin_cases i <;> simp <;> field_simp
      · refine ⟨![l, b, 1] - ![l, t, 1], by simp [fedges], τ / (b - t), div_ne_zero hτ (by linarith), ?_⟩
        have : b - t ≠ 0 := by linarith
        ext i; fin_cases i <;> simp <;> field_simp
      · refine ⟨![X, Y, 1], ?_, ρ, hρ, rfl⟩
        rcases hx with ⟨-, rfl⟩ | ⟨-, rfl⟩ <;> rcases hy with ⟨-, rfl⟩ | ⟨-, rfl⟩ <;> simp [fedges]
    · intro i j s hs hm hne
      have hσ1 : σ = 1 ∨ σ = -1 := by rcases hx with ⟨rfl, -⟩ | ⟨rfl, -⟩ <;> norm_num
      have hτ1 : τ = 1 ∨ τ = -1 := by rcases hy with ⟨rfl, -⟩ | ⟨rfl, -⟩ <;> norm_num
      have hρ1 : ρ = 1 ∨ ρ = -1 := by rcases hz with ⟨rfl, -⟩ | ⟨rfl, -⟩ <;> norm_num
      have sg : ∀ x y : ℝ, (x = 1 ∨ x = -1) → (y = 1 ∨ y = -1) → x * y ≤ 0 → x = -y := by
        rintro x y (rfl | rfl) (rfl | rfl) h <;> first | (exfalso; norm_num at h; done) | norm_num
      have c01 : crossProduct ![σ, 0, 0] ![0, τ, 0] = (σ * τ) • ![0, 0, 1] := by
        rw [crossP]; ext i; fin_cases i <;> simp
      have c02 : crossProduct ![σ, 0, 0] (ρ • ![X, Y, 1]) = (σ * ρ) • ![0, -1, Y] := by
        rw [crossP]; ext i; fin_cases i <;> simp; ring
      have c12 : crossProduct ![0, τ, 0] (ρ • ![X, Y, 1]) = (τ * ρ) • ![1, 0, -X] := by
        rw [crossP]; ext i; fin_cases i <;> simp; ring
      have p01 : ∀ s : ℝ, (s = 1 ∨ s = -1) → (∀ k', (s • ![(0 : ℝ), 0, 1]) ⬝ᵥ (![![σ, 0, 0], ![0, τ, 0], ρ • ![X, Y, 1]] : Fin 3 → Pt) k' ≤ 0) →
          ∃ P ∈ fplanes r l t b n f, s • ![(0 : ℝ), 0, 1] = P.1 ∧ P.1 ⬝ᵥ (k • ![X, Y, 1]) = P.2 := by
        intro s hs hm
        have h := hm 2
        simp [dotProduct, Fin.sum_univ_three] at h
        have e := sg s ρ hs hρ1 h
        rcases hz with ⟨rfl, rfl⟩ | ⟨rfl, rfl⟩
        · exact ⟨(![0, 0, 1], k), by simp [fplanes], by rw [e]; simp, by simp [dotProduct, Fin.sum_univ_three]⟩
        · exact ⟨(![0, 0, -1], -k), by simp [fplanes], by rw [e]; simp, by simp [dotProduct, Fin.sum_univ_three]⟩
      have p02 : ∀ s : ℝ, (s = 1 ∨ s = -1) → (∀ k', (s • ![(0 : ℝ), -1, Y]) ⬝ᵥ (![![σ, 0, 0], ![0, τ, 0], ρ • ![X, Y, 1]] : Fin 3 → Pt) k' ≤ 0) →
          ∃ P ∈ fplanes r l t b n f, s • ![(0 : ℝ), -1, Y] = P.1 ∧ P.1 ⬝ᵥ (k • ![X, Y, 1]) = P.2 := by
        intro s hs hm
        have h := hm 1
        simp [dotProduct, Fin.sum_univ_three] at h
        have e := sg (-s) τ (by rcases hs with rfl | rfl <;> norm_num) hτ1 (by linarith)
        have e : s = τ := by linarith
        rcases hy with ⟨rfl, rfl⟩ | ⟨rfl, rfl⟩
        · exact ⟨(![0, 1, -Y], 0), by simp [fplanes], by rw [e]; simp, by simp [dotProduct, Fin.sum_univ_three]; ring⟩
        · exact ⟨(![0, -1, Y], 0), by simp [fplanes], by rw [e]; simp, by simp [dotProduct, Fin.sum_univ_three]; ring⟩
      have p12 : ∀ s : ℝ, (s = 1 ∨ s = -1) → (∀ k', (s • ![(1 : ℝ), 0, -X]) ⬝ᵥ (![![σ, 0, 0], ![0, τ, 0], ρ • ![X, Y, 1]] : Fin 3 → Pt) k' ≤ 0) →
          ∃ P ∈ fplanes r l t b n f, s • ![(1 : ℝ), 0, -X] = P.1 ∧ P.1 ⬝ᵥ (k • ![X, Y, 1]) = P.2 := by
        intro s hs hm
        have h := hm 0
        simp [dotProduct, Fin.sum_univ_three] at h
        have e := sg s σ hs hσ1 h
        rcases hx with ⟨rfl, rfl⟩ | ⟨rfl, rfl⟩
        · exact ⟨(![1, 0, -X], 0), by simp [fplanes], by rw [e]; simp, by simp [dotProduct, Fin.sum_univ_three]; try ring⟩
        · exact ⟨(![-1, 0, X], 0), by simp [fplanes], by rw [e]; simp, by simp [dotProduct, Fin.sum_univ_three]; try ring⟩
      have sgn3 : ∀ x y z : ℝ, (x = 1 ∨ x = -1) → (y = 1 ∨ y = -1) → (z = 1 ∨ z = -1) → x * (y * z) = 1 ∨ x * (y * z) = -1 :=
        fun x y z h1 h2 h3 => sign_mul h1 (sign_mul h2 h3)
      have sgn4 : ∀ x y z : ℝ, (x = 1 ∨ x = -1) → (y = 1 ∨ y = -1) → (z = 1 ∨ z = -1) → -(x * (y * z)) = 1 ∨ -(x * (y * z)) = -1 :=
        fun x y z h1 h2 h3 => by rcases sgn3 x y z h1 h2 h3 with h | h <;> rw [h] <;> norm_num
      fin_cases i <;> fin_cases j
      · exact absurd (by rw [cross_self, smul_zero]) hne
      · have e : s • crossProduct ((![![σ, 0, 0], ![0, τ, 0], ρ • ![X, Y, 1]] : Fin 3 → Pt) 0) ((![![σ, 0, 0], ![0, τ, 0], ρ • ![X, Y, 1]] : Fin 3 → Pt) 1)
            = (s * (σ * τ)) • ![0, 0, 1] := by
          show s • crossProduct ![σ, 0, 0] ![0, τ, 0] = _
          rw [c01, smul_smul]
        simp only [Fin.zero_eta, Fin.mk_one, Fin.reduceFinMk] at *
        rw [e] at hm ⊢
        exact p01 _ (sgn3 _ _ _ hs hσ1 hτ1) hm
      · have e : s • crossProduct ((![![σ, 0, 0], ![0, τ, 0], ρ • ![X, Y, 1]] : Fin 3 → Pt) 0) ((![![σ, 0, 0], ![0, τ, 0], ρ • ![X, Y, 1]] : Fin 3 → Pt) 2)
            = (s * (σ * ρ)) • ![0, -1, Y] := by
          show s • crossProduct ![σ, 0, 0] (ρ • ![X, Y, 1]) = _
          rw [c02, smul_smul]
        simp only [Fin.zero_eta, Fin.mk_one, Fin.reduceFinMk] at *
        rw [e] at hm ⊢
        exact p02 _ (sgn3 _ _ _ hs hσ1 hρ1) hm
      · have e : s • crossProduct ((![![σ, 0, 0], ![0, τ, 0], ρ • ![X, Y, 1]] : Fin 3 → Pt) 1) ((![![σ, 0, 0], ![0, τ, 0], ρ • ![X, Y, 1]] : Fin 3 → Pt) 0)
            = (-(s * (σ * τ))) • ![0, 0, 1] := by
          show s • crossProduct ![0, τ, 0] ![σ, 0, 0] = _
          rw [← cross_anticomm, c01, smul_neg, smul_smul, neg_smul]
        simp only [Fin.zero_eta, Fin.mk_one, Fin.reduceFinMk] at *
        rw [e] at hm ⊢
        exact p01 _ (sgn4 _ _ _ hs hσ1 hτ1) hm
      · exact absurd (by rw [cross_self, smul_zero]) hne
      · have e : s • crossProduct ((![![σ, 0, 0], ![0, τ, 0], ρ • ![X, Y, 1]] : Fin 3 → Pt) 1) ((![![σ, 0, 0], ![0, τ, 0], ρ • ![X, Y, 1]] : Fin 3 → Pt) 2)
            = (s * (τ * ρ)) • ![1, 0, -X] := by
          show s • crossProduct ![0, τ, 0] (ρ • ![X, Y, 1]) = _
          rw [c12, smul_smul]
        simp only [Fin.zero_eta, Fin.mk_one, Fin.reduceFinMk] at *
        rw [e] at hm ⊢
        exact p12 _ (sgn3 _ _ _ hs hτ1 hρ1) hm
      · have e : s • crossProduct ((![![σ, 0, 0], ![0, τ, 0], ρ • ![X, Y, 1]] : Fin 3 → Pt) 2) ((![![σ, 0, 0], ![0, τ, 0], ρ • ![X, Y, 1]] : Fin 3 → Pt) 0)
            = (-(s * (σ * ρ))) • ![0, -1, Y] := by
          show s • crossProduct (ρ • ![X, Y, 1]) ![σ, 0, 0] = _
          rw [← cross_anticomm, c02, smul_neg, smul_smul, neg_smul]
        simp only [Fin.zero_eta, Fin.mk_one, Fin.reduceFinMk] at *
        rw [e] at hm ⊢
        exact p02 _ (sgn4 _ _ _ hs hσ1 hρ1) hm
      · have e : s • crossProduct ((![![σ, 0, 0], ![0, τ, 0], ρ • ![X, Y, 1]] : Fin 3 → Pt) 2) ((![![σ, 0, 0], ![0, τ, 0], ρ • ![X, Y, 1]] : Fin 3 → Pt) 1)
            = (-(s * (τ * ρ))) • ![1, 0, -X] := by
          show s • crossProduct (ρ • ![X, Y, 1]) ![0, τ, 0] = _
          rw [← cross_anticomm, c12, smul_neg, smul_smul, neg_smul]
        simp only [Fin.zero_eta, Fin.mk_one, Fin.reduceFinMk] at *
        rw [e] at hm ⊢
        exact p12 _ (sgn4 _ _ _ hs hτ1 hρ1) hm
      · exact absurd (by rw [cross_self, smul_zero]) hne
  by_cases k0 : 0 ≤ m 0 <;> by_cases k1 : 0 ≤ m 1
  · by_cases k2 : 0 ≤ m ⬝ᵥ ![r, t, 1]
    · exact key (-1) (-1) (-1) r t f (Or.inl ⟨rfl, rfl⟩) (Or.inl ⟨rfl, rfl⟩) (Or.inl ⟨rfl, rfl⟩) (by linarith) (by linarith) (by rw [dotProduct_smul, smul_eq_mul]; linarith)
    · exact key (-1) (-1) 1 r t n (Or.inl ⟨rfl, rfl⟩) (Or.inl ⟨rfl, rfl⟩) (Or.inr ⟨rfl, rfl⟩) (by linarith) (by linarith) (by rw [dotProduct_smul, smul_eq_mul]; linarith)
  · by_cases k2 : 0 ≤ m ⬝ᵥ ![r, b, 1]
    · exact key (-1) 1 (-1) r b f (Or.inl ⟨rfl, rfl⟩) (Or.inr ⟨rfl, rfl⟩) (Or.inl ⟨rfl, rfl⟩) (by linarith) (by linarith) (by rw [dotProduct_smul, smul_eq_mul]; linarith)
    · exact key (-1) 1 1 r b n (Or.inl ⟨rfl, rfl⟩) (Or.inr ⟨rfl, rfl⟩) (Or.inr ⟨rfl, rfl⟩) (by linarith) (by linarith) (by rw [dotProduct_smul, smul_eq_mul]; linarith)
  · by_cases k2 : 0 ≤ m ⬝ᵥ ![l, t, 1]
    · exact key 1 (-1) (-1) l t f (Or.inr ⟨rfl, rfl⟩) (Or.inl ⟨rfl, rfl⟩) (Or.inl ⟨rfl, rfl⟩) (by linarith) (by linarith) (by rw [dotProduct_smul, smul_eq_mul]; linarith)
    · exact key 1 (-1) 1 l t n (Or.inr ⟨rfl, rfl⟩) (Or.inl ⟨rfl, rfl⟩) (Or.inr ⟨rfl, rfl⟩) (by linarith) (by linarith) (by rw [dotProduct_smul, smul_eq_mul]; linarith)
  · by_cases k2 : 0 ≤ m ⬝ᵥ ![l, b, 1]
    · exact key 1 1 (-1) l b f (Or.inr ⟨rfl, rfl⟩) (Or.inr ⟨rfl, rfl⟩) (Or.inl ⟨rfl, rfl⟩) (by linarith) (by linarith) (by rw [dotProduct_smul, smul_eq_mul]; linarith)
    · exact key 1 1 1 l b n (Or.inr ⟨rfl, rfl⟩) (Or.inr ⟨rfl, rfl⟩) (Or.inr ⟨rfl, rfl⟩) (by linarith) (by linarith) (by rw [dotProduct_smul, smul_eq_mul]; linarith)

theorem frustum0_support (hv : ValidFrustum r l t b n f) (hlr : l ≠ r) (hbt : b ≠ t) (m : Pt) :
    ∃ v ∈ frustum0 r l t b n f, ∃ g : Fin 3 → Pt, (∀ i, m ⬝ᵥ g i ≤ 0) ∧
      (∀ u ∈ frustum0 r l t b n f, ∃ x : Fin 3 → ℝ, (∀ i, 0 ≤ x i) ∧ u = v + ∑ i, x i • g i) ∧
      (∀ u : Pt, (∀ i, u ⬝ᵥ g i = 0) → u = 0) ∧
      (∀ i, ∃ E ∈ fedges r l t b, ∃ c : ℝ, c ≠ 0 ∧ g i = c • E) ∧
      ∀ i j, ∀ s : ℝ, (s = 1 ∨ s = -1) → (∀ k, (s • crossProduct (g i) (g j)) ⬝ᵥ g k ≤ 0) → s • crossProduct (g i) (g j) ≠ 0 →
        ∃ P ∈ fplanes r l t b n f, s • crossProduct (g i) (g j) = P.1 ∧ P.1 ⬝ᵥ v = P.2 := by
  rcases hv with h | h
  · exact frustum0_supportL h (lt_of_le_of_ne h.1 hlr) (lt_of_le_of_ne h.2.1 hbt) m
  · obtain ⟨v, hv, g, g1, g2, g3, g4, g5⟩ := frustum0_supportL (flip_LH h) (lt_of_le_of_ne h.1 hlr.symm) (lt_of_le_of_ne h.2.1 hbt.symm) (-m)
    refine ⟨-v, by rw [← flip_mem, neg_neg]; exact hv, fun i => -g i, ?_, ?_, ?_, ?_, ?_⟩
    · intro i; have := g1 i; rwa [neg_dotProduct, ← dotProduct_neg] at this
    · intro u hu
      obtain ⟨x, x1, x2⟩ := g2 (-u) (flip_mem.2 hu)
      refine ⟨x, x1, ?_⟩
      rw [← neg_neg u, x2, neg_add]
      simp [Fin.sum_univ_three]
    · intro u hu; exact g3 u (fun i => by have := hu i; rwa [dotProduct_neg, neg_eq_zero] at this)
    · intro i
      obtain ⟨E, hE, c, c0, hc⟩ := g4 i
      dsimp only
      simp only [fedges, List.mem_cons, List.not_mem_nil, or_false] at hE
      rcases hE with rfl | rfl | rfl | rfl | rfl | rfl
      · exact ⟨![l, b, 1], by simp [fedges], -c, neg_ne_zero.2 c0, by rw [hc, neg_smul]⟩
      · exact ⟨![l, t, 1], by simp [fedges], -c, neg_ne_zero.2 c0, by rw [hc, neg_smul]⟩
      · exact ⟨![r, b, 1], by simp [fedges], -c, neg_ne_zero.2 c0, by rw [hc, neg_smul]⟩
      · exact ⟨![r, t, 1], by simp [fedges], -c, neg_ne_zero.2 c0, by rw [hc, neg_smul]⟩
      · refine ⟨![r, t, 1] - ![l, t, 1], by simp [fedges], c, c0, ?_⟩
        rw [hc, ← smul_neg]; congr 1; ext i; fin_cases i <;> simp
      · refine ⟨![l, b, 1] - ![l, t, 1], by simp [fedges], c, c0, ?_⟩
        rw [hc, ← smul_neg]; congr 1; ext i; fin_cases i <;> simp
    · intro i j s hs hm hne
      have e : crossProduct (-g i) (-g j) = crossProduct (g i) (g j) := by simp
      rw [e] at hm hne ⊢
      have e2 : (-s) • crossProduct (g i) (g j) = -(s • crossProduct (g i) (g j)) := neg_smul _ _
      obtain ⟨P, hP, p1, p2⟩ := g5 i j (-s) (by rcases hs with rfl | rfl <;> simp)
        (fun k => by rw [e2, neg_dotProduct, ← dotProduct_neg]; exact hm k) (by rw [e2]; exact neg_ne_zero.2 hne)
      have p3 : s • crossProduct (g i) (g j) = -P.1 := by rw [← p1, e2, neg_neg]
      refine ⟨(-P.1, P.2), ?_, p3, by simpa using p2⟩
      simp only [fplanes, List.mem_cons, List.not_mem_nil, or_false] at hP
      rcases hP with rfl | rfl | rfl | rfl | rfl | rfl <;> simp [fplanes]

end DXM.RG
