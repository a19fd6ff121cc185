import Verif.Lemmas.RealGeo
import Mathlib.Analysis.LocallyConvex.Separation
import Mathlib.Analysis.InnerProductSpace.PiL2

/-
The separating-axis theorem in ℝ³.  `cone_ray`: a functional that is positive somewhere on a pointed polyhedral cone is positive on
one of its extreme rays, which is a cross product of two of the constraint vectors.  `sat`: two polytopes given by a vertex and the
edge directions there are separated by a cross product of two edge directions as soon as they are separated at all.
-/

set_option linter.all false

namespace DXM.RG
open DXM.Spec Matrix

theorem crossP (a b : Pt) : crossProduct a b = ![a 1 * b 2 - a 2 * b 1, a 2 * b 0 - a 0 * b 2, a 0 * b 1 - a 1 * b 0] := cross_apply a b

theorem dot_self_pos {u : Pt} (h : u ≠ 0) : 0 < u ⬝ᵥ u := by
  obtain ⟨i, hi⟩ := Function.ne_iff.1 h
  refine lt_of_lt_of_le (mul_self_pos.2 hi) ?_
  exact Finset.single_le_sum (f := fun j => u j * u j) (fun j _ => mul_self_nonneg (u j)) (Finset.mem_univ i)

theorem exists_cross_ne {n : Pt} (h : n ≠ 0) : ∃ e, crossProduct n e ≠ 0 := by
  by_contra hc
  push Not at hc
  have h0 := hc ![1, 0, 0]; have h1 := hc ![0, 1, 0]
  rw [crossP] at h0 h1
  have a := congrFun h0 1; have b := congrFun h0 2; have d := congrFun h1 2
  simp at a b d
  exact h (by ext i; fin_cases i <;> simp [*])

theorem cone_ray {ι : Type*} [Fintype ι] (g : ι → Pt) (hspan : ∀ u : Pt, (∀ i, u ⬝ᵥ g i = 0) → u = 0) (l : Pt) :
    ∀ (N : ℕ) (n : Pt), (∀ i, n ⬝ᵥ g i ≤ 0) → 0 < l ⬝ᵥ n → (Finset.univ.filter fun i => n ⬝ᵥ g i ≠ 0).card = N →
    ∃ i j, ∃ s : ℝ, (s = 1 ∨ s = -1) ∧ (∀ k, (s • crossProduct (g i) (g j)) ⬝ᵥ g k ≤ 0) ∧ 0 < l ⬝ᵥ (s • crossProduct (g i) (g j)) := by
  classical
  intro N
  induction N using Nat.strong_induction_on with
  | _ N ih =>
  intro n hn hl hN
  have hn0 : n ≠ 0 := by rintro rfl; simp at hl
  by_cases hc : ∃ i j, n ⬝ᵥ g i = 0 ∧ n ⬝ᵥ g j = 0 ∧ crossProduct (g i) (g j) ≠ 0
  · obtain ⟨i, j, hi, hj, hcr⟩ := hc
    set c := crossProduct (g i) (g j) with hcd
    have hcc := dot_self_pos hcr
    have key : (c ⬝ᵥ c) • n = (c ⬝ᵥ n) • c := by
      have e0 : c = ![g i 1 * g j 2 - g i 2 * g j 1, g i 2 * g j 0 - g i 0 * g j 2, g i 0 * g j 1 - g i 1 * g j 0] := by rw [hcd, crossP]
      simp only [dotProduct, Fin.sum_univ_three] at hi hj
      have c0 : c 0 = g i 1 * g j 2 - g i 2 * g j 1 := by rw [e0]; rfl
      have c1 : c 1 = g i 2 * g j 0 - g i 0 * g j 2 := by rw [e0]; rfl
      have c2 : c 2 = g i 0 * g j 1 - g i 1 * g j 0 := by rw [e0]; rfl
      have k0 : n 1 * c 2 - n 2 * c 1 = 0 := by rw [c1, c2]; linear_combination (g i 0) * hj - (g j 0) * hi
      have k1 : n 2 * c 0 - n 0 * c 2 = 0 := by rw [c0, c2]; linear_combination (g i 1) * hj - (g j 1) * hi
      have k2 : n 0 * c 1 - n 1 * c 0 = 0 := by rw [c0, c1]; linear_combination (g i 2) * hj - (g j 2) * hi
      ext k
      simp only [Pi.smul_apply, smul_eq_mul, dotProduct, Fin.sum_univ_three]
      fin_cases k
      · show _ * n 0 = _ * c 0; linear_combination (c 1) * k2 - (c 2) * k1
      · show _ * n 1 = _ * c 1; linear_combination (c 2) * k0 - (c 0) * k2
      · show _ * n 2 = _ * c 2; linear_combination (c 0) * k1 - (c 1) * k0
    have hcn : c ⬝ᵥ n ≠ 0 := by
      intro h
      rw [h, zero_smul, smul_eq_zero] at key
      exact key.elim hcc.ne' hn0
    rcases lt_or_gt_of_ne hcn with h | h
    · refine ⟨i, j, -1, Or.inr rfl, ?_, ?_⟩
      · intro k
        have := congrArg (· ⬝ᵥ g k) key
        simp only [smul_dotProduct, smul_eq_mul] at this ⊢
        nlinarith [mul_nonneg hcc.le (neg_nonneg.2 (hn k)), hn k, mul_pos hcc hcc]
      · have := congrArg (l ⬝ᵥ ·) key
        simp only [dotProduct_smul, smul_eq_mul] at this ⊢
        nlinarith [mul_pos hcc hl]
    · refine ⟨i, j, 1, Or.inl rfl, ?_, ?_⟩
      · intro k
        have := congrArg (· ⬝ᵥ g k) key
        simp only [smul_dotProduct, smul_eq_mul] at this ⊢
        nlinarith [mul_nonneg hcc.le (neg_nonneg.2 (hn k)), hn k, mul_pos hcc hcc]
      · have := congrArg (l ⬝ᵥ ·) key
        simp only [dotProduct_smul, smul_eq_mul] at this ⊢
        nlinarith [mul_pos hcc hl]
  · push Not at hc
    have hu : ∃ u : Pt, u ≠ 0 ∧ u ⬝ᵥ n = 0 ∧ ∀ j, n ⬝ᵥ g j = 0 → u ⬝ᵥ g j = 0 := by
      by_cases hz : ∃ k, n ⬝ᵥ g k = 0 ∧ g k ≠ 0
      · obtain ⟨k, hk, hk0⟩ := hz
        refine ⟨crossProduct n (g k), ?_, ?_, ?_⟩
        · intro h
          rw [crossP] at h
          have a := congrFun h 0; have b := congrFun h 1; have d := congrFun h 2
          simp at a b d
          simp only [dotProduct, Fin.sum_univ_three] at hk
          have h1 := dot_self_pos hn0
          have h2 := dot_self_pos hk0
          have : (n ⬝ᵥ n) * (g k ⬝ᵥ g k) = 0 := by
            simp only [dotProduct, Fin.sum_univ_three]
            linear_combination (n 1 * g k 2 - n 2 * g k 1) * a + (n 2 * g k 0 - n 0 * g k 2) * b + (n 0 * g k 1 - n 1 * g k 0) * d
              + (n 0 * g k 0 + n 1 * g k 1 + n 2 * g k 2) * hk
          rcases mul_eq_zero.1 this with h | h
          · exact h1.ne' h
          · exact h2.ne' h
        · rw [dotProduct_comm]; exact dot_self_cross n (g k)
        · intro j hj
          have := hc k j hk hj
          rw [dotProduct_comm]
          have e := triple_product_permutation (g j) n (g k)
          rw [e, this, dotProduct_zero]
      · push Not at hz
        obtain ⟨e, he⟩ := exists_cross_ne hn0
        refine ⟨crossProduct n e, he, by rw [dotProduct_comm]; exact dot_self_cross n e, ?_⟩
        intro j hj
        rw [hz j hj, dotProduct_zero]
    obtain ⟨u, hu0, hun, huz⟩ := hu
    set r := (l ⬝ᵥ u) / (l ⬝ᵥ n) with hr
    -- a nonzero direction that keeps `l` and the tight constraints
    have hv : ∃ v : Pt, l ⬝ᵥ v = 0 ∧ (∀ j, n ⬝ᵥ g j = 0 → v ⬝ᵥ g j = 0) ∧ ∃ k, 0 < v ⬝ᵥ g k := by
      have h1 : l ⬝ᵥ (u - r • n) = 0 := by
        rw [dotProduct_sub, dotProduct_smul, smul_eq_mul, hr, div_mul_cancel₀ _ hl.ne', sub_self]
      have h2 : ∀ j, n ⬝ᵥ g j = 0 → (u - r • n) ⬝ᵥ g j = 0 := by
        intro j hj; rw [sub_dotProduct, smul_dotProduct, hj, huz j hj]; simp
      have h3 : u - r • n ≠ 0 := by
        intro h
        have : (u - r • n) ⬝ᵥ u = 0 := by rw [h, zero_dotProduct]
        rw [sub_dotProduct, smul_dotProduct, dotProduct_comm n u, hun, smul_zero, sub_zero] at this
        exact (dot_self_pos hu0).ne' this
      obtain ⟨k, hk⟩ : ∃ k, (u - r • n) ⬝ᵥ g k ≠ 0 := by
        by_contra h; push Not at h; exact h3 (hspan _ h)
      rcases lt_or_gt_of_ne hk with h | h
      · exact ⟨-(u - r • n), by rw [dotProduct_neg, h1, neg_zero], fun j hj => by rw [neg_dotProduct, h2 j hj, neg_zero],
          k, by rw [neg_dotProduct]; linarith⟩
      · exact ⟨_, h1, h2, k, h⟩
    obtain ⟨v, hlv, hvz, k, hk⟩ := hv
    obtain ⟨m, hm, hmin⟩ := Finset.exists_min_image (Finset.univ.filter fun i => 0 < v ⬝ᵥ g i) (fun i => -(n ⬝ᵥ g i) / (v ⬝ᵥ g i)) ⟨k, by simp [hk]⟩
    simp only [Finset.mem_filter, Finset.mem_univ, true_and] at hm hmin
    set t := -(n ⬝ᵥ g m) / (v ⬝ᵥ g m) with ht
    have ht0 : 0 ≤ t := div_nonneg (by linarith [hn m]) hm.le
    have hn' : ∀ i, (n + t • v) ⬝ᵥ g i ≤ 0 := by
      intro i
      rw [add_dotProduct, smul_dotProduct, smul_eq_mul]
      rcases le_or_gt (v ⬝ᵥ g i) 0 with h | h
      · nlinarith [hn i]
      · have := hmin i h
        rw [le_div_iff₀ h] at this
        linarith
    refine ih _ ?_ (n + t • v) hn' (by rw [dotProduct_add, dotProduct_smul, hlv]; simpa using hl) rfl
    rw [← hN]
    refine Finset.card_lt_card (Finset.ssubset_iff_subset_ne.2 ⟨?_, ?_⟩)
    · intro i
      simp only [Finset.mem_filter, Finset.mem_univ, true_and]
      intro h h'
      exact h (by rw [add_dotProduct, smul_dotProduct, h', hvz i h']; simp)
    · intro h
      have h1 : m ∈ Finset.univ.filter fun i => n ⬝ᵥ g i ≠ 0 := by
        simp only [Finset.mem_filter, Finset.mem_univ, true_and]
        intro h'; rw [hvz m h'] at hm; exact lt_irrefl _ hm
      rw [← h] at h1
      simp only [Finset.mem_filter, Finset.mem_univ, true_and] at h1
      refine h1 ?_
      rw [add_dotProduct, smul_dotProduct, smul_eq_mul, ht, div_mul_cancel₀ _ hm.ne']; ring

/-- Separation at the vertices `v` (edges `g`) and `w` (edges `h`) gives a separating cross product of two edges. -/
theorem sat {ι κ : Type*} [Fintype ι] [Fintype κ] (A B : Set Pt) (v w n : Pt) (g : ι → Pt) (h : κ → Pt)
    (hA : ∀ a ∈ A, ∃ x : ι → ℝ, (∀ i, 0 ≤ x i) ∧ a = v + ∑ i, x i • g i)
    (hB : ∀ b ∈ B, ∃ x : κ → ℝ, (∀ i, 0 ≤ x i) ∧ b = w + ∑ i, x i • h i)
    (hspan : ∀ u : Pt, (∀ i, u ⬝ᵥ g i = 0) → (∀ i, u ⬝ᵥ h i = 0) → u = 0)
    (hg : ∀ i, n ⬝ᵥ g i ≤ 0) (hh : ∀ i, 0 ≤ n ⬝ᵥ h i) (hn : n ⬝ᵥ v < n ⬝ᵥ w) :
    ∃ i j : ι ⊕ κ, ∃ s : ℝ, (s = 1 ∨ s = -1) ∧
      let m := s • crossProduct (Sum.elim g h i) (Sum.elim g h j)
      (∀ k, m ⬝ᵥ g k ≤ 0) ∧ (∀ k, 0 ≤ m ⬝ᵥ h k) ∧ ∀ a ∈ A, ∀ b ∈ B, m ⬝ᵥ a < m ⬝ᵥ b := by
  have key := cone_ray (Sum.elim g (fun k => -h k)) (fun u hu => hspan u (fun i => hu (.inl i)) (fun i => by
    have := hu (.inr i); simpa using this)) (w - v) _ n (by rintro (i | i); exacts [hg i, by simpa using hh i])
    (by rw [dotProduct_comm, dotProduct_sub]; linarith) rfl
  obtain ⟨i, j, s, hs, h1, h2⟩ := key
  have fin : ∀ m : Pt, (∀ k, m ⬝ᵥ Sum.elim g (fun k => -h k) k ≤ 0) → 0 < (w - v) ⬝ᵥ m →
      (∀ k, m ⬝ᵥ g k ≤ 0) ∧ (∀ k, 0 ≤ m ⬝ᵥ h k) ∧ ∀ a ∈ A, ∀ b ∈ B, m ⬝ᵥ a < m ⬝ᵥ b := by
    intro m h1 h2
    have g1 : ∀ k, m ⬝ᵥ g k ≤ 0 := fun k => h1 (.inl k)
    have g2 : ∀ k, 0 ≤ m ⬝ᵥ h k := fun k => by have := h1 (.inr k); simpa using this
    refine ⟨g1, g2, ?_⟩
    intro a ha b hb
    obtain ⟨x, hx, rfl⟩ := hA a ha
    obtain ⟨y, hy, rfl⟩ := hB b hb
    have e1 : m ⬝ᵥ ∑ i, x i • g i ≤ 0 := by
      rw [dotProduct_sum]; exact Finset.sum_nonpos fun i _ => by rw [dotProduct_smul, smul_eq_mul]; nlinarith [hx i, g1 i]
    have e2 : 0 ≤ m ⬝ᵥ ∑ i, y i • h i := by
      rw [dotProduct_sum]; exact Finset.sum_nonneg fun i _ => by rw [dotProduct_smul, smul_eq_mul]; exact mul_nonneg (hy i) (g2 i)
    rw [sub_dotProduct, dotProduct_comm w, dotProduct_comm v] at h2
    rw [dotProduct_add, dotProduct_add]; linarith
  have sgn : ∀ i, ∃ t : ℝ, (t = 1 ∨ t = -1) ∧ Sum.elim g (fun k => -h k) i = t • Sum.elim g h i := by
    rintro (i | i)
    · exact ⟨1, Or.inl rfl, by simp⟩
    · exact ⟨-1, Or.inr rfl, by simp⟩
  obtain ⟨t, ht, et⟩ := sgn i
  obtain ⟨t', ht', et'⟩ := sgn j
  have e : s • crossProduct (Sum.elim g (fun k => -h k) i) (Sum.elim g (fun k => -h k) j)
      = (s * (t * t')) • crossProduct (Sum.elim g h i) (Sum.elim g h j) := by
    rw [et, et', LinearMap.map_smul₂, map_smul, smul_smul, smul_smul]
    congr 1; ring
  rw [e] at h1 h2
  refine ⟨i, j, s * (t * t'), ?_, fin _ h1 h2⟩
  rcases hs with rfl | rfl <;> rcases ht with rfl | rfl <;> rcases ht' with rfl | rfl <;> norm_num

/-- Disjoint compact convex sets have a strictly separating direction. -/
theorem exists_sep {A B : Set Pt} (hA : Convex ℝ A) (hA' : IsCompact A) (hB : Convex ℝ B) (hB' : IsCompact B) (h : Disjoint A B) :
    ∃ n : Pt, ∀ a ∈ A, ∀ b ∈ B, n ⬝ᵥ a < n ⬝ᵥ b := by
  obtain ⟨f, u, v, h1, h2, h3⟩ := geometric_hahn_banach_compact_closed hA hA' hB hB'.isClosed h
  refine ⟨fun i => f (Pi.single i 1), fun a ha b hb => ?_⟩
  have e : ∀ x : Pt, (fun i => f (Pi.single i 1)) ⬝ᵥ x = f x := by
    intro x
    conv_rhs => rw [← Finset.univ_sum_single x]
    rw [map_sum, dotProduct]
    refine Finset.sum_congr rfl fun i _ => ?_
    rw [show (Pi.single i (x i) : Pt) = x i • Pi.single i 1 by rw [← Pi.single_smul]; simp, map_smul, smul_eq_mul, mul_comm]
  rw [e, e]
  linarith [h1 a ha, h3 b hb]

end DXM.RG
