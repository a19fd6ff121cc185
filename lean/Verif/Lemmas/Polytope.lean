import Verif.Lemmas.SAT
import Verif.Lemmas.RealRot
import Mathlib.Analysis.Convex.Combination
import Mathlib.Topology.Algebra.Module.FiniteDimension

/-
Oriented boxes, triangles and frusta as polytopes: convex, compact, and for every direction a support vertex with its edge directions.
-/

set_option linter.all false

namespace DXM.RG
open DXM.Spec DXM.E Matrix

/-! ### oriented boxes -/

theorem rot_sum {q : Quaternion ℝ} (hq : Quaternion.normSq q = 1) (u : Pt) : rot q u = ∑ i, u i • rotM q i := by
  rw [rot_eq hq, Matrix.vecMul_eq_sum]

/-- Radius of the box along `m`. -/
theorem obox_radius {q : Quaternion ℝ} (hq : Quaternion.normSq q = 1) {a e p : Pt} (m : Pt) (hp : p ∈ obox a e q) :
    |m ⬝ᵥ p - m ⬝ᵥ a| ≤ e ⬝ᵥ |rot (star q) m| := by
  obtain ⟨u, hu, rfl⟩ := hp
  rw [dotProduct_add, add_sub_cancel_left, dotProduct_comm m, rot_adj hq]
  refine (Finset.abs_sum_le_sum_abs _ _).trans (Finset.sum_le_sum fun i _ => ?_)
  rw [abs_mul, Pi.abs_apply]
  have := hu i
  simp only [Pi.zero_apply, sub_zero] at this
  exact mul_le_mul_of_nonneg_right this (abs_nonneg _)
/-- The radius is attained. -/
theorem obox_extreme {q : Quaternion ℝ} (hq : Quaternion.normSq q = 1) (a e : Pt) (he : ∀ i, 0 ≤ e i) (m : Pt) :
    ∃ p ∈ obox a e q, m ⬝ᵥ p = m ⬝ᵥ a + e ⬝ᵥ |rot (star q) m| := by
  refine ⟨a + rot q (fun i => if 0 ≤ rot (star q) m i then e i else -e i), ⟨_, ?_, rfl⟩, ?_⟩
  · intro i; simp only [Pi.zero_apply, sub_zero]; split_ifs
    · rw [abs_of_nonneg (he i)]
    · rw [abs_neg, abs_of_nonneg (he i)]
  · rw [dotProduct_add, dotProduct_comm m (rot q _), rot_adj hq]
    congr 1
    refine Finset.sum_congr rfl fun i _ => ?_
    rw [Pi.abs_apply]
    dsimp only
    split_ifs with h
    · rw [abs_of_nonneg h]
    · rw [abs_of_neg (not_le.1 h)]; ring

theorem box_eq_Icc (a e : Pt) : box a e = Set.Icc (a - e) (a + e) := by
  ext p; rw [mem_box]; simp only [Set.mem_Icc, Pi.le_def, Pi.sub_apply, Pi.add_apply]
  exact forall_and
theorem box_convex (a e : Pt) : Convex ℝ (box a e) := by rw [box_eq_Icc]; exact convex_Icc _ _
theorem box_compact (a e : Pt) : IsCompact (box a e) := by rw [box_eq_Icc]; exact isCompact_Icc
theorem box_nonempty {a e : Pt} (he : ∀ i, 0 ≤ e i) : (box a e).Nonempty :=
  ⟨a, mem_box.2 fun i => ⟨by linarith [he i], by linarith [he i]⟩⟩

/-- The rigid motion `u ↦ a + rot q u`. -/
noncomputable def rigid (a : Pt) (q : Quaternion ℝ) : Pt →ᵃ[ℝ] Pt := (Matrix.vecMulLinear (rotM q)).toAffineMap + AffineMap.const ℝ Pt a
theorem rigid_apply {q : Quaternion ℝ} (hq : Quaternion.normSq q = 1) (a u : Pt) : rigid a q u = a + rot q u := by
  rw [rot_eq hq, add_comm]; rfl
theorem rigid_image {q : Quaternion ℝ} (hq : Quaternion.normSq q = 1) (a : Pt) (S : Set Pt) : {p | ∃ u ∈ S, p = a + rot q u} = rigid a q '' S := by
  ext p; constructor
  · rintro ⟨u, hu, rfl⟩; exact ⟨u, hu, rigid_apply hq a u⟩
  · rintro ⟨u, hu, rfl⟩; exact ⟨u, hu, rigid_apply hq a u⟩
theorem rigid_cont (a : Pt) (q : Quaternion ℝ) : Continuous (rigid a q) := AffineMap.continuous_of_finiteDimensional _
theorem rigid_convex {q : Quaternion ℝ} (hq : Quaternion.normSq q = 1) (a : Pt) {S : Set Pt} (h : Convex ℝ S) :
    Convex ℝ {p | ∃ u ∈ S, p = a + rot q u} := by rw [rigid_image hq]; exact h.affine_image _
theorem rigid_compact {q : Quaternion ℝ} (hq : Quaternion.normSq q = 1) (a : Pt) {S : Set Pt} (h : IsCompact S) :
    IsCompact {p | ∃ u ∈ S, p = a + rot q u} := by rw [rigid_image hq]; exact h.image (rigid_cont a q)

theorem obox_convex {q : Quaternion ℝ} (hq : Quaternion.normSq q = 1) (a e : Pt) : Convex ℝ (obox a e q) := rigid_convex hq a (box_convex 0 e)
theorem obox_compact {q : Quaternion ℝ} (hq : Quaternion.normSq q = 1) (a e : Pt) : IsCompact (obox a e q) := rigid_compact hq a (box_compact 0 e)

theorem obox_support {q : Quaternion ℝ} (hq : Quaternion.normSq q = 1) (a e : Pt) (he : ∀ i, 0 ≤ e i) (n : Pt) :
    ∃ v : Pt, v ∈ obox a e q ∧ ∃ s : Fin 3 → ℝ, (∀ i, s i = 1 ∨ s i = -1) ∧ (∀ i, n ⬝ᵥ (s i • rotM q i) ≤ 0) ∧
      ∀ p ∈ obox a e q, ∃ x : Fin 3 → ℝ, (∀ i, 0 ≤ x i) ∧ p = v + ∑ i, x i • (s i • rotM q i) := by
  let s : Pt := fun i => if 0 ≤ n ⬝ᵥ rotM q i then -1 else 1
  have hs : ∀ i, s i = 1 ∨ s i = -1 := fun i => by by_cases h : 0 ≤ n ⬝ᵥ rotM q i <;> simp [s, h]
  have hss : ∀ i, s i * s i = 1 := fun i => by rcases hs i with h | h <;> rw [h] <;> norm_num
  refine ⟨a + rot q (-(e * s)), ⟨_, ?_, rfl⟩, s, hs, ?_, ?_⟩
  · intro i
    simp only [Pi.zero_apply, sub_zero, Pi.neg_apply, Pi.mul_apply, abs_neg]
    rcases hs i with h | h <;> rw [h] <;> simp [abs_of_nonneg (he i)]
  · intro i
    rw [dotProduct_smul, smul_eq_mul]
    by_cases h : 0 ≤ n ⬝ᵥ rotM q i
    · simp [s, h]
    · simp only [s, h, if_false]; linarith
  · rintro p ⟨u, hu, rfl⟩
    refine ⟨fun i => e i + s i * u i, fun i => ?_, ?_⟩
    · have := abs_le.1 (hu i)
      simp only [Pi.zero_apply, sub_zero] at this
      dsimp only
      rcases hs i with h | h <;> rw [h] <;> linarith [this.1, this.2]
    · rw [add_assoc, rot_sum hq, rot_sum hq, ← Finset.sum_add_distrib]
      congr 1
      refine Finset.sum_congr rfl fun i _ => ?_
      rw [smul_smul, ← add_smul]
      congr 1
      simp only [Pi.neg_apply, Pi.mul_apply]
      linear_combination (-u i) * hss i

theorem rows_span {q : Quaternion ℝ} (hq : Quaternion.normSq q = 1) {s : Fin 3 → ℝ} (hs : ∀ i, s i = 1 ∨ s i = -1) (u : Pt)
    (h : ∀ i, u ⬝ᵥ (s i • rotM q i) = 0) : u = 0 := by
  have : rot (star q) u = 0 := by
    ext i
    rw [← dot_row hq, dotProduct_comm]
    have := h i
    rw [dotProduct_smul, smul_eq_mul] at this
    rcases hs i with k | k <;> rw [k] at this <;> simpa using this
  have := congrArg (rot q) this
  rwa [rot_rot_star hq, rot_zero hq] at this

/-! ### triangles -/

theorem tri_convex (v0 v1 v2 : Pt) : Convex ℝ (tri v0 v1 v2) := by
  rintro _ ⟨a, b, c, ha, hb, hc, h, rfl⟩ _ ⟨a', b', c', ha', hb', hc', h', rfl⟩ x y hx hy hxy
  refine ⟨x * a + y * a', x * b + y * b', x * c + y * c', by positivity, by positivity, by positivity, ?_, ?_⟩
  · linear_combination x * h + y * h' + hxy
  · module
theorem tri_hull (v0 v1 v2 : Pt) : tri v0 v1 v2 = convexHull ℝ {v0, v1, v2} := by
  refine Set.Subset.antisymm ?_ (convexHull_min ?_ (tri_convex v0 v1 v2))
  · rintro _ ⟨a, b, c, ha, hb, hc, h, rfl⟩
    have := (convex_convexHull ℝ {v0, v1, v2}).sum_mem (t := Finset.univ) (w := ![a, b, c]) (z := ![v0, v1, v2])
      (by intro i _; fin_cases i <;> simpa) (by simpa [Fin.sum_univ_three] using h)
      (by intro i _; fin_cases i <;> exact subset_convexHull ℝ _ (by simp))
    simpa [Fin.sum_univ_three] using this
  · rintro p (rfl | rfl | rfl)
    · exact ⟨1, 0, 0, by norm_num, by norm_num, by norm_num, by norm_num, by module⟩
    · exact ⟨0, 1, 0, by norm_num, by norm_num, by norm_num, by norm_num, by module⟩
    · exact ⟨0, 0, 1, by norm_num, by norm_num, by norm_num, by norm_num, by module⟩
theorem tri_compact (v0 v1 v2 : Pt) : IsCompact (tri v0 v1 v2) := by
  rw [tri_hull]; exact (Set.toFinite _).isCompact_convexHull (𝕜 := ℝ)
theorem tri_mem0 (v0 v1 v2 : Pt) : v0 ∈ tri v0 v1 v2 := by rw [tri_hull]; exact subset_convexHull ℝ _ (by simp)
theorem tri_mem1 (v0 v1 v2 : Pt) : v1 ∈ tri v0 v1 v2 := by rw [tri_hull]; exact subset_convexHull ℝ _ (by simp)
theorem tri_mem2 (v0 v1 v2 : Pt) : v2 ∈ tri v0 v1 v2 := by rw [tri_hull]; exact subset_convexHull ℝ _ (by simp)

/-- Every vertex of a triangle, with the two edges there. -/
theorem tri_support (v0 v1 v2 n : Pt) :
    ∃ v ∈ tri v0 v1 v2, ∃ g : Fin 2 → Pt, ((g 0 = v1 - v0 ∧ g 1 = v2 - v0) ∨ (g 0 = v2 - v1 ∧ g 1 = v0 - v1) ∨ (g 0 = v0 - v2 ∧ g 1 = v1 - v2)) ∧
      (∀ i, n ⬝ᵥ g i ≤ 0) ∧ ∀ p ∈ tri v0 v1 v2, ∃ x : Fin 2 → ℝ, (∀ i, 0 ≤ x i) ∧ p = v + ∑ i, x i • g i := by
  have key : ∀ a b c : Pt, n ⬝ᵥ b ≤ n ⬝ᵥ a → n ⬝ᵥ c ≤ n ⬝ᵥ a →
      (∀ i, n ⬝ᵥ (![b - a, c - a] i) ≤ 0) ∧ ∀ p ∈ tri a b c, ∃ x : Fin 2 → ℝ, (∀ i, 0 ≤ x i) ∧ p = a + ∑ i, x i • ![b - a, c - a] i := by
    intro a b c h1 h2
    refine ⟨?_, ?_⟩
    · intro i; fin_cases i <;> simp [dotProduct_sub] <;> assumption
    · rintro p ⟨x, y, z, hx, hy, hz, h, rfl⟩
      refine ⟨![y, z], by intro i; fin_cases i <;> simpa, ?_⟩
      simp only [Fin.sum_univ_two, Matrix.cons_val_zero, Matrix.cons_val_one]
      have : x = 1 - y - z := by linarith
      rw [this]; module
  have perm1 : tri v0 v1 v2 = tri v1 v2 v0 := by rw [tri_hull, tri_hull]; congr 1; ext p; simp; tauto
  have perm2 : tri v0 v1 v2 = tri v2 v0 v1 := by rw [tri_hull, tri_hull]; congr 1; ext p; simp; tauto
  by_cases h1 : n ⬝ᵥ v1 ≤ n ⬝ᵥ v0 ∧ n ⬝ᵥ v2 ≤ n ⬝ᵥ v0
  · obtain ⟨k1, k2⟩ := key v0 v1 v2 h1.1 h1.2
    exact ⟨v0, tri_mem0 _ _ _, _, Or.inl ⟨rfl, rfl⟩, k1, k2⟩
  by_cases h2 : n ⬝ᵥ v2 ≤ n ⬝ᵥ v1 ∧ n ⬝ᵥ v0 ≤ n ⬝ᵥ v1
  · obtain ⟨k1, k2⟩ := key v1 v2 v0 h2.1 h2.2
    refine ⟨v1, tri_mem1 _ _ _, _, Or.inr (Or.inl ⟨rfl, rfl⟩), k1, ?_⟩
    rw [perm1]; exact k2
  · have h3 : n ⬝ᵥ v0 ≤ n ⬝ᵥ v2 ∧ n ⬝ᵥ v1 ≤ n ⬝ᵥ v2 := by
      by_contra h
      rw [not_and_or] at h1 h2 h
      rcases h1 with h1 | h1 <;> rcases h2 with h2 | h2 <;> rcases h with h | h <;> linarith
    obtain ⟨k1, k2⟩ := key v2 v0 v1 h3.1 h3.2
    refine ⟨v2, tri_mem2 _ _ _, _, Or.inr (Or.inr ⟨rfl, rfl⟩), k1, ?_⟩
    rw [perm2]; exact k2

end DXM.RG
