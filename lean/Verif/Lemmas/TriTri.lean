import Verif.Spec.Geometry
import Mathlib.LinearAlgebra.CrossProduct
import Mathlib.Tactic.Linarith
import Mathlib.Tactic.FieldSimp
import Mathlib.Tactic.Module

/-
Two triangles in general position: each crosses the plane of the other, and the crossing segments lie on one line.
-/

set_option linter.all false

namespace DXM.RG
open DXM.Spec Matrix

theorem cross_self_dot (u v : Pt) : crossProduct u v ⬝ᵥ u = 0 ∧ crossProduct u v ⬝ᵥ v = 0 := by
  constructor <;> simp [crossProduct, dotProduct, Fin.sum_univ_three] <;> ring

theorem self_dot_zero {v : Pt} (h : v ⬝ᵥ v = 0) : v = 0 := by
  simp only [dotProduct, Fin.sum_univ_three] at h
  have h0 := mul_self_nonneg (v 0)
  have h1 := mul_self_nonneg (v 1)
  have h2 := mul_self_nonneg (v 2)
  ext i
  fin_cases i
  · exact mul_self_eq_zero.1 (le_antisymm (show v 0 * v 0 ≤ 0 by linarith) h0)
  · exact mul_self_eq_zero.1 (le_antisymm (show v 1 * v 1 ≤ 0 by linarith) h1)
  · exact mul_self_eq_zero.1 (le_antisymm (show v 2 * v 2 ≤ 0 by linarith) h2)

/-- Vectors orthogonal to both normals are multiples of the direction of the common line. -/
theorem par_dir {n1 n2 v : Pt} (h1 : n1 ⬝ᵥ v = 0) (h2 : n2 ⬝ᵥ v = 0) (hD : crossProduct n1 n2 ≠ 0) : ∃ l : ℝ, v = l • crossProduct n1 n2 := by
  set D := crossProduct n1 n2 with hDdef
  have hpos : D ⬝ᵥ D ≠ 0 := by
    intro h0
    apply hD
    exact self_dot_zero h0
  refine ⟨(v ⬝ᵥ D) / (D ⬝ᵥ D), ?_⟩
  have key : (D ⬝ᵥ D) • v = (v ⬝ᵥ D) • D := by
    have hx : ∀ i, (D ⬝ᵥ D) * v i - (v ⬝ᵥ D) * D i = 0 := by
      have e : (D ⬝ᵥ D) • v - (v ⬝ᵥ D) • D = crossProduct D (crossProduct v D) := by
        ext i; fin_cases i <;> simp [crossProduct, dotProduct, Fin.sum_univ_three] <;> ring
      have e2 : crossProduct v D = (n2 ⬝ᵥ v) • n1 - (n1 ⬝ᵥ v) • n2 := by
        rw [hDdef]; ext i; fin_cases i <;> simp [crossProduct, dotProduct, Fin.sum_univ_three] <;> ring
      have e3 : crossProduct v D = 0 := by rw [e2, h1, h2]; simp
      intro i
      have := congrFun e i
      rw [e3] at this
      simpa using this
    ext i; have := hx i; simp only [Pi.smul_apply, smul_eq_mul]; linarith
  rw [div_eq_inv_mul, mul_smul, ← key, smul_smul, inv_mul_cancel₀ hpos, one_smul]

theorem tri_mem_edge {p u1 u2 : Pt} {s1 s2 r : ℝ} (h1 : 0 ≤ s1) (h1' : s1 ≤ 1) (h2 : 0 ≤ s2) (h2' : s2 ≤ 1) (hr : 0 ≤ r) (hr' : r ≤ 1) :
    (1 - r) • (p + s1 • u1) + r • (p + s2 • u2) ∈ tri p (p + u1) (p + u2) := by
  refine ⟨1 - (1 - r) * s1 - r * s2, (1 - r) * s1, r * s2, ?_, by nlinarith, by nlinarith, by ring, by module⟩
  nlinarith [mul_nonneg (sub_nonneg.2 hr') (sub_nonneg.2 h1'), mul_nonneg hr (sub_nonneg.2 h2')]

/-- The points of a triangle on a plane that separates its first vertex from the two others. -/
theorem tri_cut {p u1 u2 n x : Pt} {k : ℝ} (hk : 0 < k) (h1 : n ⬝ᵥ u1 < -k) (h2 : n ⬝ᵥ u2 < -k) (hx : x ∈ tri p (p + u1) (p + u2))
    (hn : k + n ⬝ᵥ (x - p) = 0) : ∃ r : ℝ, 0 ≤ r ∧ r ≤ 1 ∧ x = (1 - r) • (p + (k / -(n ⬝ᵥ u1)) • u1) + r • (p + (k / -(n ⬝ᵥ u2)) • u2) := by
  obtain ⟨a, b, c, ha, hb, hc, hs, rfl⟩ := hx
  have e : a • p + b • (p + u1) + c • (p + u2) - p = b • u1 + c • u2 := by
    have : a = 1 - b - c := by linarith
    subst this; module
  rw [e, dotProduct_add, dotProduct_smul, dotProduct_smul, smul_eq_mul, smul_eq_mul] at hn
  set g1 := n ⬝ᵥ u1
  set g2 := n ⬝ᵥ u2
  have n1 : 0 < -g1 := by linarith
  have n2 : 0 < -g2 := by linarith
  refine ⟨c * (-g2) / k, by positivity, ?_, ?_⟩
  · rw [div_le_one hk]; nlinarith
  · have hr : 1 - c * (-g2) / k = b * (-g1) / k := by field_simp; linarith
    rw [hr]
    have f1 : (b * (-g1) / k) * (k / -g1) = b := by field_simp [n1.ne', hk.ne', show g1 ≠ 0 by linarith]
    have f2 : (c * (-g2) / k) * (k / -g2) = c := by field_simp [n2.ne', hk.ne', show g2 ≠ 0 by linarith]
    have f3 : b * (-g1) / k + c * (-g2) / k = 1 := by rw [← hr]; ring
    rw [smul_add (b * (-g1) / k), smul_add (c * (-g2) / k), smul_smul, smul_smul, f1, f2]
    have : (b * (-g1) / k) • p + b • u1 + ((c * (-g2) / k) • p + c • u2) = (b * (-g1) / k + c * (-g2) / k) • p + b • u1 + c • u2 := by module
    rw [this, f3, one_smul]
    have : a = 1 - b - c := by linarith
    subst this; module

theorem mul_nonpos_iff_of_pos_right {a b : ℝ} (h : 0 < b) : a * b ≤ 0 ↔ a ≤ 0 := by
  rw [← not_lt, ← not_lt, not_iff_not, mul_pos_iff_of_pos_right h]

theorem plane_tri (u1 u2 : Pt) {p x : Pt} (hx : x ∈ tri p (p + u1) (p + u2)) : crossProduct u1 u2 ⬝ᵥ (x - p) = 0 := by
  obtain ⟨a, b, c, -, -, -, hs, rfl⟩ := hx
  have : a • p + b • (p + u1) + c • (p + u2) - p = b • u1 + c • u2 := by
    have : a = 1 - b - c := by linarith
    subst this; module
  rw [this, dotProduct_add, dotProduct_smul, dotProduct_smul, (cross_self_dot u1 u2).1, (cross_self_dot u1 u2).2]; simp

/-- Two opposite segments on a line overlap iff neither lies beyond the other. -/
theorem seg_overlap (A1 A2 B1 B2 D : Pt) (hD : D ≠ 0) {μ ν m11 m22 : ℝ} (hμ : 0 < μ) (hν : 0 < ν) (dA : A1 - A2 = μ • D) (dB : B2 - B1 = ν • D)
    (h11 : A1 - B1 = m11 • D) (h22 : A2 - B2 = m22 • D) :
    (∃ r z : ℝ, 0 ≤ r ∧ r ≤ 1 ∧ 0 ≤ z ∧ z ≤ 1 ∧ (1 - r) • A1 + r • A2 = (1 - z) • B1 + z • B2) ↔ m22 ≤ 0 ∧ 0 ≤ m11 := by
  have cancel : ∀ x y : ℝ, x • D = y • D → x = y := fun x y h => smul_left_injective ℝ hD h
  constructor
  · rintro ⟨r, z, r0, r1, z0, z1', e0⟩
    have e1 : A1 - B1 = r • (A1 - A2) + z • (B2 - B1) := by
      have : A1 - B1 - (r • (A1 - A2) + z • (B2 - B1)) = ((1 - r) • A1 + r • A2) - ((1 - z) • B1 + z • B2) := by module
      rw [e0, sub_self] at this
      exact sub_eq_zero.1 this
    have e2 : A2 - B2 = -((1 - r) • (A1 - A2) + (1 - z) • (B2 - B1)) := by
      have : A2 - B2 - (-((1 - r) • (A1 - A2) + (1 - z) • (B2 - B1))) = ((1 - r) • A1 + r • A2) - ((1 - z) • B1 + z • B2) := by module
      rw [e0, sub_self] at this
      exact sub_eq_zero.1 this
    rw [h11, dA, dB, smul_smul, smul_smul, ← add_smul] at e1
    rw [h22, dA, dB, smul_smul, smul_smul, ← add_smul, ← neg_smul] at e2
    have := cancel _ _ e1
    have := cancel _ _ e2
    constructor
    · nlinarith [mul_nonneg (sub_nonneg.2 r1) hμ.le, mul_nonneg (sub_nonneg.2 z1') hν.le]
    · nlinarith [mul_nonneg r0 hμ.le, mul_nonneg z0 hν.le]
  · rintro ⟨c2, c1⟩
    have mm : m11 = m22 + μ + ν := by
      apply cancel
      rw [add_smul, add_smul, ← h11, ← h22, ← dA, ← dB]; abel
    by_cases hc : m22 + ν ≤ 0
    · refine ⟨m11 / μ, 0, div_nonneg c1 hμ.le, (div_le_one hμ).2 (by linarith), le_rfl, zero_le_one, ?_⟩
      have e : m11 • D = (m11 / μ) • (A1 - A2) := by rw [dA, smul_smul, div_mul_cancel₀ _ hμ.ne']
      have e' : B1 = A1 - m11 • D := by rw [← h11]; abel
      rw [e', e]; module
    · refine ⟨1, (m22 + ν) / ν, zero_le_one, le_rfl, div_nonneg (by linarith) hν.le, (div_le_one hν).2 (by linarith), ?_⟩
      have e : (m22 + ν) • D = ((m22 + ν) / ν) • (B2 - B1) := by rw [dB, smul_smul, div_mul_cancel₀ _ hν.ne']
      have e' : A2 = B1 + (m22 + ν) • D := by rw [add_smul, ← h22, ← dB]; abel
      rw [e', e]; module

/-- Two triangles, each separating the first vertex of the other from its other two vertices. -/
theorem tri_tri_core (p u1 u2 q w1 w2 : Pt)
    (a0 : 0 < crossProduct w1 w2 ⬝ᵥ (p - q)) (a1 : crossProduct w1 w2 ⬝ᵥ (p + u1 - q) < 0) (a2 : crossProduct w1 w2 ⬝ᵥ (p + u2 - q) < 0)
    (b0 : 0 < crossProduct u1 u2 ⬝ᵥ (q - p)) (b1 : crossProduct u1 u2 ⬝ᵥ (q + w1 - p) < 0) (b2 : crossProduct u1 u2 ⬝ᵥ (q + w2 - p) < 0) :
    (tri p (p + u1) (p + u2) ∩ tri q (q + w1) (q + w2)).Nonempty ↔ (p - q) ⬝ᵥ crossProduct w2 u2 ≤ 0 ∧ 0 ≤ (p - q) ⬝ᵥ crossProduct w1 u1 := by
  set n2 := crossProduct w1 w2 with hn2
  set n1 := crossProduct u1 u2 with hn1
  set D := crossProduct n1 n2 with hD
  set k := n2 ⬝ᵥ (p - q) with hk
  set l := n1 ⬝ᵥ (q - p) with hl
  have g1 : n2 ⬝ᵥ u1 < -k := by
    have : n2 ⬝ᵥ (p + u1 - q) = k + n2 ⬝ᵥ u1 := by rw [hk, ← dotProduct_add]; congr 1; abel
    linarith
  have g2 : n2 ⬝ᵥ u2 < -k := by
    have : n2 ⬝ᵥ (p + u2 - q) = k + n2 ⬝ᵥ u2 := by rw [hk, ← dotProduct_add]; congr 1; abel
    linarith
  have k1 : n1 ⬝ᵥ w1 < -l := by
    have : n1 ⬝ᵥ (q + w1 - p) = l + n1 ⬝ᵥ w1 := by rw [hl, ← dotProduct_add]; congr 1; abel
    linarith
  have k2 : n1 ⬝ᵥ w2 < -l := by
    have : n1 ⬝ᵥ (q + w2 - p) = l + n1 ⬝ᵥ w2 := by rw [hl, ← dotProduct_add]; congr 1; abel
    linarith
  have z1 : n1 ⬝ᵥ u1 = 0 := (cross_self_dot u1 u2).1
  have z2 : n1 ⬝ᵥ u2 = 0 := (cross_self_dot u1 u2).2
  have z3 : n2 ⬝ᵥ w1 = 0 := (cross_self_dot w1 w2).1
  have z4 : n2 ⬝ᵥ w2 = 0 := (cross_self_dot w1 w2).2
  set s1 := k / -(n2 ⬝ᵥ u1) with hs1
  set s2 := k / -(n2 ⬝ᵥ u2) with hs2
  set t1 := l / -(n1 ⬝ᵥ w1) with ht1
  set t2 := l / -(n1 ⬝ᵥ w2) with ht2
  have s1p : 0 < s1 ∧ s1 ≤ 1 := ⟨div_pos a0 (by linarith), (div_le_one (by linarith)).2 (by linarith)⟩
  have s2p : 0 < s2 ∧ s2 ≤ 1 := ⟨div_pos a0 (by linarith), (div_le_one (by linarith)).2 (by linarith)⟩
  have t1p : 0 < t1 ∧ t1 ≤ 1 := ⟨div_pos b0 (by linarith), (div_le_one (by linarith)).2 (by linarith)⟩
  have t2p : 0 < t2 ∧ t2 ≤ 1 := ⟨div_pos b0 (by linarith), (div_le_one (by linarith)).2 (by linarith)⟩
  have s1e : k + s1 * (n2 ⬝ᵥ u1) = 0 := by rw [hs1]; field_simp [show n2 ⬝ᵥ u1 ≠ 0 by linarith]; ring
  have s2e : k + s2 * (n2 ⬝ᵥ u2) = 0 := by rw [hs2]; field_simp [show n2 ⬝ᵥ u2 ≠ 0 by linarith]; ring
  have t1e : l + t1 * (n1 ⬝ᵥ w1) = 0 := by rw [ht1]; field_simp [show n1 ⬝ᵥ w1 ≠ 0 by linarith]; ring
  have t2e : l + t2 * (n1 ⬝ᵥ w2) = 0 := by rw [ht2]; field_simp [show n1 ⬝ᵥ w2 ≠ 0 by linarith]; ring
  have hl' : n1 ⬝ᵥ (p - q) = -l := by rw [hl, ← dotProduct_neg]; congr 1; abel
  -- the direction
  have Dpos : ∀ w u : Pt, n2 ⬝ᵥ w = 0 → n1 ⬝ᵥ w < 0 → n2 ⬝ᵥ u < 0 → 0 < D ⬝ᵥ crossProduct w u := by
    intro w u h0 h1 h2
    have : D ⬝ᵥ crossProduct w u = (n1 ⬝ᵥ w) * (n2 ⬝ᵥ u) - (n1 ⬝ᵥ u) * (n2 ⬝ᵥ w) := by
      rw [hD]; simp only [crossProduct, dotProduct, Fin.sum_univ_three, LinearMap.mk₂_apply]; simp; ring
    rw [this, h0]
    nlinarith [mul_pos_of_neg_of_neg h1 h2]
  have p11 := Dpos w1 u1 z3 (by linarith) (by linarith)
  have p22 := Dpos w2 u2 z4 (by linarith) (by linarith)
  have hDne : crossProduct n1 n2 ≠ 0 := by
    intro h0; rw [← hD] at h0; rw [h0] at p11; simp at p11
  have tp : ∀ (w u : Pt) (s t : ℝ), (p + s • u - (q + t • w)) ⬝ᵥ crossProduct w u = (p - q) ⬝ᵥ crossProduct w u := by
    intro w u s t
    simp only [crossProduct, dotProduct, Fin.sum_univ_three, LinearMap.mk₂_apply]; simp; ring
  have vec : ∀ (w u : Pt) (s t : ℝ), n1 ⬝ᵥ u = 0 → n2 ⬝ᵥ w = 0 → k + s * (n2 ⬝ᵥ u) = 0 → l + t * (n1 ⬝ᵥ w) = 0 →
      ∃ m : ℝ, p + s • u - (q + t • w) = m • D := by
    intro w u s t h1 h2 h3 h4
    have e : p + s • u - (q + t • w) = (p - q) + s • u - t • w := by abel
    apply par_dir _ _ hDne
    · rw [e, dotProduct_sub, dotProduct_add, dotProduct_smul, dotProduct_smul, h1, hl']; simp; linarith
    · rw [e, dotProduct_sub, dotProduct_add, dotProduct_smul, dotProduct_smul, h2, ← hk]; simp; linarith
  obtain ⟨m11, h11⟩ := vec w1 u1 s1 t1 z1 z3 s1e t1e
  obtain ⟨m22, h22⟩ := vec w2 u2 s2 t2 z2 z4 s2e t2e
  have sg11 : (p - q) ⬝ᵥ crossProduct w1 u1 = m11 * (D ⬝ᵥ crossProduct w1 u1) := by
    rw [← tp w1 u1 s1 t1, h11, smul_dotProduct, smul_eq_mul]
  have sg22 : (p - q) ⬝ᵥ crossProduct w2 u2 = m22 * (D ⬝ᵥ crossProduct w2 u2) := by
    rw [← tp w2 u2 s2 t2, h22, smul_dotProduct, smul_eq_mul]
  -- the segments
  have dA : ∃ μ : ℝ, 0 < μ ∧ (p + s1 • u1) - (p + s2 • u2) = μ • D := by
    refine ⟨k / ((-(n2 ⬝ᵥ u1)) * (-(n2 ⬝ᵥ u2))), div_pos a0 (mul_pos (by linarith) (by linarith)), ?_⟩
    have hDu : D = (n2 ⬝ᵥ u1) • u2 - (n2 ⬝ᵥ u2) • u1 := by
      rw [hD, hn1]; ext i; fin_cases i <;> simp [crossProduct, dotProduct, Fin.sum_univ_three] <;> ring
    rw [hDu]
    have n1' : (n2 ⬝ᵥ u1) ≠ 0 := by linarith
    have n2' : (n2 ⬝ᵥ u2) ≠ 0 := by linarith
    generalize n2 ⬝ᵥ u1 = x at *
    generalize n2 ⬝ᵥ u2 = y at *
    ext i
    simp only [hs1, hs2, Pi.sub_apply, Pi.add_apply, Pi.smul_apply, smul_eq_mul]
    field_simp
    ring
  have dB : ∃ ν : ℝ, 0 < ν ∧ (q + t2 • w2) - (q + t1 • w1) = ν • D := by
    refine ⟨l / ((-(n1 ⬝ᵥ w1)) * (-(n1 ⬝ᵥ w2))), div_pos b0 (mul_pos (by linarith) (by linarith)), ?_⟩
    have hDu : D = (n1 ⬝ᵥ w2) • w1 - (n1 ⬝ᵥ w1) • w2 := by
      rw [hD, hn2]; ext i; fin_cases i <;> simp [crossProduct, dotProduct, Fin.sum_univ_three] <;> ring
    rw [hDu]
    have n1' : (n1 ⬝ᵥ w1) ≠ 0 := by linarith
    have n2' : (n1 ⬝ᵥ w2) ≠ 0 := by linarith
    generalize n1 ⬝ᵥ w1 = x at *
    generalize n1 ⬝ᵥ w2 = y at *
    ext i
    simp only [ht1, ht2, Pi.sub_apply, Pi.add_apply, Pi.smul_apply, smul_eq_mul]
    field_simp
    ring
  obtain ⟨μ, hμ, dA⟩ := dA
  obtain ⟨ν, hν, dB⟩ := dB
  clear_value s1 s2 t1 t2 D k l n1 n2
  rw [sg11, sg22]
  have i1 : 0 ≤ m11 * (D ⬝ᵥ crossProduct w1 u1) ↔ 0 ≤ m11 := mul_nonneg_iff_of_pos_right p11
  have i2 : m22 * (D ⬝ᵥ crossProduct w2 u2) ≤ 0 ↔ m22 ≤ 0 := mul_nonpos_iff_of_pos_right p22
  rw [i1, i2]
  rw [← hD] at hDne
  rw [← seg_overlap _ _ _ _ D hDne hμ hν dA dB h11 h22]
  constructor
  · rintro ⟨x, hxA, hxB⟩
    have eA : k + n2 ⬝ᵥ (x - p) = 0 := by
      have := plane_tri w1 w2 hxB
      rw [← hn2] at this
      rw [hk, ← dotProduct_add, ← this]; congr 1; abel
    have eB : l + n1 ⬝ᵥ (x - q) = 0 := by
      have := plane_tri u1 u2 hxA
      rw [← hn1] at this
      rw [hl, ← dotProduct_add, ← this]; congr 1; abel
    obtain ⟨r, r0, r1, hr⟩ := tri_cut a0 g1 g2 hxA eA
    obtain ⟨z, z0, z1', hz⟩ := tri_cut b0 k1 k2 hxB eB
    rw [← hs1, ← hs2] at hr
    rw [← ht1, ← ht2] at hz
    exact ⟨r, z, r0, r1, z0, z1', hr.symm.trans hz⟩
  · rintro ⟨r, z, r0, r1, z0, z1', h⟩
    refine ⟨_, tri_mem_edge s1p.1.le s1p.2 s2p.1.le s2p.2 r0 r1, ?_⟩
    rw [h]
    exact tri_mem_edge t1p.1.le t1p.2 t2p.1.le t2p.2 z0 z1'

end DXM.RG
