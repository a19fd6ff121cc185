import Verif.Lemmas.Nearest

/-
Barycentric coordinates; balls against triangles.
-/

set_option linter.all false

namespace DXM.RG
open DXM.Spec DXM.E Matrix

variable {v0 v1 v2 : Pt}

/-- Barycentric coordinates (scaled by the squared normal) of the projection of `P`. -/
theorem bary (v0 v1 v2 P : Pt) :
    let N := crossProduct (v1 - v0) (v2 - v0)
    (N ⬝ᵥ N) • (P - v0) = (N ⬝ᵥ crossProduct (P - v0) (v2 - v0)) • (v1 - v0) + (N ⬝ᵥ crossProduct (v1 - v0) (P - v0)) • (v2 - v0) +
      (N ⬝ᵥ (P - v0)) • N := by
  intro N
  simp only [N]
  generalize v1 - v0 = a
  generalize v2 - v0 = b
  generalize P - v0 = x
  funext i
  fin_cases i <;> simp [crossProduct, dotProduct, Fin.sum_univ_three] <;> ring

/-- The inside test used by the code, for a point of the plane. -/
theorem in_tri_iff (hN : crossProduct (v1 - v0) (v2 - v0) ≠ 0) {P : Pt} (hP : crossProduct (v1 - v0) (v2 - v0) ⬝ᵥ (P - v0) = 0) :
    (0 ≤ crossProduct (P - v0) (v1 - v0) ⬝ᵥ crossProduct (v2 - v0) (v1 - v0) ∧
     0 ≤ crossProduct (P - v1) (v2 - v1) ⬝ᵥ crossProduct (v2 - v0) (v1 - v0) ∧
     0 ≤ crossProduct (P - v2) (v0 - v2) ⬝ᵥ crossProduct (v2 - v0) (v1 - v0)) ↔ P ∈ tri v0 v1 v2 := by
  have hK := RG.dot_self_pos hN
  have hb := bary v0 v1 v2 P
  dsimp only at hb
  rw [hP, zero_smul, add_zero] at hb
  set N := crossProduct (v1 - v0) (v2 - v0) with hNd
  have key : ∀ {x y z : ℝ}, x + y + z = 1 → P = x • v0 + y • v1 + z • v2 →
      crossProduct (P - v0) (v1 - v0) ⬝ᵥ crossProduct (v2 - v0) (v1 - v0) = z * (N ⬝ᵥ N) ∧
      crossProduct (P - v1) (v2 - v1) ⬝ᵥ crossProduct (v2 - v0) (v1 - v0) = x * (N ⬝ᵥ N) ∧
      crossProduct (P - v2) (v0 - v2) ⬝ᵥ crossProduct (v2 - v0) (v1 - v0) = y * (N ⬝ᵥ N) := by
    intro x y z hs hp
    have hx : x = 1 - y - z := by linarith
    subst hx
    have h0 : P - v0 = y • (v1 - v0) + z • (v2 - v0) := by rw [hp]; module
    have h1 : P - v1 = (y - 1) • (v1 - v0) + z • (v2 - v0) := by rw [hp]; module
    have h2 : P - v2 = y • (v1 - v0) + (z - 1) • (v2 - v0) := by rw [hp]; module
    have h3 : v2 - v1 = (v2 - v0) - (v1 - v0) := by abel
    have h4 : v0 - v2 = -(v2 - v0) := by abel
    rw [h0, h1, h2, h3, h4, hNd]
    generalize v1 - v0 = a
    generalize v2 - v0 = b
    refine ⟨?_, ?_, ?_⟩ <;> simp [crossProduct, dotProduct, Fin.sum_univ_three] <;> ring
  constructor
  · set y := (N ⬝ᵥ crossProduct (P - v0) (v2 - v0)) / (N ⬝ᵥ N)
    set z := (N ⬝ᵥ crossProduct (v1 - v0) (P - v0)) / (N ⬝ᵥ N)
    have hp : P = (1 - y - z) • v0 + y • v1 + z • v2 := by
      have : P - v0 = y • (v1 - v0) + z • (v2 - v0) := by
        have := congrArg (fun w => (N ⬝ᵥ N)⁻¹ • w) hb
        simp only [smul_add, smul_smul, inv_mul_cancel₀ hK.ne', one_smul] at this
        rw [this]; simp only [y, z, div_eq_inv_mul]
      rw [show P = (P - v0) + v0 by abel, this]; module
    obtain ⟨e1, e2, e3⟩ := key (by ring) hp
    rw [e1, e2, e3]
    rintro ⟨k1, k2, k3⟩
    exact ⟨_, _, _, nonneg_of_mul_nonneg_left k2 hK, nonneg_of_mul_nonneg_left k3 hK, nonneg_of_mul_nonneg_left k1 hK, by ring, hp⟩
  · rintro ⟨x, y, z, hx, hy, hz, hs, hp⟩
    obtain ⟨e1, e2, e3⟩ := key hs hp
    rw [e1, e2, e3]
    exact ⟨mul_nonneg hz hK.le, mul_nonneg hx hK.le, mul_nonneg hy hK.le⟩

/-- A vector perpendicular to both edges is a multiple of the normal. -/
theorem perp_normal {a b W : Pt} (hN : crossProduct a b ≠ 0) (ha : W ⬝ᵥ a = 0) (hb : W ⬝ᵥ b = 0) :
    W = ((crossProduct a b ⬝ᵥ W) / (crossProduct a b ⬝ᵥ crossProduct a b)) • crossProduct a b := by
  have hK := RG.dot_self_pos hN
  have h := bary 0 a b W
  simp only [sub_zero] at h
  set N := crossProduct a b with hNd
  have h1 := congrArg (fun w => (w - (N ⬝ᵥ W) • N) ⬝ᵥ ((N ⬝ᵥ N) • W - (N ⬝ᵥ W) • N)) h
  have hNa : N ⬝ᵥ a = 0 := by rw [hNd]; simp [crossProduct, dotProduct, Fin.sum_univ_three]; ring
  have hNb : N ⬝ᵥ b = 0 := by rw [hNd]; simp [crossProduct, dotProduct, Fin.sum_univ_three]; ring
  have h2 : ((N ⬝ᵥ N) • W - (N ⬝ᵥ W) • N) ⬝ᵥ ((N ⬝ᵥ N) • W - (N ⬝ᵥ W) • N) = 0 := by
    refine h1.trans ?_
    rw [add_sub_cancel_right]
    simp only [add_dotProduct, smul_dotProduct, dotProduct_sub, dotProduct_smul, smul_eq_mul, dotProduct_comm a, dotProduct_comm b, ha, hb, hNa, hNb]
    ring
  have h3 : (N ⬝ᵥ N) • W - (N ⬝ᵥ W) • N = 0 := by
    by_contra k; have := RG.dot_self_pos k; linarith
  have h4 := congrArg (fun w => (N ⬝ᵥ N)⁻¹ • w) (sub_eq_zero.1 h3)
  simp only [smul_smul, inv_mul_cancel₀ hK.ne', one_smul] at h4
  rw [div_eq_inv_mul]; exact h4

theorem seg_tri {a b : Pt} (ha : a ∈ tri v0 v1 v2) (hb : b ∈ tri v0 v1 v2) : seg a b ⊆ tri v0 v1 v2 := by
  rintro _ ⟨x, x0, x1, rfl⟩
  have := tri_convex v0 v1 v2 ha hb (sub_nonneg.2 x1) x0 (by ring)
  convert this using 1
  rw [sub_smul, smul_sub, one_smul]; abel

/-- The ball meets the triangle iff it meets an edge, or contains the foot of the perpendicular and that lies in the triangle. -/
theorem ball_tri (hN : crossProduct (v1 - v0) (v2 - v0) ≠ 0) (C : Pt) (R : ℝ) :
    let N := crossProduct (v1 - v0) (v2 - v0)
    let P := C - ((N ⬝ᵥ (C - v0)) / (N ⬝ᵥ N)) • N
    (ball C R ∩ tri v0 v1 v2).Nonempty ↔ (P ∈ ball C R ∧ P ∈ tri v0 v1 v2) ∨ (∃ y ∈ seg v0 v1, y ∈ ball C R) ∨ (∃ y ∈ seg v1 v2, y ∈ ball C R) ∨
      (∃ y ∈ seg v2 v0, y ∈ ball C R) := by
  intro N P
  constructor
  · rintro ⟨y, hyb, hy⟩
    obtain ⟨p, hp, hm, hvar⟩ := nearest (tri_convex v0 v1 v2) (tri_compact v0 v1 v2) ⟨y, hy⟩ C
    have hpb : p ∈ ball C R := by
      rw [mem_ball, len_sub_comm] at hyb ⊢; exact (hm y hy).trans hyb
    obtain ⟨a, b, c, ha, hb, hc, hs, e⟩ := hp
    have hE : ∀ {x y z : ℝ}, 0 ≤ x → 0 ≤ y → 0 ≤ z → x + y + z = 1 → (C - p) ⬝ᵥ ((x - a) • v0 + (y - b) • v1 + (z - c) • v2) ≤ 0 := by
      intro x y z hx hy hz hs
      have := hvar _ ⟨x, y, z, hx, hy, hz, hs, rfl⟩
      refine le_trans (le_of_eq ?_) this
      congr 1
      rw [e]; module
    rcases ha.eq_or_lt with ha | ha
    · right; right; left
      refine ⟨p, ⟨c, hc, by linarith, ?_⟩, hpb⟩
      rw [e, ← ha, show b = 1 - c by linarith]; module
    rcases hb.eq_or_lt with hb | hb
    · right; right; right
      refine ⟨p, ⟨a, ha.le, by linarith, ?_⟩, hpb⟩
      rw [e, ← hb, show c = 1 - a by linarith]; module
    rcases hc.eq_or_lt with hc | hc
    · right; left
      refine ⟨p, ⟨b, hb.le, by linarith, ?_⟩, hpb⟩
      rw [e, ← hc, show a = 1 - b by linarith]; module
    left
    have h1 : (C - p) ⬝ᵥ (v1 - v0) = 0 := by
      have k1 := hE (x := 0) (y := b + a) (z := c) le_rfl (by linarith) hc.le (by linarith)
      have k2 := hE (x := a + b) (y := 0) (z := c) (by linarith) le_rfl hc.le (by linarith)
      rw [show (0 - a) • v0 + (b + a - b) • v1 + (c - c) • v2 = a • (v1 - v0) by module, dotProduct_smul, smul_eq_mul] at k1
      rw [show (a + b - a) • v0 + (0 - b) • v1 + (c - c) • v2 = (-b) • (v1 - v0) by module, dotProduct_smul, smul_eq_mul] at k2
      refine le_antisymm ?_ ?_
      · by_contra k; push Not at k; have := mul_pos ha k; linarith
      · by_contra k; push Not at k; have := mul_pos hb (neg_pos.2 k); linarith
    have h2 : (C - p) ⬝ᵥ (v2 - v0) = 0 := by
      have k1 := hE (x := 0) (y := b) (z := c + a) le_rfl hb.le (by linarith) (by linarith)
      have k2 := hE (x := a + c) (y := b) (z := 0) (by linarith) hb.le le_rfl (by linarith)
      rw [show (0 - a) • v0 + (b - b) • v1 + (c + a - c) • v2 = a • (v2 - v0) by module, dotProduct_smul, smul_eq_mul] at k1
      rw [show (a + c - a) • v0 + (b - b) • v1 + (0 - c) • v2 = (-c) • (v2 - v0) by module, dotProduct_smul, smul_eq_mul] at k2
      refine le_antisymm ?_ ?_
      · by_contra k; push Not at k; have := mul_pos ha k; linarith
      · by_contra k; push Not at k; have := mul_pos hc (neg_pos.2 k); linarith
    have h3 := perp_normal hN h1 h2
    have h4 : N ⬝ᵥ (C - v0) = N ⬝ᵥ (C - p) := by
      have : p - v0 = b • (v1 - v0) + c • (v2 - v0) := by rw [e, show a = 1 - b - c by linarith]; module
      rw [show C - v0 = (C - p) + (p - v0) by abel, dotProduct_add, this]
      have e1 : N ⬝ᵥ (v1 - v0) = 0 := by simp only [N]; generalize v1 - v0 = a; generalize v2 - v0 = b; simp [crossProduct, dotProduct, Fin.sum_univ_three]; ring
      have e2 : N ⬝ᵥ (v2 - v0) = 0 := by simp only [N]; generalize v1 - v0 = a; generalize v2 - v0 = b; simp [crossProduct, dotProduct, Fin.sum_univ_three]; ring
      rw [dotProduct_add, dotProduct_smul, dotProduct_smul, e1, e2]; simp
    have h5 : P = p := by
      simp only [P]; rw [h4, ← h3]; abel
    rw [h5]
    exact ⟨hpb, a, b, c, ha.le, hb.le, hc.le, hs, e⟩
  · rintro (⟨h1, h2⟩ | ⟨y, h1, h2⟩ | ⟨y, h1, h2⟩ | ⟨y, h1, h2⟩)
    · exact ⟨P, h1, h2⟩
    · exact ⟨y, h2, seg_tri (tri_mem0 ..) (tri_mem1 ..) h1⟩
    · exact ⟨y, h2, seg_tri (tri_mem1 ..) (tri_mem2 ..) h1⟩
    · exact ⟨y, h2, seg_tri (tri_mem2 ..) (tri_mem0 ..) h1⟩
end DXM.RG
