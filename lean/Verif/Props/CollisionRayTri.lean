import Verif.Props.CollisionRay

/-
C80: ray against triangle.
-/

set_option linter.all false

namespace DXM.Props
open DXM.E DXM.Spec DXM.RG DXM.Geo Matrix Classical

/-- The determinant of the ray-triangle system: twice the area of the triangle as seen along the direction. -/
noncomputable def rayDet (d v0 v1 v2 : Pt) : ℝ := (v1 - v0) ⬝ᵥ crossProduct d (v2 - v0)

theorem cramer (d e1 e2 s : Pt) : (e1 ⬝ᵥ crossProduct d e2) • s = (s ⬝ᵥ crossProduct d e2) • e1 + (d ⬝ᵥ crossProduct s e1) • e2 - (e2 ⬝ᵥ crossProduct s e1) • d := by
  ext i; fin_cases i <;> simp [cross_apply, dotProduct, Fin.sum_univ_three] <;> ring
theorem cramer' (d e1 e2 : Pt) (u v t : ℝ) :
    (u • e1 + v • e2 - t • d) ⬝ᵥ crossProduct d e2 = u * (e1 ⬝ᵥ crossProduct d e2) ∧
    d ⬝ᵥ crossProduct (u • e1 + v • e2 - t • d) e1 = v * (e1 ⬝ᵥ crossProduct d e2) ∧
    e2 ⬝ᵥ crossProduct (u • e1 + v • e2 - t • d) e1 = t * (e1 ⬝ᵥ crossProduct d e2) := by
  refine ⟨?_, ?_, ?_⟩ <;> simp [cross_apply, dotProduct, Fin.sum_univ_three] <;> ring

/-- The point at parameter `t` lies in the triangle iff the coordinates do. -/
theorem line_tri (o d v0 v1 v2 : Pt) (t : ℝ) (hD : rayDet d v0 v1 v2 ≠ 0) :
    o + t • d ∈ tri v0 v1 v2 ↔
      0 ≤ (o - v0) ⬝ᵥ crossProduct d (v2 - v0) / rayDet d v0 v1 v2 ∧ 0 ≤ d ⬝ᵥ crossProduct (o - v0) (v1 - v0) / rayDet d v0 v1 v2 ∧
      (o - v0) ⬝ᵥ crossProduct d (v2 - v0) / rayDet d v0 v1 v2 + d ⬝ᵥ crossProduct (o - v0) (v1 - v0) / rayDet d v0 v1 v2 ≤ 1 ∧
      t = (v2 - v0) ⬝ᵥ crossProduct (o - v0) (v1 - v0) / rayDet d v0 v1 v2 := by
  unfold rayDet at *
  constructor
  · rintro ⟨x, y, z, hx, hy, hz, h1, h⟩
    have hs : o - v0 = y • (v1 - v0) + z • (v2 - v0) - t • d := by
      rw [show o = (x • v0 + y • v1 + z • v2) - t • d by rw [← h]; abel, show x = 1 - y - z by linarith]
      module
    obtain ⟨k1, k2, k3⟩ := cramer' d (v1 - v0) (v2 - v0) y z t
    rw [hs, k1, k2, k3, mul_div_cancel_right₀ _ hD, mul_div_cancel_right₀ _ hD, mul_div_cancel_right₀ _ hD]
    exact ⟨hy, hz, by linarith, rfl⟩
  · rintro ⟨hy, hz, h1, ht⟩
    have h := cramer d (v1 - v0) (v2 - v0) (o - v0)
    have h' : o - v0 = ((v1 - v0) ⬝ᵥ crossProduct d (v2 - v0))⁻¹ • ((v1 - v0) ⬝ᵥ crossProduct d (v2 - v0)) • (o - v0) := by
      rw [smul_smul, inv_mul_cancel₀ hD, one_smul]
    rw [h, smul_sub, smul_add, smul_smul, smul_smul, smul_smul, inv_mul_eq_div, inv_mul_eq_div, inv_mul_eq_div, ← ht, sub_eq_iff_eq_add] at h'
    generalize (o - v0) ⬝ᵥ crossProduct d (v2 - v0) / ((v1 - v0) ⬝ᵥ crossProduct d (v2 - v0)) = U at *
    generalize d ⬝ᵥ crossProduct (o - v0) (v1 - v0) / ((v1 - v0) ⬝ᵥ crossProduct d (v2 - v0)) = V at *
    refine ⟨1 - U - V, U, V, by linarith, hy, hz, by ring, ?_⟩
    rw [h']
    module

/-- Exact when the determinant is at or above the threshold 1e-20: a hit reports the parameter of the (unique) common point, a miss reports 0. -/
theorem C80_ray (c : Cfg) (o d v0 v1 v2 : Pt) (w w' w0 w1 w2 : E) (hD : rayEps ≤ |rayDet d v0 v1 v2|) :
    if (ray o d ∩ tri v0 v1 v2).Nonempty then
      ∃ t, TriangleTests.IntersectsRay c (vec3 o w) (vec3 d w') (vec3 v0 w0) (vec3 v1 w1) (vec3 v2 w2) = (true, num t) ∧ 0 ≤ t ∧
        o + t • d ∈ tri v0 v1 v2 ∧ ∀ t', o + t' • d ∈ tri v0 v1 v2 → t' = t
    else TriangleTests.IntersectsRay c (vec3 o w) (vec3 d w') (vec3 v0 w0) (vec3 v1 w1) (vec3 v2 w2) = (false, num 0) := by
  have hp := rayEps_pos
  have hD0 : rayDet d v0 v1 v2 ≠ 0 := by intro h; rw [h, abs_zero] at hD; linarith
  have hray : (ray o d ∩ tri v0 v1 v2).Nonempty ↔
      0 ≤ (o - v0) ⬝ᵥ crossProduct d (v2 - v0) / rayDet d v0 v1 v2 ∧ 0 ≤ d ⬝ᵥ crossProduct (o - v0) (v1 - v0) / rayDet d v0 v1 v2 ∧
      (o - v0) ⬝ᵥ crossProduct d (v2 - v0) / rayDet d v0 v1 v2 + d ⬝ᵥ crossProduct (o - v0) (v1 - v0) / rayDet d v0 v1 v2 ≤ 1 ∧
      0 ≤ (v2 - v0) ⬝ᵥ crossProduct (o - v0) (v1 - v0) / rayDet d v0 v1 v2 := by
    constructor
    · rintro ⟨p, ⟨t, ht, rfl⟩, h⟩
      obtain ⟨a1, a2, a3, rfl⟩ := (line_tri o d v0 v1 v2 t hD0).1 h
      exact ⟨a1, a2, a3, ht⟩
    · rintro ⟨a1, a2, a3, a4⟩
      exact ⟨_, ⟨_, a4, rfl⟩, (line_tri o d v0 v1 v2 _ hD0).2 ⟨a1, a2, a3, rfl⟩⟩
  have hl := fun t => line_tri o d v0 v1 v2 t hD0
  simp only [hray, hl]
  clear hray hl
  unfold TriangleTests.IntersectsRay
  simp only [v_rayEps, v_rayNegEps]
  geo
  simp only [p_ge]
  change rayEps ≤ |rayDet d v0 v1 v2| at hD
  simp only [show (v1 - v0) ⬝ᵥ crossProduct d (v2 - v0) = rayDet d v0 v1 v2 from rfl]
  generalize (o - v0) ⬝ᵥ crossProduct d (v2 - v0) = u at *
  generalize d ⬝ᵥ crossProduct (o - v0) (v1 - v0) = v at *
  generalize (v2 - v0) ⬝ᵥ crossProduct (o - v0) (v1 - v0) = s at *
  generalize rayDet d v0 v1 v2 = D at *
  have key : (0 ≤ u / D ∧ 0 ≤ v / D ∧ u / D + v / D ≤ 1 ∧ 0 ≤ s / D) ↔
      if rayEps ≤ D then ¬ ((((u < 0 ∨ D < u) ∨ v < 0) ∨ D < u + v) ∨ s < 0) else ¬ ((((0 < u ∨ u < D) ∨ 0 < v) ∨ u + v < D) ∨ 0 < s) := by
    split_ifs with h
    · have : 0 < D := by linarith
      rw [← add_div, le_div_iff₀ this, le_div_iff₀ this, le_div_iff₀ this, div_le_iff₀ this]
      push Not
      simp only [zero_mul, one_mul]
      constructor
      · rintro ⟨a, b, e, f⟩; exact ⟨⟨⟨⟨a, by linarith⟩, b⟩, e⟩, f⟩
      · rintro ⟨⟨⟨⟨a, -⟩, b⟩, e⟩, f⟩; exact ⟨a, b, e, f⟩
    · have : D < 0 := by
        rcases abs_cases D with ⟨h1, h2⟩ | ⟨h1, h2⟩
        · rw [h1] at hD; exact absurd hD h
        · exact h2
      rw [← add_div, le_div_iff_of_neg this, le_div_iff_of_neg this, le_div_iff_of_neg this, div_le_iff_of_neg this]
      push Not
      simp only [zero_mul, one_mul]
      constructor
      · rintro ⟨a, b, e, f⟩; exact ⟨⟨⟨⟨a, by linarith⟩, b⟩, e⟩, f⟩
      · rintro ⟨⟨⟨⟨a, -⟩, b⟩, e⟩, f⟩; exact ⟨a, b, e, f⟩
  have hx : (XMVectorDivide (all s) (all D)).x = num (s / D) := by rw [s_div _ _ hD0]; rfl
  have hn : ¬ rayEps ≤ D → D ≤ -rayEps := by
    intro h
    rcases abs_cases D with ⟨h1, h2⟩ | ⟨h1, h2⟩
    · rw [h1] at hD; exact absurd hD h
    · linarith
  rw [hx]
  by_cases hE : rayEps ≤ D
  · rw [if_pos hE] at key ⊢
    by_cases hz : (((u < 0 ∨ D < u) ∨ v < 0) ∨ D < u + v) ∨ s < 0
    · rw [if_pos hz, if_neg (fun h => key.1 h hz)]
    · have k := key.2 hz
      rw [if_neg hz, if_pos k]
      exact ⟨_, rfl, k.2.2.2, ⟨k.1, k.2.1, k.2.2.1, rfl⟩, fun t' h => h.2.2.2⟩
  · rw [if_neg hE] at key ⊢
    rw [if_pos (hn hE)]
    by_cases hz : (((0 < u ∨ u < D) ∨ 0 < v) ∨ u + v < D) ∨ 0 < s
    · rw [if_pos hz, if_neg (fun h => key.1 h hz)]
    · have k := key.2 hz
      rw [if_neg hz, if_pos k]
      exact ⟨_, rfl, k.2.2.2, ⟨k.1, k.2.1, k.2.2.1, rfl⟩, fun t' h => h.2.2.2⟩

/-- Below the threshold (the ray is nearly parallel to the triangle, or the triangle is tiny) every ray is reported to miss. -/
theorem C80_parallel (c : Cfg) (o d v0 v1 v2 : Pt) (w w' w0 w1 w2 : E) (hD : |rayDet d v0 v1 v2| < rayEps) :
    TriangleTests.IntersectsRay c (vec3 o w) (vec3 d w') (vec3 v0 w0) (vec3 v1 w1) (vec3 v2 w2) = (false, num 0) := by
  unfold TriangleTests.IntersectsRay
  simp only [v_rayEps, v_rayNegEps]
  geo
  simp only [p_ge]
  simp only [show (v1 - v0) ⬝ᵥ crossProduct d (v2 - v0) = rayDet d v0 v1 v2 from rfl]
  have := abs_lt.1 hD
  rw [if_neg (by linarith), if_neg (by linarith)]

/-- Soundness for every ray and triangle: a reported hit is a point of both, at the reported parameter. -/
theorem C80_sound (c : Cfg) (o d v0 v1 v2 : Pt) (w w' w0 w1 w2 : E)
    (h : (TriangleTests.IntersectsRay c (vec3 o w) (vec3 d w') (vec3 v0 w0) (vec3 v1 w1) (vec3 v2 w2)).1 = true) :
    ∃ t, 0 ≤ t ∧ TriangleTests.IntersectsRay c (vec3 o w) (vec3 d w') (vec3 v0 w0) (vec3 v1 w1) (vec3 v2 w2) = (true, num t) ∧
      o + t • d ∈ tri v0 v1 v2 := by
  rcases lt_or_ge |rayDet d v0 v1 v2| rayEps with hD | hD
  · rw [C80_parallel c o d v0 v1 v2 w w' w0 w1 w2 hD] at h; cases h
  · have k := C80_ray c o d v0 v1 v2 w w' w0 w1 w2 hD
    split_ifs at k with hz
    · obtain ⟨t, h1, h2, h3, -⟩ := k; exact ⟨t, h2, h1, h3⟩
    · rw [k] at h; cases h

theorem rayDet_ex : rayDet ![0, 0, -1] ![0, 0, 0] ![2, 0, 0] ![0, 2, 0] = 4 := by
  simp [rayDet, cross_apply]; norm_num
theorem rayEps_lt_one : rayEps < 1 := by unfold rayEps; norm_num
example (c : Cfg) : TriangleTests.IntersectsRay c (vec3 ![1/2, 1/2, 3] (num 0)) (vec3 ![0, 0, -1] (num 0)) (vec3 ![0, 0, 0] (num 0)) (vec3 ![2, 0, 0] (num 0))
    (vec3 ![0, 2, 0] (num 0)) = (true, num 3) := by
  have hm : ![1/2, 1/2, 3] + (3:ℝ) • ![0, 0, -1] ∈ tri ![0, 0, 0] ![2, 0, 0] ![0, 2, 0] := by
    refine ⟨1/2, 1/4, 1/4, by norm_num, by norm_num, by norm_num, by norm_num, ?_⟩
    ext i; fin_cases i <;> norm_num
  have k := C80_ray c ![1/2, 1/2, 3] ![0, 0, -1] ![0, 0, 0] ![2, 0, 0] ![0, 2, 0] (num 0) (num 0) (num 0) (num 0) (num 0)
    (by rw [rayDet_ex]; have := rayEps_lt_one; rw [abs_of_pos (by norm_num)]; linarith)
  rw [if_pos ⟨_, ⟨3, by norm_num, rfl⟩, hm⟩] at k
  obtain ⟨t, h1, -, -, h4⟩ := k
  rw [h1, h4 3 hm]
end DXM.Props
