import Verif.Props.Projection
import Verif.Lemmas.Geo3

/-
C90: `BoundingFrustum::CreateFromMatrix` of the perspective matrices.
-/

set_option linter.all false

namespace DXM.Props
open DXM.E DXM.Spec DXM.RG DXM.Geo Matrix

theorem createFrom (c : Cfg) (m0 m1 a0 a1 m2 s m3 : ℝ) (rh : Bool) (h0 : m0 ≠ 0) (h1 : m1 ≠ 0) (h2 : m2 ≠ 0) (hs : s ≠ 0) (h3 : m3 ≠ 0) (h4 : s - m2 ≠ 0) :
    BoundingFrustum.CreateFromMatrix c (mat !![m0, 0, 0, 0; 0, m1, 0, 0; a0, a1, m2, s; 0, 0, m3, 0]) rh =
      frustumOf 0 1 ((s - a0) / m0) ((-s - a0) / m0) ((s - a1) / m1) ((-s - a1) / m1)
        (if rh then m3 / (s - m2) else -m3 / m2) (if rh then -m3 / m2 else m3 / (s - m2)) := by
  have hi : (!![m0, 0, 0, 0; 0, m1, 0, 0; a0, a1, m2, s; 0, 0, m3, 0] : Matrix (Fin 4) (Fin 4) ℝ)⁻¹ =
      !![1 / m0, 0, 0, 0; 0, 1 / m1, 0, 0; 0, 0, 0, 1 / m3; -a0 / (m0 * s), -a1 / (m1 * s), 1 / s, -m2 / (s * m3)] := by
    apply Matrix.inv_eq_right_inv
    ext i j; fin_cases i <;> fin_cases j <;> simp [Matrix.mul_apply, Fin.sum_univ_four] <;> field_simp <;> ring
  have hd : (!![m0, 0, 0, 0; 0, m1, 0, 0; a0, a1, m2, s; 0, 0, m3, 0] : Matrix (Fin 4) (Fin 4) ℝ).det ≠ 0 := by
    rw [det4]; simp [h0, h1, hs, h3]
  unfold BoundingFrustum.CreateFromMatrix
  rw [XMMatrixInverse_mat c _ hd, hi]
  have r1 : 1 / s ≠ 0 := one_div_ne_zero hs
  have r2 : -m2 / (s * m3) ≠ 0 := div_ne_zero (neg_ne_zero.2 h2) (mul_ne_zero hs h3)
  have r3 : 1 / m3 + -m2 / (s * m3) ≠ 0 := by
    have : 1 / m3 + -m2 / (s * m3) = (s - m2) / (s * m3) := by field_simp; ring
    rw [this]; exact div_ne_zero h4 (mul_ne_zero hs h3)
  have rcp : ∀ x : ℝ, x ≠ 0 → XMVectorReciprocal (all x) = (all (1 / x) : V4 E) := fun x hx => by
    simp [XMVectorReciprocal, div_num _ _ hx]
  have sz : ∀ (x y z w : ℝ), XMVectorSplatZ c (⟨num x, num y, num z, num w⟩ : V4 E) = all z := fun x y z w => by simp
  have sw : ∀ (x y z w : ℝ), XMVectorSplatW c (⟨num x, num y, num z, num w⟩ : V4 E) = all w := fun x y z w => by simp
  simp only [mat, vec4, s_c0, s_c1, show (Lane.cNeg1 : E) = num (-1) by simp, XMVector4Transform_num, sz, sw]
  simp [-one_div, rcp, XMVectorMultiply, frustumOf, f3]
  simp only [div_num _ _ r1, div_num _ _ r2, div_num _ _ r3, mul_num]
  have r4 : 1 / m3 + -m2 / (s * m3) = (s - m2) / (s * m3) := by field_simp; ring
  refine ⟨⟨rfl, rfl, rfl, rfl⟩, ?_, ?_, ?_, ?_, ?_, ?_⟩
  · congr 1; field_simp; ring
  · congr 1; field_simp; ring
  · congr 1; field_simp; ring
  · congr 1; field_simp; ring
  · rw [r4]; cases rh <;> simp only [if_true, if_false, Bool.false_eq_true] <;> congr 1 <;> field_simp
  · rw [r4]; cases rh <;> simp only [if_true, if_false, Bool.false_eq_true] <;> congr 1 <;> field_simp

/-- The left-handed off-center projection: slopes and depths are recovered. -/
theorem C90_fromOffCenterLH (c : Cfg) (l r b t n f : ℝ) (hl : l < r) (hb : b < t) (hn : 0 < n) (hf : n < f) :
    BoundingFrustum.CreateFromMatrix c (XMMatrixPerspectiveOffCenterLH c (num l) (num r) (num b) (num t) (num n) (num f)) false =
      frustumOf 0 1 (r / n) (l / n) (t / n) (b / n) n f := by
  have d1 : r - l ≠ 0 := by linarith
  have d2 : t - b ≠ 0 := by linarith
  have d3 : f - n ≠ 0 := by linarith
  have d4 : n ≠ 0 := hn.ne'
  have d5 : f ≠ 0 := by linarith
  have d6 : 1 - f / (f - n) = -n / (f - n) := by field_simp; ring
  rw [offLH c l r b t n f d1 d2 d3, createFrom c _ _ _ _ _ _ _ _ (by positivity) (by positivity) (by positivity) one_ne_zero]
  · simp only [Bool.false_eq_true, if_false]
    rw [d6]
    congr 1 <;> field_simp <;> ring
  · exact mul_ne_zero (neg_ne_zero.2 (div_ne_zero d5 d3)) d4
  · rw [d6]; exact div_ne_zero (neg_ne_zero.2 d4) d3
/-- The right-handed one: the frustum lies at negative z, with slopes relative to z. -/
theorem C90_fromOffCenterRH (c : Cfg) (l r b t n f : ℝ) (hl : l < r) (hb : b < t) (hn : 0 < n) (hf : n < f) :
    BoundingFrustum.CreateFromMatrix c (XMMatrixPerspectiveOffCenterRH c (num l) (num r) (num b) (num t) (num n) (num f)) true =
      frustumOf 0 1 (-(r / n)) (-(l / n)) (-(t / n)) (-(b / n)) (-f) (-n) := by
  have d1 : r - l ≠ 0 := by linarith
  have d2 : t - b ≠ 0 := by linarith
  have d3 : n - f ≠ 0 := by linarith
  have d4 : n ≠ 0 := hn.ne'
  have d5 : f ≠ 0 := by linarith
  have d6 : -1 - f / (n - f) = -n / (n - f) := by field_simp; ring
  rw [offRH c l r b t n f d1 d2 d3, createFrom c _ _ _ _ _ _ _ _ (by positivity) (by positivity) (by positivity) (by norm_num)]
  · simp only [if_true]
    rw [d6]
    congr 1 <;> field_simp <;> ring
  · exact mul_ne_zero (div_ne_zero d5 d3) d4
  · rw [d6]; exact div_ne_zero (neg_ne_zero.2 d4) d3
/-- Symmetric projections. -/
theorem C90_fromPerspectiveLH (c : Cfg) (w h n f : ℝ) (hw : 0 < w) (hh : 0 < h) (hn : 0 < n) (hf : n < f) :
    BoundingFrustum.CreateFromMatrix c (XMMatrixPerspectiveLH c (num w) (num h) (num n) (num f)) false =
      frustumOf 0 1 (w / (2 * n)) (-(w / (2 * n))) (h / (2 * n)) (-(h / (2 * n))) n f := by
  have d3 : f - n ≠ 0 := by linarith
  have d4 : n ≠ 0 := hn.ne'
  have d5 : f ≠ 0 := by linarith
  have d6 : 1 - f / (f - n) = -n / (f - n) := by field_simp; ring
  rw [perspLH c w h n f hw.ne' hh.ne' d3, createFrom c _ _ _ _ _ _ _ _ (by positivity) (by positivity) (by positivity) one_ne_zero]
  · simp only [Bool.false_eq_true, if_false]
    rw [d6]
    congr 1 <;> field_simp <;> ring
  · exact mul_ne_zero (neg_ne_zero.2 (div_ne_zero d5 d3)) d4
  · rw [d6]; exact div_ne_zero (neg_ne_zero.2 d4) d3
theorem C90_fromPerspectiveRH (c : Cfg) (w h n f : ℝ) (hw : 0 < w) (hh : 0 < h) (hn : 0 < n) (hf : n < f) :
    BoundingFrustum.CreateFromMatrix c (XMMatrixPerspectiveRH c (num w) (num h) (num n) (num f)) true =
      frustumOf 0 1 (-(w / (2 * n))) (w / (2 * n)) (-(h / (2 * n))) (h / (2 * n)) (-f) (-n) := by
  have d3 : n - f ≠ 0 := by linarith
  have d4 : n ≠ 0 := hn.ne'
  have d5 : f ≠ 0 := by linarith
  have d6 : -1 - f / (n - f) = -n / (n - f) := by field_simp; ring
  rw [perspRH c w h n f hw.ne' hh.ne' d3, createFrom c _ _ _ _ _ _ _ _ (by positivity) (by positivity) (by positivity) (by norm_num)]
  · simp only [if_true]
    rw [d6]
    congr 1 <;> field_simp <;> ring
  · exact mul_ne_zero (div_ne_zero d5 d3) d4
  · rw [d6]; exact div_ne_zero (neg_ne_zero.2 d4) d3

/-- The recovered frustum is the part of space that the projection maps into the clip volume -1 ≤ x, y ≤ 1, 0 ≤ z ≤ 1. -/
theorem C90_clipLH (c : Cfg) (l r b t n f : ℝ) (x : Pt) (w : E) (hl : l < r) (hb : b < t) (hn : 0 < n) (hf : n < f) (hz : 0 < x 2) :
    ∃ p, Is3 (XMVector3TransformCoord c (vec3 x w) (XMMatrixPerspectiveOffCenterLH c (num l) (num r) (num b) (num t) (num n) (num f))) p ∧
      (x ∈ frustum0 (r / n) (l / n) (t / n) (b / n) n f ↔ |p 0| ≤ 1 ∧ |p 1| ≤ 1 ∧ 0 ≤ p 2 ∧ p 2 ≤ 1) := by
  have d1 : 0 < r - l := by linarith
  have d2 : 0 < t - b := by linarith
  have d3 : 0 < f - n := by linarith
  have d5 : 0 < f := by linarith
  refine ⟨_, by rw [offLH c l r b t n f d1.ne' d2.ne' d3.ne']; exact coordPersp c x w _ _ _ _ _ _ _ (by simpa using hz.ne'), ?_⟩
  have e0 : (x 0 * (2 * n / (r - l)) + x 2 * (-(l + r) / (r - l))) / (x 2 * 1) = (2 * n * x 0 - (l + r) * x 2) / ((r - l) * x 2) := by
    field_simp; try ring
  have e1 : (x 1 * (2 * n / (t - b)) + x 2 * (-(t + b) / (t - b))) / (x 2 * 1) = (2 * n * x 1 - (t + b) * x 2) / ((t - b) * x 2) := by
    field_simp; try ring
  have e2 : (x 2 * (f / (f - n)) + -(f / (f - n)) * n) / (x 2 * 1) = (f * (x 2 - n)) / ((f - n) * x 2) := by
    field_simp; try ring
  have q1 : 0 < (r - l) * x 2 := mul_pos d1 hz
  have q2 : 0 < (t - b) * x 2 := mul_pos d2 hz
  have q3 : 0 < (f - n) * x 2 := mul_pos d3 hz
  simp only [Matrix.cons_val_zero, Matrix.cons_val_one, Matrix.cons_val, e0, e1, e2, abs_div, abs_of_pos q1, abs_of_pos q2, div_le_one q1, div_le_one q2,
    div_le_one q3, le_div_iff₀ q3, zero_mul, abs_le, frustum0, Set.mem_setOf_eq, div_mul_eq_mul_div, div_le_iff₀ hn, le_div_iff₀ hn]
  constructor
  · rintro ⟨g1, g2, g3, g4, g5, g6⟩
    refine ⟨⟨by linarith, by linarith⟩, ⟨by linarith, by linarith⟩, mul_nonneg d5.le (by linarith), ?_⟩
    nlinarith
  · rintro ⟨⟨g1, g2⟩, ⟨g3, g4⟩, g5, g6⟩
    have : n ≤ x 2 := by have := nonneg_of_mul_nonneg_right g5 d5; linarith
    refine ⟨this, ?_, by linarith, by linarith, by linarith, by linarith⟩
    nlinarith
theorem C90_clipRH (c : Cfg) (l r b t n f : ℝ) (x : Pt) (w : E) (hl : l < r) (hb : b < t) (hn : 0 < n) (hf : n < f) (hz : x 2 < 0) :
    ∃ p, Is3 (XMVector3TransformCoord c (vec3 x w) (XMMatrixPerspectiveOffCenterRH c (num l) (num r) (num b) (num t) (num n) (num f))) p ∧
      (x ∈ frustum0 (-(r / n)) (-(l / n)) (-(t / n)) (-(b / n)) (-f) (-n) ↔ |p 0| ≤ 1 ∧ |p 1| ≤ 1 ∧ 0 ≤ p 2 ∧ p 2 ≤ 1) := by
  have d1 : 0 < r - l := by linarith
  have d2 : 0 < t - b := by linarith
  have d3 : 0 < f - n := by linarith
  have d5 : 0 < f := by linarith
  have d4 : n - f ≠ 0 := by linarith
  have hy : 0 < -x 2 := by linarith
  refine ⟨_, by rw [offRH c l r b t n f d1.ne' d2.ne' d4]; exact coordPersp c x w _ _ _ _ _ _ _ (by simpa using hz.ne), ?_⟩
  have e0 : (x 0 * (2 * n / (r - l)) + x 2 * ((l + r) / (r - l))) / (x 2 * -1) = (2 * n * x 0 - (l + r) * -x 2) / ((r - l) * -x 2) := by
    rw [div_eq_div_iff (by linarith) (mul_pos d1 hy).ne']; field_simp; try ring
  have e1 : (x 1 * (2 * n / (t - b)) + x 2 * ((t + b) / (t - b))) / (x 2 * -1) = (2 * n * x 1 - (t + b) * -x 2) / ((t - b) * -x 2) := by
    rw [div_eq_div_iff (by linarith) (mul_pos d2 hy).ne']; field_simp; try ring
  have e2 : (x 2 * (f / (n - f)) + f / (n - f) * n) / (x 2 * -1) = (f * (-x 2 - n)) / ((f - n) * -x 2) := by
    rw [div_eq_div_iff (by linarith) (mul_pos d3 hy).ne']; field_simp; try ring
  have q1 : 0 < (r - l) * -x 2 := mul_pos d1 hy
  have q2 : 0 < (t - b) * -x 2 := mul_pos d2 hy
  have q3 : 0 < (f - n) * -x 2 := mul_pos d3 hy
  have m1 : ∀ a y : ℝ, -(a / n) * x 2 ≤ y ↔ a * -x 2 ≤ y * n := fun a y => by
    rw [← div_le_iff₀ hn]; constructor <;> intro h <;> [rw [mul_div_right_comm]; rw [mul_div_right_comm] at h] <;> linarith
  have m2 : ∀ a y : ℝ, y ≤ -(a / n) * x 2 ↔ y * n ≤ a * -x 2 := fun a y => by
    rw [← le_div_iff₀ hn]; constructor <;> intro h <;> [rw [mul_div_right_comm]; rw [mul_div_right_comm] at h] <;> linarith
  simp only [Matrix.cons_val_zero, Matrix.cons_val_one, Matrix.cons_val, e0, e1, e2, abs_div, abs_of_pos q1, abs_of_pos q2, div_le_one q1, div_le_one q2,
    div_le_one q3, le_div_iff₀ q3, zero_mul, abs_le, frustum0, Set.mem_setOf_eq, m1, m2]
  constructor
  · rintro ⟨g1, g2, g3, g4, g5, g6⟩
    refine ⟨⟨by linarith, by linarith⟩, ⟨by linarith, by linarith⟩, mul_nonneg d5.le (by linarith), ?_⟩
    nlinarith
  · rintro ⟨⟨g1, g2⟩, ⟨g3, g4⟩, g5, g6⟩
    have : n ≤ -x 2 := by have := nonneg_of_mul_nonneg_right g5 d5; linarith
    refine ⟨?_, by linarith, by linarith, by linarith, by linarith, by linarith⟩
    nlinarith
example (c : Cfg) : BoundingFrustum.CreateFromMatrix c (XMMatrixPerspectiveOffCenterLH c (num (-1)) (num 1) (num (-2)) (num 2) (num 1) (num 10)) false =
    frustumOf 0 1 1 (-1) 2 (-2) 1 10 := by
  rw [C90_fromOffCenterLH c _ _ _ _ _ _ (by norm_num) (by norm_num) (by norm_num) (by norm_num)]; norm_num
example : ValidFrustum 1 (-1) 2 (-2) 1 10 ∧ ValidFrustum (-1) 1 (-2) 2 (-10) (-1) := by norm_num [ValidFrustum]
end DXM.Props
