import Verif.Lemmas.Affine
import Verif.Props.Rotation
import Verif.Model.Space
import Mathlib.Analysis.SpecialFunctions.Trigonometric.Bounds

/-
C51: projection matrices; C37: project and unproject.  Exact-real lanes, every build.
-/

set_option linter.all false

namespace DXM.Props
open DXM.E DXM.Spec Matrix Real

/-- The clip volume after the homogeneous divide. -/
def inClip (p : Fin 3 → ℝ) : Prop := -1 ≤ p 0 ∧ p 0 ≤ 1 ∧ -1 ≤ p 1 ∧ p 1 ≤ 1 ∧ 0 ≤ p 2 ∧ p 2 ≤ 1
/-- The frustum with apex at the origin looking along +Z: between the two planes, and inside the pyramid over the rectangle
[l, r] x [b, t] of the near plane. -/
def inFrustum (l r b t n f : ℝ) (x : Fin 3 → ℝ) : Prop :=
  x 2 ∈ Set.uIcc n f ∧ l * x 2 ≤ x 0 * n ∧ x 0 * n ≤ r * x 2 ∧ b * x 2 ≤ x 1 * n ∧ x 1 * n ≤ t * x 2
/-- `p` is the clip-space image of `x`: inside exactly when `x` is inside, and faces go to faces. -/
def FrustumImage (l r b t n f : ℝ) (x p : Fin 3 → ℝ) : Prop :=
  (inClip p ↔ inFrustum l r b t n f x) ∧
  (p 0 = -1 ↔ x 0 * n = l * x 2) ∧ (p 0 = 1 ↔ x 0 * n = r * x 2) ∧ (p 1 = -1 ↔ x 1 * n = b * x 2) ∧ (p 1 = 1 ↔ x 1 * n = t * x 2) ∧
  (p 2 = 0 ↔ x 2 = n) ∧ (p 2 = 1 ↔ x 2 = f)

theorem dnn (a b : ℝ) (h : 0 < b) : 0 ≤ a / b ↔ 0 ≤ a := by rw [le_div_iff₀ h, zero_mul]
theorem persp_core (l r b t n f : ℝ) (x : Fin 3 → ℝ) (hl : l < r) (hb : b < t) (hn : 0 < n) (hf : 0 < f) (hnf : n ≠ f) (hz : 0 < x 2) :
    FrustumImage l r b t n f x ![(2 * n * x 0 - (l + r) * x 2) / ((r - l) * x 2), (2 * n * x 1 - (t + b) * x 2) / ((t - b) * x 2),
      f * (x 2 - n) / ((f - n) * x 2)] := by
  have D0 : 0 < (r - l) * x 2 := mul_pos (by linarith) hz
  have D1 : 0 < (t - b) * x 2 := mul_pos (by linarith) hz
  have hfn : f - n ≠ 0 := sub_ne_zero.2 hnf.symm
  have D2 : (f - n) * x 2 ≠ 0 := mul_ne_zero hfn hz.ne'
  unfold FrustumImage inClip inFrustum
  simp only [Matrix.cons_val]
  have a0 : -1 ≤ (2 * n * x 0 - (l + r) * x 2) / ((r - l) * x 2) ↔ l * x 2 ≤ x 0 * n := by
    rw [le_div_iff₀ D0]; constructor <;> intro h <;> linarith
  have a1 : (2 * n * x 0 - (l + r) * x 2) / ((r - l) * x 2) ≤ 1 ↔ x 0 * n ≤ r * x 2 := by
    rw [div_le_iff₀ D0]; constructor <;> intro h <;> linarith
  have a2 : -1 ≤ (2 * n * x 1 - (t + b) * x 2) / ((t - b) * x 2) ↔ b * x 2 ≤ x 1 * n := by
    rw [le_div_iff₀ D1]; constructor <;> intro h <;> linarith
  have a3 : (2 * n * x 1 - (t + b) * x 2) / ((t - b) * x 2) ≤ 1 ↔ x 1 * n ≤ t * x 2 := by
    rw [div_le_iff₀ D1]; constructor <;> intro h <;> linarith
  have a4 : 0 ≤ f * (x 2 - n) / ((f - n) * x 2) ∧ f * (x 2 - n) / ((f - n) * x 2) ≤ 1 ↔ x 2 ∈ Set.uIcc n f := by
    have e1 : f * (x 2 - n) / ((f - n) * x 2) = f / x 2 * ((x 2 - n) / (f - n)) := by field_simp
    have e2 : 1 - f * (x 2 - n) / ((f - n) * x 2) = n / x 2 * ((f - x 2) / (f - n)) := by field_simp; ring
    have p1 : 0 < f / x 2 := div_pos hf hz
    have p2 : 0 < n / x 2 := div_pos hn hz
    rw [← sub_nonneg (b := f * (x 2 - n) / ((f - n) * x 2)), e2, e1, mul_nonneg_iff_of_pos_left p1, mul_nonneg_iff_of_pos_left p2]
    rcases lt_or_gt_of_ne hnf with h | h
    · rw [Set.uIcc_of_le h.le, Set.mem_Icc, dnn _ _ (sub_pos.2 h), dnn _ _ (sub_pos.2 h), sub_nonneg, sub_nonneg]
    · rw [Set.uIcc_of_ge h.le, Set.mem_Icc, ← neg_div_neg_eq, ← neg_div_neg_eq (f - x 2), dnn _ _ (by linarith), dnn _ _ (by linarith)]
      constructor <;> rintro ⟨h1, h2⟩ <;> constructor <;> linarith
  refine ⟨?_, ?_, ?_, ?_, ?_, ?_, ?_⟩
  · rw [← a4, a0, a1, a2, a3]; tauto
  · rw [div_eq_iff D0.ne']; constructor <;> intro h <;> linarith
  · rw [div_eq_iff D0.ne']; constructor <;> intro h <;> linarith
  · rw [div_eq_iff D1.ne']; constructor <;> intro h <;> linarith
  · rw [div_eq_iff D1.ne']; constructor <;> intro h <;> linarith
  · rw [div_eq_zero_iff, or_iff_left D2, mul_eq_zero, or_iff_right hf.ne', sub_eq_zero]
  · rw [div_eq_one_iff_eq D2]
    constructor
    · intro h; exact mul_left_cancel₀ hn.ne' (by linarith)
    · intro h; rw [h]; ring
theorem coordPersp (c : Cfg) (x : Fin 3 → ℝ) (w : E) (m0 m1 a0 a1 m2 s m3 : ℝ) (h : x 2 * s ≠ 0) :
    Is3 (XMVector3TransformCoord c (vec3 x w) (mat !![m0, 0, 0, 0; 0, m1, 0, 0; a0, a1, m2, s; 0, 0, m3, 0]))
      ![(x 0 * m0 + x 2 * a0) / (x 2 * s), (x 1 * m1 + x 2 * a1) / (x 2 * s), (x 2 * m2 + m3) / (x 2 * s)] := by
  refine (is3_iff _ _).2 ?_
  simp only [vec3, mat, vec4]
  rw [XMVector3TransformCoord_num _ _ _ _ _ _ _ _ _ _ _ _ _ _ _ _ _ _ _ _ _ (by simpa using h)]
  simp

theorem fov_sincos (a : ℝ) (ha : 1/1000 ≤ a) (ha' : a ≤ 3.14) :
    ∃ s k, 0 < s ∧ 0 < k ∧ XMScalarSinCos (num (1/2 * a)) = (num s, num k) ∧ |s - sin (a/2)| ≤ 4/10^7 ∧ |k - cos (a/2)| ≤ 4/10^7 := by
  have e : (1:ℝ)/2 * a = a/2 := by ring
  have h0 : |a/2| ≤ 2 := by rw [abs_le]; constructor <;> linarith
  obtain ⟨s, k, -, -, h, h1, h2⟩ := C66_sincos (1/2 * a) (by rw [e]; linarith)
  rw [e] at h1 h2
  have ht : 3/10^7 + 29/10^9 * |a/2| ≤ 4/10^7 := by linarith
  have b1 := h1.trans ht
  have b2 := h2.trans ht
  have hpi := Real.pi_gt_d6
  have hpi' := Real.pi_lt_d6
  have s1 : 2 / π * (a/2) ≤ sin (a/2) := Real.mul_le_sin (by linarith) (by linarith)
  have c1 : 2 / π * (π/2 - a/2) ≤ cos (a/2) := by
    rw [← Real.sin_pi_div_two_sub]
    exact Real.mul_le_sin (by linarith) (by linarith)
  have hq : (1:ℝ)/2 ≤ 2/π := by rw [le_div_iff₀ Real.pi_pos]; linarith
  have s2 : 1/4000 ≤ sin (a/2) := le_trans (by nlinarith) s1
  have c2 : 1/4000 ≤ cos (a/2) := le_trans (by nlinarith) c1
  rw [abs_le] at b1 b2
  refine ⟨s, k, by linarith [b1.1], by linarith [b2.1], h, abs_le.2 b1, abs_le.2 b2⟩
theorem offLH (c : Cfg) (l r b t n f : ℝ) (hl : r - l ≠ 0) (hb : t - b ≠ 0) (hf : f - n ≠ 0) :
    XMMatrixPerspectiveOffCenterLH c (num l) (num r) (num b) (num t) (num n) (num f) =
      mat !![2 * n / (r - l), 0, 0, 0; 0, 2 * n / (t - b), 0, 0; -(l + r) / (r - l), -(t + b) / (t - b), f / (f - n), 1; 0, 0, -(f / (f - n)) * n, 0] := by
  unfold XMMatrixPerspectiveOffCenterLH
  split_ifs <;> simp [div_num, hl, hb, hf] <;> (repeat' apply And.intro) <;> ring
theorem offRH (c : Cfg) (l r b t n f : ℝ) (hl : r - l ≠ 0) (hb : t - b ≠ 0) (hf : n - f ≠ 0) :
    XMMatrixPerspectiveOffCenterRH c (num l) (num r) (num b) (num t) (num n) (num f) =
      mat !![2 * n / (r - l), 0, 0, 0; 0, 2 * n / (t - b), 0, 0; (l + r) / (r - l), (t + b) / (t - b), f / (n - f), -1; 0, 0, f / (n - f) * n, 0] := by
  unfold XMMatrixPerspectiveOffCenterRH
  split_ifs <;> simp [div_num, hl, hb, hf] <;> (repeat' apply And.intro) <;> ring
theorem perspLH (c : Cfg) (w h n f : ℝ) (hw : w ≠ 0) (hh : h ≠ 0) (hf : f - n ≠ 0) :
    XMMatrixPerspectiveLH c (num w) (num h) (num n) (num f) =
      mat !![2 * n / w, 0, 0, 0; 0, 2 * n / h, 0, 0; 0, 0, f / (f - n), 1; 0, 0, -(f / (f - n)) * n, 0] := by
  unfold XMMatrixPerspectiveLH perspTail
  split_ifs <;> simp [div_num, hw, hh, hf] <;> (repeat' apply And.intro) <;> ring
theorem perspRH (c : Cfg) (w h n f : ℝ) (hw : w ≠ 0) (hh : h ≠ 0) (hf : n - f ≠ 0) :
    XMMatrixPerspectiveRH c (num w) (num h) (num n) (num f) =
      mat !![2 * n / w, 0, 0, 0; 0, 2 * n / h, 0, 0; 0, 0, f / (n - f), -1; 0, 0, f / (n - f) * n, 0] := by
  unfold XMMatrixPerspectiveRH perspTail
  split_ifs <;> simp [div_num, hw, hh, hf] <;> (repeat' apply And.intro) <;> ring
theorem fovLH (c : Cfg) (a r n f s k : ℝ) (h : XMScalarSinCos (num (1/2 * a)) = (num s, num k)) (hs : s ≠ 0) (hr : r ≠ 0) (hf : f - n ≠ 0) :
    XMMatrixPerspectiveFovLH c (num a) (num r) (num n) (num f) =
      mat !![k / s / r, 0, 0, 0; 0, k / s, 0, 0; 0, 0, f / (f - n), 1; 0, 0, -(f / (f - n)) * n, 0] := by
  rw [one_div] at h
  unfold XMMatrixPerspectiveFovLH perspTail
  split_ifs <;> simp [h, div_num, hs, hr, hf]
theorem fovRH (c : Cfg) (a r n f s k : ℝ) (h : XMScalarSinCos (num (1/2 * a)) = (num s, num k)) (hs : s ≠ 0) (hr : r ≠ 0) (hf : n - f ≠ 0) :
    XMMatrixPerspectiveFovRH c (num a) (num r) (num n) (num f) =
      mat !![k / s / r, 0, 0, 0; 0, k / s, 0, 0; 0, 0, f / (n - f), -1; 0, 0, f / (n - f) * n, 0] := by
  rw [one_div] at h
  unfold XMMatrixPerspectiveFovRH perspTail
  split_ifs <;> simp [h, div_num, hs, hr, hf]

/-- The mirror image in the XY plane: right-handed volumes look along -Z. -/
def flipZ (x : Fin 3 → ℝ) : Fin 3 → ℝ := ![x 0, x 1, -x 2]

theorem C51_offCenterLH (c : Cfg) (l r b t n f : ℝ) (x : Fin 3 → ℝ) (w : E) (hl : l < r) (hb : b < t) (hn : 0 < n) (hf : 0 < f) (hnf : n ≠ f)
    (hz : 0 < x 2) :
    ∃ p, Is3 (XMVector3TransformCoord c (vec3 x w) (XMMatrixPerspectiveOffCenterLH c (num l) (num r) (num b) (num t) (num n) (num f))) p ∧
      FrustumImage l r b t n f x p := by
  have h0 : r - l ≠ 0 := by linarith
  have h1 : t - b ≠ 0 := by linarith
  have h2 : f - n ≠ 0 := sub_ne_zero.2 hnf.symm
  refine ⟨_, ?_, persp_core l r b t n f x hl hb hn hf hnf hz⟩
  rw [offLH c l r b t n f h0 h1 h2]
  convert coordPersp c x w _ _ _ _ _ _ _ _ using 1
  · ext i; fin_cases i <;> simp <;> field_simp <;> ring
  · linarith
theorem C51_offCenterRH (c : Cfg) (l r b t n f : ℝ) (x : Fin 3 → ℝ) (w : E) (hl : l < r) (hb : b < t) (hn : 0 < n) (hf : 0 < f) (hnf : n ≠ f)
    (hz : x 2 < 0) :
    ∃ p, Is3 (XMVector3TransformCoord c (vec3 x w) (XMMatrixPerspectiveOffCenterRH c (num l) (num r) (num b) (num t) (num n) (num f))) p ∧
      FrustumImage l r b t n f (flipZ x) p := by
  have h0 : r - l ≠ 0 := by linarith
  have h1 : t - b ≠ 0 := by linarith
  have h2 : f - n ≠ 0 := sub_ne_zero.2 hnf.symm
  have h3 : n - f ≠ 0 := sub_ne_zero.2 hnf
  have hz' : x 2 ≠ 0 := hz.ne
  refine ⟨_, ?_, persp_core l r b t n f (flipZ x) hl hb hn hf hnf (by simpa [flipZ] using hz)⟩
  rw [offRH c l r b t n f h0 h1 h3]
  convert coordPersp c x w _ _ _ _ _ _ _ _ using 1
  · have e : f - n = -(n - f) := by ring
    ext i; fin_cases i <;> simp [flipZ] <;> [skip; skip; rw [e]] <;> field_simp <;> ring
  · simpa using hz'
theorem C51_perspLH (c : Cfg) (vw vh n f : ℝ) (x : Fin 3 → ℝ) (w : E) (hw : 0 < vw) (hh : 0 < vh) (hn : 0 < n) (hf : 0 < f) (hnf : n ≠ f)
    (hz : 0 < x 2) :
    ∃ p, Is3 (XMVector3TransformCoord c (vec3 x w) (XMMatrixPerspectiveLH c (num vw) (num vh) (num n) (num f))) p ∧
      FrustumImage (-(vw/2)) (vw/2) (-(vh/2)) (vh/2) n f x p := by
  have h2 : f - n ≠ 0 := sub_ne_zero.2 hnf.symm
  have h3 : n - f ≠ 0 := sub_ne_zero.2 hnf
  have hz' : x 2 ≠ 0 := hz.ne'
  refine ⟨_, ?_, persp_core (-(vw/2)) (vw/2) (-(vh/2)) (vh/2) n f x (by linarith) (by linarith) hn hf hnf hz⟩
  rw [perspLH c vw vh n f hw.ne' hh.ne' h2]
  convert coordPersp c x w _ _ _ _ _ _ _ _ using 1
  · have e : f - n = -(n - f) := by ring
    ext i; fin_cases i <;> simp [flipZ] <;> [skip; skip; skip] <;> field_simp <;> ring
  · simpa using hz'
/-- Field of view `a` (vertical) and aspect ratio `r`: half-height `n s/k`, half-width `r n s/k` on the near plane, where `s`, `k` are the
computed sine and cosine of `a/2`. -/
theorem C51_fovLH (c : Cfg) (a r n f : ℝ) (x : Fin 3 → ℝ) (w : E) (ha : 1/1000 ≤ a) (ha' : a ≤ 3.14) (hr : 0 < r) (hn : 0 < n) (hf : 0 < f) (hnf : n ≠ f)
    (hz : 0 < x 2) :
    ∃ s k, 0 < s ∧ 0 < k ∧ |s - sin (a/2)| ≤ 4/10^7 ∧ |k - cos (a/2)| ≤ 4/10^7 ∧
    ∃ p, Is3 (XMVector3TransformCoord c (vec3 x w) (XMMatrixPerspectiveFovLH c (num a) (num r) (num n) (num f))) p ∧
      FrustumImage (-(r * n * s / k)) (r * n * s / k) (-(n * s / k)) (n * s / k) n f x p := by
  obtain ⟨s, k, hs, hk, h, h1', h2'⟩ := fov_sincos a ha ha'
  refine ⟨s, k, hs, hk, h1', h2', ?_⟩
  have h2 : f - n ≠ 0 := sub_ne_zero.2 hnf.symm
  have h3 : n - f ≠ 0 := sub_ne_zero.2 hnf
  have hz' : x 2 ≠ 0 := hz.ne'
  have q1 : 0 < r * n * s / k := by positivity
  have q2 : 0 < n * s / k := by positivity
  refine ⟨_, ?_, persp_core (-(r * n * s / k)) (r * n * s / k) (-(n * s / k)) (n * s / k) n f x (by linarith) (by linarith) hn hf hnf hz⟩
  rw [fovLH c a r n f s k h hs.ne' hr.ne' h2]
  convert coordPersp c x w _ _ _ _ _ _ _ _ using 1
  · have e : f - n = -(n - f) := by ring
    ext i; fin_cases i <;> simp [flipZ] <;> [skip; skip; skip] <;> field_simp <;> ring
  · simpa using hz'
theorem C51_perspRH (c : Cfg) (vw vh n f : ℝ) (x : Fin 3 → ℝ) (w : E) (hw : 0 < vw) (hh : 0 < vh) (hn : 0 < n) (hf : 0 < f) (hnf : n ≠ f)
    (hz : x 2 < 0) :
    ∃ p, Is3 (XMVector3TransformCoord c (vec3 x w) (XMMatrixPerspectiveRH c (num vw) (num vh) (num n) (num f))) p ∧
      FrustumImage (-(vw/2)) (vw/2) (-(vh/2)) (vh/2) n f (flipZ x) p := by
  have h2 : f - n ≠ 0 := sub_ne_zero.2 hnf.symm
  have h3 : n - f ≠ 0 := sub_ne_zero.2 hnf
  have hz' : x 2 ≠ 0 := hz.ne
  refine ⟨_, ?_, persp_core (-(vw/2)) (vw/2) (-(vh/2)) (vh/2) n f (flipZ x) (by linarith) (by linarith) hn hf hnf (by simpa [flipZ] using hz)⟩
  rw [perspRH c vw vh n f hw.ne' hh.ne' h3]
  convert coordPersp c x w _ _ _ _ _ _ _ _ using 1
  · have e : f - n = -(n - f) := by ring
    ext i; fin_cases i <;> simp [flipZ] <;> [skip; skip; rw [e]] <;> field_simp <;> ring
  · simpa using hz'
/-- Field of view `a` (vertical) and aspect ratio `r`: half-height `n s/k`, half-width `r n s/k` on the near plane, where `s`, `k` are the
computed sine and cosine of `a/2`. -/
theorem C51_fovRH (c : Cfg) (a r n f : ℝ) (x : Fin 3 → ℝ) (w : E) (ha : 1/1000 ≤ a) (ha' : a ≤ 3.14) (hr : 0 < r) (hn : 0 < n) (hf : 0 < f) (hnf : n ≠ f)
    (hz : x 2 < 0) :
    ∃ s k, 0 < s ∧ 0 < k ∧ |s - sin (a/2)| ≤ 4/10^7 ∧ |k - cos (a/2)| ≤ 4/10^7 ∧
    ∃ p, Is3 (XMVector3TransformCoord c (vec3 x w) (XMMatrixPerspectiveFovRH c (num a) (num r) (num n) (num f))) p ∧
      FrustumImage (-(r * n * s / k)) (r * n * s / k) (-(n * s / k)) (n * s / k) n f (flipZ x) p := by
  obtain ⟨s, k, hs, hk, h, h1', h2'⟩ := fov_sincos a ha ha'
  refine ⟨s, k, hs, hk, h1', h2', ?_⟩
  have h2 : f - n ≠ 0 := sub_ne_zero.2 hnf.symm
  have h3 : n - f ≠ 0 := sub_ne_zero.2 hnf
  have hz' : x 2 ≠ 0 := hz.ne
  have q1 : 0 < r * n * s / k := by positivity
  have q2 : 0 < n * s / k := by positivity
  refine ⟨_, ?_, persp_core (-(r * n * s / k)) (r * n * s / k) (-(n * s / k)) (n * s / k) n f (flipZ x) (by linarith) (by linarith) hn hf hnf (by simpa [flipZ] using hz)⟩
  rw [fovRH c a r n f s k h hs.ne' hr.ne' h3]
  convert coordPersp c x w _ _ _ _ _ _ _ _ using 1
  · have e : f - n = -(n - f) := by ring
    ext i; fin_cases i <;> simp [flipZ] <;> [skip; skip; rw [e]] <;> field_simp <;> ring
  · simpa using hz'

/-- The box of an orthographic view. -/
def inBox (vw vh n f : ℝ) (x : Fin 3 → ℝ) : Prop := |x 0| ≤ vw / 2 ∧ |x 1| ≤ vh / 2 ∧ x 2 ∈ Set.uIcc n f
def BoxImage (vw vh n f : ℝ) (x p : Fin 3 → ℝ) : Prop :=
  (inClip p ↔ inBox vw vh n f x) ∧ p 0 = x 0 / (vw / 2) ∧ p 1 = x 1 / (vh / 2) ∧ (p 2 = 0 ↔ x 2 = n) ∧ (p 2 = 1 ↔ x 2 = f)
theorem ortho_core (vw vh n f : ℝ) (x : Fin 3 → ℝ) (hw : 0 < vw) (hh : 0 < vh) (hnf : n ≠ f) :
    BoxImage vw vh n f x ![x 0 / (vw / 2), x 1 / (vh / 2), (x 2 - n) / (f - n)] := by
  have hfn : f - n ≠ 0 := sub_ne_zero.2 hnf.symm
  unfold BoxImage inClip inBox
  simp only [Matrix.cons_val]
  have h1 : 0 < vw / 2 := by linarith
  have h2 : 0 < vh / 2 := by linarith
  have a4 : 0 ≤ (x 2 - n) / (f - n) ∧ (x 2 - n) / (f - n) ≤ 1 ↔ x 2 ∈ Set.uIcc n f := by
    have e2 : 1 - (x 2 - n) / (f - n) = (f - x 2) / (f - n) := by field_simp; ring
    rw [← sub_nonneg (b := (x 2 - n) / (f - n)), e2]
    rcases lt_or_gt_of_ne hnf with h | h
    · rw [Set.uIcc_of_le h.le, Set.mem_Icc, dnn _ _ (sub_pos.2 h), dnn _ _ (sub_pos.2 h), sub_nonneg, sub_nonneg]
    · rw [Set.uIcc_of_ge h.le, Set.mem_Icc, ← neg_div_neg_eq, ← neg_div_neg_eq (f - x 2), dnn _ _ (by linarith), dnn _ _ (by linarith)]
      constructor <;> rintro ⟨h1, h2⟩ <;> constructor <;> linarith
  refine ⟨?_, trivial, trivial, ?_, ?_⟩
  · rw [← a4, le_div_iff₀ h1, div_le_iff₀ h1, le_div_iff₀ h2, div_le_iff₀ h2, abs_le, abs_le]
    constructor
    · rintro ⟨h1, h2, h3, h4, h5⟩; exact ⟨⟨by linarith, by linarith⟩, ⟨by linarith, by linarith⟩, h5⟩
    · rintro ⟨⟨h1, h2⟩, ⟨h3, h4⟩, h5⟩; exact ⟨by linarith, by linarith, by linarith, by linarith, h5⟩
  · rw [div_eq_zero_iff, or_iff_left hfn, sub_eq_zero]
  · rw [div_eq_one_iff_eq hfn]; constructor <;> intro h <;> linarith
theorem orthoLH (c : Cfg) (w h n f : ℝ) (hw : w ≠ 0) (hh : h ≠ 0) (hf : f - n ≠ 0) :
    XMMatrixOrthographicLH c (num w) (num h) (num n) (num f) =
      mat (affine !![2 / w, 0, 0; 0, 2 / h, 0; 0, 0, 1 / (f - n)] ![0, 0, -(1 / (f - n)) * n]) := by
  unfold XMMatrixOrthographicLH orthoTail
  split_ifs <;> simp [affine, div_num, hw, hh, hf]
/-- Orthographic views: every point, without a divide. -/
theorem C51_orthoLH (c : Cfg) (vw vh n f : ℝ) (x : Fin 3 → ℝ) (w : E) (hw : 0 < vw) (hh : 0 < vh) (hnf : n ≠ f) :
    ∃ p, XMVector3Transform c (vec3 x w) (XMMatrixOrthographicLH c (num vw) (num vh) (num n) (num f)) = vec3 p (num 1) ∧
      BoxImage vw vh n f x p := by
  have h2 : f - n ≠ 0 := sub_ne_zero.2 hnf.symm
  have h3 : n - f ≠ 0 := sub_ne_zero.2 hnf
  refine ⟨_, ?_, ortho_core vw vh n f x hw hh hnf⟩
  rw [orthoLH c vw vh n f hw.ne' hh.ne' h2, XMVector3Transform_affine]
  congr 1
  have e : f - n = -(n - f) := by ring
  ext i
  rw [Pi.add_apply, vecMul3]
  fin_cases i <;> simp [flipZ] <;> [skip; skip; skip] <;> field_simp <;> ring
theorem orthoRH (c : Cfg) (w h n f : ℝ) (hw : w ≠ 0) (hh : h ≠ 0) (hf : n - f ≠ 0) :
    XMMatrixOrthographicRH c (num w) (num h) (num n) (num f) =
      mat (affine !![2 / w, 0, 0; 0, 2 / h, 0; 0, 0, 1 / (n - f)] ![0, 0, 1 / (n - f) * n]) := by
  unfold XMMatrixOrthographicRH orthoTail
  split_ifs <;> simp [affine, div_num, hw, hh, hf]
/-- Orthographic views: every point, without a divide. -/
theorem C51_orthoRH (c : Cfg) (vw vh n f : ℝ) (x : Fin 3 → ℝ) (w : E) (hw : 0 < vw) (hh : 0 < vh) (hnf : n ≠ f) :
    ∃ p, XMVector3Transform c (vec3 x w) (XMMatrixOrthographicRH c (num vw) (num vh) (num n) (num f)) = vec3 p (num 1) ∧
      BoxImage vw vh n f (flipZ x) p := by
  have h2 : f - n ≠ 0 := sub_ne_zero.2 hnf.symm
  have h3 : n - f ≠ 0 := sub_ne_zero.2 hnf
  refine ⟨_, ?_, ortho_core vw vh n f (flipZ x) hw hh hnf⟩
  rw [orthoRH c vw vh n f hw.ne' hh.ne' h3, XMVector3Transform_affine]
  congr 1
  have e : f - n = -(n - f) := by ring
  ext i
  rw [Pi.add_apply, vecMul3]
  fin_cases i <;> simp [flipZ] <;> [skip; skip; rw [e]] <;> field_simp <;> ring

/-- A frustum, an interior point and an exterior one. -/
example : inFrustum (-1) 1 (-1) 1 1 10 ![1, 1/2, 2] ∧ ¬ inFrustum (-1) 1 (-1) 1 1 10 ![3, 1/2, 2] := by
  unfold inFrustum
  rw [Set.uIcc_of_le (by norm_num)]
  constructor
  · simp; norm_num
  · simp; norm_num

/-! ### C37 -/

/-- `(x, 1)`. -/
def hom (x : Fin 3 → ℝ) : Fin 4 → ℝ := ![x 0, x 1, x 2, 1]
/-- The homogeneous divide. -/
noncomputable def dehom (h : Fin 4 → ℝ) : Fin 3 → ℝ := ![h 0 / h 3, h 1 / h 3, h 2 / h 3]
theorem coord_mat (c : Cfg) (x : Fin 3 → ℝ) (w : E) (A : Matrix (Fin 4) (Fin 4) ℝ) (h : (hom x ᵥ* A) 3 ≠ 0) :
    XMVector3TransformCoord c (vec3 x w) (mat A) = vec3 (dehom (hom x ᵥ* A)) (num 1) := by
  have h' : x 0 * A 0 3 + x 1 * A 1 3 + x 2 * A 2 3 + A 3 3 ≠ 0 := by
    rw [vecMul4] at h; simpa [hom] using h
  have e : ∀ j, (hom x ᵥ* A) j = x 0 * A 0 j + x 1 * A 1 j + x 2 * A 2 j + A 3 j := fun j => by
    rw [vecMul4]; simp [hom]
  simp only [vec3, mat, vec4, dehom, e]
  rw [XMVector3TransformCoord_num _ _ _ _ _ _ _ _ _ _ _ _ _ _ _ _ _ _ _ _ _ h', div_self h']
  simp
theorem hom_dehom (h : Fin 4 → ℝ) (h3 : h 3 ≠ 0) : hom (dehom h) = (h 3)⁻¹ • h := by
  ext i; fin_cases i <;> simp [hom, dehom, h3] <;> field_simp
theorem dehom_smul (k : ℝ) (hk : k ≠ 0) (h : Fin 4 → ℝ) : dehom (k • h) = dehom h := by
  ext i; fin_cases i <;> simp [dehom, mul_div_mul_left _ _ hk]
theorem dehom_hom (x : Fin 3 → ℝ) : dehom (hom x) = x := by
  ext i; fin_cases i <;> simp [hom, dehom]
/-- The viewport map: clip space to screen. -/
noncomputable def viewport (X Y W H mn mx : ℝ) (p : Fin 3 → ℝ) : Fin 3 → ℝ := ![X + (1 + p 0) * (W/2), Y + (1 - p 1) * (H/2), mn + p 2 * (mx - mn)]
noncomputable def unviewport (X Y W H mn mx : ℝ) (p : Fin 3 → ℝ) : Fin 3 → ℝ := ![(p 0 - X) / (W/2) - 1, 1 - (p 1 - Y) / (H/2), (p 2 - mn) / (mx - mn)]

theorem C37_project (c : Cfg) (X Y W H mn mx : ℝ) (P V A : Matrix (Fin 4) (Fin 4) ℝ) (x : Fin 3 → ℝ) (w : E)
    (hw : (hom x ᵥ* (A * V * P)) 3 ≠ 0) :
    Is3 (XMVector3Project c (vec3 x w) (num X) (num Y) (num W) (num H) (num mn) (num mx) (mat P) (mat V) (mat A))
      (viewport X Y W H mn mx (dehom (hom x ᵥ* (A * V * P)))) := by
  unfold XMVector3Project
  simp only [XMMatrixMultiply_mat, coord_mat c x w _ hw]
  refine (is3_iff _ _).2 ?_
  simp [viewport]
  refine ⟨?_, ?_, ?_⟩ <;> ring
theorem C37_unproject (c : Cfg) (X Y W H mn mx : ℝ) (P V A : Matrix (Fin 4) (Fin 4) ℝ) (y : Fin 3 → ℝ) (w : E) (hW : W ≠ 0) (hH : H ≠ 0)
    (hm : mx - mn ≠ 0) (hd : (A * V * P).det ≠ 0) (hw : (hom (unviewport X Y W H mn mx y) ᵥ* (A * V * P)⁻¹) 3 ≠ 0) :
    Is3 (XMVector3Unproject c (vec3 y w) (num X) (num Y) (num W) (num H) (num mn) (num mx) (mat P) (mat V) (mat A))
      (dehom (hom (unviewport X Y W H mn mx y) ᵥ* (A * V * P)⁻¹)) := by
  have e1 : ∃ q, XMVectorMultiplyAdd c (vec3 y w) (XMVectorReciprocal (XMVectorSet (Lane.mul (num W) Lane.cHalf) (Lane.mul (Lane.neg (num H)) Lane.cHalf)
      (Lane.sub (num mx) (num mn)) Lane.c1)) (XMVectorMultiplyAdd c (XMVectorReciprocal (XMVectorSet (Lane.mul (num W) Lane.cHalf) (Lane.mul (Lane.neg (num H)) Lane.cHalf)
      (Lane.sub (num mx) (num mn)) Lane.c1)) (XMVectorSet (Lane.neg (num X)) (Lane.neg (num Y)) (Lane.neg (num mn)) Lane.c0) ⟨Lane.cNeg1, Lane.c1, Lane.c0, Lane.c0⟩) = vec3 (unviewport X Y W H mn mx y) q := by
    refine (is3_iff _ _).2 ?_
    simp [div_num, hW, hH, hm, unviewport]
    refine ⟨?_, ?_, ?_⟩ <;> field_simp <;> ring
  obtain ⟨q, e1⟩ := e1
  unfold XMVector3Unproject
  simp only [XMMatrixMultiply_mat, XMMatrixInverse_mat c _ hd, e1, coord_mat c _ q _ hw]
  exact ⟨_, rfl⟩
theorem unviewport_viewport (X Y W H mn mx : ℝ) (p : Fin 3 → ℝ) (hW : W ≠ 0) (hH : H ≠ 0) (hm : mx - mn ≠ 0) :
    unviewport X Y W H mn mx (viewport X Y W H mn mx p) = p ∧ viewport X Y W H mn mx (unviewport X Y W H mn mx p) = p := by
  constructor <;> ext i <;> fin_cases i <;> simp [viewport, unviewport] <;> field_simp <;> ring
theorem C37_roundtrip (c : Cfg) (X Y W H mn mx : ℝ) (P V A : Matrix (Fin 4) (Fin 4) ℝ) (x : Fin 3 → ℝ) (w : E) (hW : W ≠ 0) (hH : H ≠ 0)
    (hm : mx - mn ≠ 0) (hd : (A * V * P).det ≠ 0) (hw : (hom x ᵥ* (A * V * P)) 3 ≠ 0) :
    Is3 (XMVector3Unproject c (XMVector3Project c (vec3 x w) (num X) (num Y) (num W) (num H) (num mn) (num mx) (mat P) (mat V) (mat A))
      (num X) (num Y) (num W) (num H) (num mn) (num mx) (mat P) (mat V) (mat A)) x := by
  obtain ⟨q, e⟩ := C37_project c X Y W H mn mx P V A x w hw
  rw [e]
  have u : IsUnit (A * V * P).det := isUnit_iff_ne_zero.2 hd
  set h := hom x ᵥ* (A * V * P) with hh
  have e2 : hom (unviewport X Y W H mn mx (viewport X Y W H mn mx (dehom h))) ᵥ* (A * V * P)⁻¹ = (h 3)⁻¹ • hom x := by
    rw [(unviewport_viewport X Y W H mn mx _ hW hH hm).1, hom_dehom h hw, Matrix.smul_vecMul, hh, Matrix.vecMul_vecMul, Matrix.mul_nonsing_inv _ u,
      Matrix.vecMul_one]
  have := C37_unproject c X Y W H mn mx P V A (viewport X Y W H mn mx (dehom h)) q hW hH hm hd (by rw [e2]; simpa [hom] using hw)
  rwa [e2, dehom_smul _ (inv_ne_zero hw), dehom_hom] at this
theorem C37_roundtrip' (c : Cfg) (X Y W H mn mx : ℝ) (P V A : Matrix (Fin 4) (Fin 4) ℝ) (y : Fin 3 → ℝ) (w : E) (hW : W ≠ 0) (hH : H ≠ 0)
    (hm : mx - mn ≠ 0) (hd : (A * V * P).det ≠ 0) (hw : (hom (unviewport X Y W H mn mx y) ᵥ* (A * V * P)⁻¹) 3 ≠ 0) :
    Is3 (XMVector3Project c (XMVector3Unproject c (vec3 y w) (num X) (num Y) (num W) (num H) (num mn) (num mx) (mat P) (mat V) (mat A))
      (num X) (num Y) (num W) (num H) (num mn) (num mx) (mat P) (mat V) (mat A)) y := by
  obtain ⟨q, e⟩ := C37_unproject c X Y W H mn mx P V A y w hW hH hm hd hw
  rw [e]
  have u : IsUnit (A * V * P).det := isUnit_iff_ne_zero.2 hd
  set g := hom (unviewport X Y W H mn mx y) ᵥ* (A * V * P)⁻¹ with hg
  have e2 : hom (dehom g) ᵥ* (A * V * P) = (g 3)⁻¹ • hom (unviewport X Y W H mn mx y) := by
    rw [hom_dehom g hw, Matrix.smul_vecMul, hg, Matrix.vecMul_vecMul, Matrix.nonsing_inv_mul _ u, Matrix.vecMul_one]
  have := C37_project c X Y W H mn mx P V A (dehom g) q (by rw [e2]; simpa [hom] using hw)
  rwa [e2, dehom_smul _ (inv_ne_zero hw), dehom_hom, (unviewport_viewport X Y W H mn mx y hW hH hm).2] at this
/-- A perspective projection, moved and turned, and a point in front of it. -/
example : let P : Matrix (Fin 4) (Fin 4) ℝ := !![1,0,0,0; 0,2,0,0; 0,0,2,1; 0,0,-2,0]
    let A : Matrix (Fin 4) (Fin 4) ℝ := !![0,1,0,0; -1,0,0,0; 0,0,1,0; 3,4,5,1]
    (A * 1 * P).det ≠ 0 ∧ (hom ![1, 2, 3] ᵥ* (A * 1 * P)) 3 ≠ 0 := by
  intro P A
  constructor
  · rw [Matrix.mul_one, Matrix.det_mul, det4, det4]; simp [P, A]
  · rw [Matrix.mul_one, vecMul4]; simp [P, A, hom, Matrix.mul_apply, Fin.sum_univ_four]; norm_num

end DXM.Props
