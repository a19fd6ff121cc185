import Verif.Lemmas.Mat
import Verif.Lemmas.Vec2
import Verif.Model.Space

/-
C61-C65: planes and the Fresnel term on exact-real lanes, every build.
-/

set_option linter.all false

namespace DXM.Props
open DXM.E DXM.Spec Matrix

/-- The normal of the plane `P = (a, b, c, d)`. -/
def normal (P : Fin 4 → ℝ) : Fin 3 → ℝ := ![P 0, P 1, P 2]
/-- `a x + b y + c z + d`. -/
def planeAt (P : Fin 4 → ℝ) (x : Fin 3 → ℝ) : ℝ := normal P ⬝ᵥ x + P 3
theorem planeAt_eq (P : Fin 4 → ℝ) (x : Fin 3 → ℝ) : planeAt P x = P 0 * x 0 + P 1 * x 1 + P 2 * x 2 + P 3 := by
  rw [planeAt, dot3]; simp [normal]
theorem normal_ne (P : Fin 4 → ℝ) (h : normal P ≠ 0) : 0 < P 0 * P 0 + P 1 * P 1 + P 2 * P 2 := by
  have := dot_self_pos h
  rw [dot3] at this
  simpa [normal] using this
theorem len_normal (P : Fin 4 → ℝ) : len (normal P) = √(P 0 * P 0 + P 1 * P 1 + P 2 * P 2) := by
  rw [len, dot3]; simp [normal]

/-! ### C61 -/

theorem C61_dot (c : Cfg) (P v : Fin 4 → ℝ) : XMPlaneDot c (vec4 P) (vec4 v) = all (P ⬝ᵥ v) := by
  simp [XMPlaneDot, dot4]
/-- DotCoord supplies w = 1, whatever the lane holds. -/
theorem C61_dotCoord (c : Cfg) (P : Fin 4 → ℝ) (x : Fin 3 → ℝ) (w : E) :
    XMPlaneDotCoord c (vec4 P) (vec3 x w) = all (planeAt P x) := by
  rw [planeAt_eq]; simp [XMPlaneDotCoord]
/-- DotNormal ignores both w lanes. -/
theorem C61_dotNormal (c : Cfg) (n x : Fin 3 → ℝ) (d w : E) : XMPlaneDotNormal c (vec3 n d) (vec3 x w) = all (n ⬝ᵥ x) := by
  simp [XMPlaneDotNormal, dot3]
theorem C61_normalize (c : Cfg) (P : Fin 4 → ℝ) (h : normal P ≠ 0) :
    XMPlaneNormalize c (vec4 P) = vec4 ((len (normal P))⁻¹ • P) ∧ len (normal ((len (normal P))⁻¹ • P)) = 1 ∧
    (∀ x, planeAt ((len (normal P))⁻¹ • P) x = 0 ↔ planeAt P x = 0) ∧
    (∀ x, 0 < planeAt ((len (normal P))⁻¹ • P) x ↔ 0 < planeAt P x) := by
  have h0 := normal_ne P h
  have hs : 0 < √(P 0 * P 0 + P 1 * P 1 + P 2 * P 2) := Real.sqrt_pos.2 h0
  have e : ∀ k x, planeAt (k • P) x = k * planeAt P x := fun k x => by rw [planeAt_eq, planeAt_eq]; simp; ring
  have hl : 0 < (len (normal P))⁻¹ := inv_pos.2 (len_pos h)
  refine ⟨?_, ?_, fun x => ?_, fun x => ?_⟩
  · rw [len_normal]
    unfold XMPlaneNormalize
    split_ifs
    · simp [sqrt_num _ h0.le, div_num _ _ hs.ne', div_eq_inv_mul]
    · simp [sqrt_num _ h0.le, div_num _ _ hs.ne', div_eq_inv_mul, hs, mul_comm, h0]
  · have : normal ((len (normal P))⁻¹ • P) = (len (normal P))⁻¹ • normal P := by
      ext i; fin_cases i <;> simp [normal]
    rw [this]; exact len_unit h
  · rw [e, mul_eq_zero, or_iff_right hl.ne']
  · rw [e]; exact mul_pos_iff_of_pos_left hl
example : normal ![3, 0, 4, 10] ≠ 0 := fun h => by simpa [normal] using congrFun h 0

/-! ### C62 -/

theorem C62_fromPointNormal (c : Cfg) (p n : Fin 3 → ℝ) (w w' : E) :
    ∃ P, XMPlaneFromPointNormal c (vec3 p w) (vec3 n w') = vec4 P ∧ normal P = n ∧ planeAt P p = 0 := by
  refine ⟨![n 0, n 1, n 2, -(p ⬝ᵥ n)], ?_, ?_, ?_⟩
  · simp [XMPlaneFromPointNormal, dot3]
  · ext i; fin_cases i <;> simp [normal]
  · rw [planeAt_eq, dot3]; simp; ring
/-- Three non-collinear points: a unit normal along (p2-p1)×(p3-p1), and all three on the plane. -/
theorem C62_fromPoints (c : Cfg) (p1 p2 p3 : Fin 3 → ℝ) (w1 w2 w3 : E) (h : crossProduct (p2 - p1) (p3 - p1) ≠ 0) :
    ∃ P, XMPlaneFromPoints c (vec3 p1 w1) (vec3 p2 w2) (vec3 p3 w3) = vec4 P ∧
      normal P = (len (crossProduct (p2 - p1) (p3 - p1)))⁻¹ • crossProduct (p2 - p1) (p3 - p1) ∧ len (normal P) = 1 ∧
      planeAt P p1 = 0 ∧ planeAt P p2 = 0 ∧ planeAt P p3 = 0 := by
  set N := crossProduct (p2 - p1) (p3 - p1) with hN
  set m := (len N)⁻¹ • N with hm
  have eN : ∀ w w', ∃ u, XMVector3Normalize c (XMVector3Cross c (XMVectorSubtract (vec3 p1 w1) (vec3 p2 w)) (XMVectorSubtract (vec3 p1 w1) (vec3 p3 w'))) = vec3 m u := by
    intro w w'
    have h' := dot_self_pos h
    rw [dot3] at h'
    have e : ∃ u, XMVector3Cross c (XMVectorSubtract (vec3 p1 w1) (vec3 p2 w)) (XMVectorSubtract (vec3 p1 w1) (vec3 p3 w')) = vec3 N u := by
      refine (is3_iff _ _).2 ?_
      simp [hN, cross_apply]
      refine ⟨?_, ?_, ?_⟩ <;> ring
    obtain ⟨u, e⟩ := e
    rw [e]
    refine (is3_iff _ _).2 ?_
    simp [XMVector3Normalize_num, h', len, dot3, div_eq_inv_mul, hm]
  obtain ⟨u, e⟩ := eN w2 w3
  have hl : len m = 1 := len_unit h
  refine ⟨![m 0, m 1, m 2, -(m ⬝ᵥ p1)], ?_, ?_, ?_, ?_, ?_, ?_⟩
  · unfold XMPlaneFromPoints
    simp only [e]
    simp [XMPlaneDotNormal, dot3]
  · ext i; fin_cases i <;> simp [normal]
  · rw [show normal ![m 0, m 1, m 2, -(m ⬝ᵥ p1)] = m by ext i; fin_cases i <;> simp [normal]]; exact hl
  · rw [planeAt_eq, dot3]; simp
  · rw [planeAt_eq, dot3]; simp [hm, hN, cross_apply]; ring
  · rw [planeAt_eq, dot3]; simp [hm, hN, cross_apply]; ring
example : crossProduct (![1,0,0] - ![0,0,1] : Fin 3 → ℝ) (![0,1,0] - ![0,0,1]) ≠ 0 := fun h => by
  simpa [cross_apply] using congrFun h 0

/-! ### C63 -/

/-- A line crossing the plane: the result is the point of the line on the plane.  Nearly parallel (|n·(p1-p2)| ≤ 2^-23): QNaN. -/
theorem C63_line (c : Cfg) (P : Fin 4 → ℝ) (p1 p2 : Fin 3 → ℝ) (w1 w2 : E) :
    (1 / 8388608 < |normal P ⬝ᵥ (p1 - p2)| → ∃ (x : Fin 3 → ℝ) (t : ℝ), Is3 (XMPlaneIntersectLine c (vec4 P) (vec3 p1 w1) (vec3 p2 w2)) x ∧
      x = p1 + t • (p2 - p1) ∧ planeAt P x = 0) ∧
    (|normal P ⬝ᵥ (p1 - p2)| ≤ 1 / 8388608 → XMPlaneIntersectLine c (vec4 P) (vec3 p1 w1) (vec3 p2 w2) = ⟨nan, nan, nan, nan⟩) := by
  have eD : normal P ⬝ᵥ (p1 - p2) = P 0 * p1 0 + P 1 * p1 1 + P 2 * p1 2 - (P 0 * p2 0 + P 1 * p2 1 + P 2 * p2 2) := by
    rw [dot3]; simp [normal]; ring
  rw [eD]
  set D := P 0 * p1 0 + P 1 * p1 1 + P 2 * p1 2 - (P 0 * p2 0 + P 1 * p2 1 + P 2 * p2 2) with hD
  constructor
  · intro h
    have h0 : D ≠ 0 := by rintro h0; rw [h0] at h; norm_num at h
    refine ⟨p1 + (planeAt P p1 / D) • (p2 - p1), planeAt P p1 / D, ?_, rfl, ?_⟩
    · refine (is3_iff _ _).2 ?_
      unfold XMPlaneIntersectLine
      simp only [C61_dotCoord]
      rw [one_div] at h
      simp [← hD, div_num _ _ h0, not_le.2 h]
      refine ⟨?_, ?_, ?_⟩ <;> ring
    · have : planeAt P p1 = D + (planeAt P p2) := by rw [planeAt_eq, planeAt_eq, hD]; ring
      have e : planeAt P (p1 + (planeAt P p1 / D) • (p2 - p1)) = planeAt P p1 + planeAt P p1 / D * (planeAt P p2 - planeAt P p1) := by
        simp only [planeAt_eq]; simp; ring
      rw [e, this]; field_simp; ring
  · intro h
    unfold XMPlaneIntersectLine
    simp only [C61_dotCoord]
    rw [one_div] at h
    simp [← hD, h]
/-- Two planes: two distinct points on both, or QNaN when the squared length of the cross product of the normals is at most 2^-23. -/
theorem C63_plane (c : Cfg) (P Q : Fin 4 → ℝ) :
    (1 / 8388608 < crossProduct (normal Q) (normal P) ⬝ᵥ crossProduct (normal Q) (normal P) →
      ∃ x y, Is3 (XMPlaneIntersectPlane c (vec4 P) (vec4 Q)).1 x ∧ Is3 (XMPlaneIntersectPlane c (vec4 P) (vec4 Q)).2 y ∧
        planeAt P x = 0 ∧ planeAt Q x = 0 ∧ planeAt P y = 0 ∧ planeAt Q y = 0 ∧ x ≠ y ∧ y - x = crossProduct (normal Q) (normal P)) ∧
    (crossProduct (normal Q) (normal P) ⬝ᵥ crossProduct (normal Q) (normal P) ≤ 1 / 8388608 →
      XMPlaneIntersectPlane c (vec4 P) (vec4 Q) = (⟨nan, nan, nan, nan⟩, ⟨nan, nan, nan, nan⟩)) := by
  set V := crossProduct (normal Q) (normal P) with hV
  have v0 : V 0 = Q 1 * P 2 - Q 2 * P 1 := by simp [hV, cross_apply, normal]
  have v1 : V 1 = Q 2 * P 0 - Q 0 * P 2 := by simp [hV, cross_apply, normal]
  have v2 : V 2 = Q 0 * P 1 - Q 1 * P 0 := by simp [hV, cross_apply, normal]
  have e1 : XMVector3Cross c (vec4 Q) (vec4 P) = vec3 V (num 0) := by
    simp [v0, v1, v2]
  have eL : XMVector3LengthSq c (vec3 V (num 0)) = all (V ⬝ᵥ V) := by simp [dot3]
  set x : Fin 3 → ℝ := fun i => ((crossProduct (normal Q) V) i * P 3 + (crossProduct V (normal P)) i * Q 3) / (V ⬝ᵥ V) with hx
  constructor
  · intro h
    have h0 : V ⬝ᵥ V ≠ 0 := by intro h0; rw [h0] at h; norm_num at h
    have px : planeAt P x = 0 := by
      rw [planeAt_eq]
      simp [hx, cross_apply, normal]
      field_simp
      rw [dot3, v0, v1, v2]; ring
    have qx : planeAt Q x = 0 := by
      rw [planeAt_eq]
      simp [hx, cross_apply, normal]
      field_simp
      rw [dot3, v0, v1, v2]; ring
    refine ⟨x, x + V, ?_, ?_, px, qx, ?_, ?_, ?_, ?_⟩
    · refine (is3_iff _ _).2 ?_
      unfold XMPlaneIntersectPlane
      simp only [e1, eL]
      rw [one_div] at h
      simp [div_num _ _ h0, not_le.2 h, hx, cross_apply, normal]
      refine ⟨?_, ?_, ?_⟩ <;> ring
    · refine (is3_iff _ _).2 ?_
      unfold XMPlaneIntersectPlane
      simp only [e1, eL]
      rw [one_div] at h
      simp [div_num _ _ h0, not_le.2 h, hx, cross_apply, normal]
      refine ⟨?_, ?_, ?_⟩ <;> ring
    · have : planeAt P (x + V) = planeAt P x + normal P ⬝ᵥ V := by rw [planeAt, planeAt, dotProduct_add]; ring
      rw [this, px, hV, dot_cross_self, add_zero]
    · have : planeAt Q (x + V) = planeAt Q x + normal Q ⬝ᵥ V := by rw [planeAt, planeAt, dotProduct_add]; ring
      rw [this, qx, hV, dot_self_cross, add_zero]
    · intro h1
      have : V = 0 := by simpa using h1
      rw [this] at h0; simp at h0
    · simp
  · intro h
    unfold XMPlaneIntersectPlane
    simp only [e1, eL]
    rw [one_div] at h
    simp [h]
example : (1:ℝ) / 8388608 < crossProduct (normal ![0,0,1,-2]) (normal ![1,1,0,5]) ⬝ᵥ crossProduct (normal ![0,0,1,-2]) (normal ![1,1,0,5]) := by
  rw [dot3]; simp [cross_apply, normal]; norm_num

/-! ### C64 -/

theorem C64_transform (c : Cfg) (P : Fin 4 → ℝ) (A : Matrix (Fin 4) (Fin 4) ℝ) : XMPlaneTransform c (vec4 P) (mat A) = vec4 (P ᵥ* A) := by
  simp only [vec4, vecMul4, mat]
  simp [XMPlaneTransform]
  refine ⟨?_, ?_, ?_, ?_⟩ <;> ring
/-- With the inverse transpose of an invertible matrix, transformed plane · transformed point = plane · point. -/
theorem C64_invariant (c : Cfg) (P v : Fin 4 → ℝ) (A : Matrix (Fin 4) (Fin 4) ℝ) (h : A.det ≠ 0) :
    XMPlaneDot c (XMPlaneTransform c (vec4 P) (XMMatrixTranspose c (XMMatrixInverse c (mat A)).1)) (XMVector4Transform c (vec4 v) (mat A)) =
      XMPlaneDot c (vec4 P) (vec4 v) := by
  have e1 : (XMMatrixInverse c (mat A)).1 = mat A⁻¹ := by
    rw [XMMatrixInverse_mat c A h]
  have e2 : XMVector4Transform c (vec4 v) (mat A) = vec4 (v ᵥ* A) := by
    simp only [vec4, vecMul4, mat]; simp
  rw [e1, XMMatrixTranspose_mat, C64_transform, e2, C61_dot, C61_dot]
  congr 1
  rw [Matrix.vecMul_transpose, dotProduct_comm, ← Matrix.dotProduct_mulVec, Matrix.mulVec_mulVec, Matrix.mul_nonsing_inv _ (isUnit_iff_ne_zero.2 h),
    Matrix.one_mulVec, dotProduct_comm]
example : (!![2,0,0,0; 0,1,0,0; 0,3,1,0; 1,2,3,1] : Matrix (Fin 4) (Fin 4) ℝ).det ≠ 0 := by
  rw [det4]; simp

/-! ### C65 -/

/-- `sqrt |n² + c² - 1|`. -/
noncomputable def fresnelG (k n : ℝ) : ℝ := √|n * n - 1 + k * k|
/-- The textbook reflectances for s- and p-polarised light at cosine `k` and relative index `n`. -/
noncomputable def reflS (k n : ℝ) : ℝ := ((k - fresnelG k n) / (k + fresnelG k n)) ^ 2
noncomputable def reflP (k n : ℝ) : ℝ := ((n ^ 2 * k - fresnelG k n) / (n ^ 2 * k + fresnelG k n)) ^ 2

/-- The library's closed form. -/
noncomputable def fresnelF (k n : ℝ) : ℝ :=
  1/2 * ((fresnelG k n - k)^2 / (fresnelG k n + k)^2) * ((k * (fresnelG k n + k) - 1)^2 / (k * (fresnelG k n - k) + 1)^2 + 1)
theorem fresnel_lanes (c : Cfg) (k n : Fin 4 → ℝ) (h1 : ∀ i, fresnelG (k i) (n i) + k i ≠ 0)
    (h2 : ∀ i, k i * (fresnelG (k i) (n i) - k i) + 1 ≠ 0) :
    XMFresnelTerm c (vec4 k) (vec4 n) = vec4 fun i => min (max (fresnelF (k i) (n i)) 0) 1 := by
  have s1 : ∀ i, (fresnelG (k i) (n i) + k i) * (fresnelG (k i) (n i) + k i) ≠ 0 := fun i => mul_self_ne_zero.2 (h1 i)
  have s2 : ∀ i, (k i * (fresnelG (k i) (n i) - k i) + 1) * (k i * (fresnelG (k i) (n i) - k i) + 1) ≠ 0 := fun i => mul_self_ne_zero.2 (h2 i)
  have q1 : ∀ i, √|k i * k i + (n i * n i - 1)| = fresnelG (k i) (n i) := fun i => by rw [fresnelG, add_comm]
  have q2 : ∀ i, √|k i * k i + (n i * n i + -1)| = fresnelG (k i) (n i) := fun i => by rw [fresnelG, add_comm, sub_eq_add_neg]
  have s3 : ∀ i, (k i * (fresnelG (k i) (n i) - k i) + 1) * (k i * (fresnelG (k i) (n i) - k i) + 1) ≠ 0 := s2
  have h4 : ∀ i, (fresnelG (k i) (n i) - k i) * k i + 1 ≠ 0 := fun i => by
    rw [mul_comm _ (k i)]; exact h2 i
  unfold XMFresnelTerm
  split_ifs
  · have q3 : ∀ i, (Lane.sqrt (num (max (1 - n i * n i + -(k i * k i)) (k i * k i + (n i * n i - 1)))) : E) = num (fresnelG (k i) (n i)) := fun i => by
      rw [show 1 - n i * n i + -(k i * k i) = -(k i * k i + (n i * n i - 1)) by ring, max_neg_self', sqrt_num _ (abs_nonneg _), q1]
    simp [q3]
    simp [div_num, h1, h2, h4]
    refine ⟨?_, ?_, ?_, ?_⟩ <;> (rw [fresnelF]; congr 2; simp only [div_eq_mul_inv, sq, mul_inv]; ring)
  · simp [sqrt_num, q2]
    simp [div_num, h1, h2, h4]
    refine ⟨?_, ?_, ?_, ?_⟩ <;> (rw [fresnelF, min_comm, max_comm]; congr 2; simp only [div_eq_mul_inv, sq, mul_inv]; ring)

/-- Whenever `n² + c² ≥ 1` (no total internal reflection), the library's form is the mean of the two reflectances. -/
theorem fresnelF_eq (k n : ℝ) (h : 0 ≤ n * n - 1 + k * k) (h1 : fresnelG k n + k ≠ 0) (h2 : k * (fresnelG k n - k) + 1 ≠ 0) :
    fresnelF k n = (reflS k n + reflP k n) / 2 := by
  have hg : fresnelG k n * fresnelG k n = n * n - 1 + k * k := by
    rw [fresnelG, abs_of_nonneg h, Real.mul_self_sqrt h]
  rw [fresnelF, reflS, reflP]
  set g := fresnelG k n
  have e1 : n ^ 2 * k - g = (g - k) * (k * (g + k) - 1) := by linear_combination -k * hg
  have e2 : n ^ 2 * k + g = (g + k) * (k * (g - k) + 1) := by linear_combination -k * hg
  have h3 : k + g ≠ 0 := by rwa [add_comm]
  rw [e1, e2, add_comm k g]
  field_simp
  ring

/-- Every lane is the unpolarised Fresnel reflectance clamped to [0, 1]. -/
theorem C65_fresnel (c : Cfg) (k n : Fin 4 → ℝ) (h : ∀ i, 1 ≤ n i ^ 2 + k i ^ 2) (h1 : ∀ i, fresnelG (k i) (n i) + k i ≠ 0)
    (h2 : ∀ i, k i * (fresnelG (k i) (n i) - k i) + 1 ≠ 0) :
    XMFresnelTerm c (vec4 k) (vec4 n) = vec4 fun i => min (max ((reflS (k i) (n i) + reflP (k i) (n i)) / 2) 0) 1 := by
  rw [fresnel_lanes c k n h1 h2]
  congr 1
  funext i
  rw [fresnelF_eq _ _ (by linarith [h i, sq (n i), sq (k i)]) (h1 i) (h2 i)]
/-- At a denser medium and a physical angle the side conditions hold and the clamp is idle. -/
theorem C65_physical (c : Cfg) (k n : Fin 4 → ℝ) (hk : ∀ i, 0 < k i) (hk1 : ∀ i, k i ≤ 1) (hn : ∀ i, 1 ≤ n i) :
    XMFresnelTerm c (vec4 k) (vec4 n) = vec4 fun i => (reflS (k i) (n i) + reflP (k i) (n i)) / 2 := by
  have hg : ∀ i, 0 ≤ fresnelG (k i) (n i) := fun i => Real.sqrt_nonneg _
  have hn2 : ∀ i, 1 ≤ n i * n i := fun i => by nlinarith [hn i]
  have hge : ∀ i, k i ≤ fresnelG (k i) (n i) := fun i => by
    rw [fresnelG, abs_of_nonneg (by nlinarith [hn2 i, mul_self_nonneg (k i)])]
    exact Real.le_sqrt_of_sq_le (by nlinarith [hn2 i])
  rw [C65_fresnel c k n (fun i => by nlinarith [hn2 i, sq_nonneg (k i)]) (fun i => by linarith [hg i, hk i] |> fun h : 0 < _ => h.ne')
    (fun i => by nlinarith [hge i, hk i, mul_nonneg (hk i).le (sub_nonneg.2 (hge i))] |> fun h : 0 < _ => h.ne')]
  congr 1
  funext i
  have a : ∀ x y : ℝ, 0 ≤ x → 0 ≤ y → ((x - y) / (x + y)) ^ 2 ≤ 1 := fun x y hx hy => by
    rw [div_pow]
    exact div_le_one_of_le₀ (by nlinarith [mul_nonneg hx hy]) (sq_nonneg _)
  have b1 : reflS (k i) (n i) ≤ 1 := a _ _ (hk i).le (hg i)
  have b2 : reflP (k i) (n i) ≤ 1 := a _ _ (mul_nonneg (sq_nonneg _) (hk i).le) (hg i)
  have b3 : 0 ≤ reflS (k i) (n i) := sq_nonneg _
  have b4 : 0 ≤ reflP (k i) (n i) := sq_nonneg _
  rw [max_eq_left (by linarith), min_eq_left (by linarith)]

end DXM.Props
