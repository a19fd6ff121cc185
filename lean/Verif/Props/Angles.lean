import Verif.Props.Trig
import Verif.Lemmas.Vec2
import Verif.Model.Est

/-
C101 (angle between vectors): XMVector{2,3,4}AngleBetweenVectors / AngleBetweenNormals / AngleBetweenNormalsEst
against the angle `arccos (u·v / (|u||v|))`.  Exact-real lanes, every build.
-/

namespace DXM.Props
open DXM.E DXM.Spec DXM.Trig Real

theorem dot_self_zero {n : ℕ} (u : Fin n → ℝ) (h : u ⬝ᵥ u = 0) : u = 0 := by
  have := (Finset.sum_eq_zero_iff_of_nonneg (fun i _ => mul_self_nonneg (u i))).mp h
  funext i; simpa using this i (Finset.mem_univ i)

/-- The angle between two vectors. -/
noncomputable def angle {n : ℕ} (u v : Fin n → ℝ) : ℝ := arccos ((u ⬝ᵥ v) / (len u * len v))
/-- A vector of length one. -/
def IsUnit' {n : ℕ} (u : Fin n → ℝ) : Prop := u ⬝ᵥ u = 1

theorem abs_cos_le {n : ℕ} (u v : Fin n → ℝ) : |(u ⬝ᵥ v) / (len u * len v)| ≤ 1 := by
  have h : (u ⬝ᵥ v)^2 ≤ (u ⬝ᵥ u) * (v ⬝ᵥ v) := by
    have := Finset.sum_mul_sq_le_sq_mul_sq Finset.univ u v
    simpa [dotProduct, sq] using this
  have hu : 0 ≤ u ⬝ᵥ u := Finset.sum_nonneg fun i _ => mul_self_nonneg (u i)
  have hv : 0 ≤ v ⬝ᵥ v := Finset.sum_nonneg fun i _ => mul_self_nonneg (v i)
  have h2 : |u ⬝ᵥ v| ≤ len u * len v := by
    rw [len, len, ← Real.sqrt_mul hu]; exact Real.abs_le_sqrt h
  rw [abs_div, abs_of_nonneg (a := len u * len v) (mul_nonneg (sqrt_nonneg _) (sqrt_nonneg _))]
  exact div_le_one_of_le₀ h2 (mul_nonneg (sqrt_nonneg _) (sqrt_nonneg _))

theorem angle_unit {n : ℕ} (u v : Fin n → ℝ) (hu : IsUnit' u) (hv : IsUnit' v) : angle u v = arccos (u ⬝ᵥ v) := by
  simp only [IsUnit'] at hu hv
  simp [angle, len, hu, hv]

theorem arccos_clamped (x : ℝ) : arccos x = arccos (min (max x (-1)) 1) := by
  rcases le_total x (-1) with h | h
  · rw [max_eq_right h, min_eq_left (by norm_num), arccos_of_le_neg_one h, arccos_neg_one]
  · rw [max_eq_left h]
    rcases le_total x 1 with h' | h'
    · rw [min_eq_left h']
    · rw [min_eq_right h', arccos_of_one_le h', arccos_one]
theorem acos_clamp' (c : Cfg) (x : ℝ) :
    (∃ r, XMVectorACos c (XMVectorClamp (.splat (num x)) g_XMNegativeOne g_XMOne) = vec4 r ∧ ∀ i, |r i - arccos x| ≤ 3/10^7) ∧
    (∃ r, XMVectorACosEst c (XMVectorClamp (.splat (num x)) g_XMNegativeOne g_XMOne) = vec4 r ∧ ∀ i, |r i - arccos x| ≤ 104/10^6) := by
  have e : (XMVectorClamp (.splat (num x)) g_XMNegativeOne g_XMOne : V4 E) = vec4 fun _ => min (max x (-1)) 1 := by
    simp [XMVectorClamp, vec4, max_comm, min_comm]
  rw [e, arccos_clamped]
  have hx : |min (max x (-1)) 1| ≤ 1 := abs_le.2 ⟨le_min (le_max_right _ _) (by norm_num), min_le_right _ _⟩
  obtain ⟨h1, -, h2, -⟩ := C67_arc c (fun _ => min (max x (-1)) 1) (fun _ => hx)
  exact ⟨h1, h2⟩
theorem acos_clamp (c : Cfg) (x : ℝ) (hx : |x| ≤ 1) :
    (∃ r, XMVectorACos c (XMVectorClamp (.splat (num x)) g_XMNegativeOne g_XMOne) = vec4 r ∧ ∀ i, |r i - arccos x| ≤ 3/10^7) ∧
    (∃ r, XMVectorACosEst c (XMVectorClamp (.splat (num x)) g_XMNegativeOne g_XMOne) = vec4 r ∧ ∀ i, |r i - arccos x| ≤ 104/10^6) :=
  acos_clamp' c x

/-- C101: the angle between unit vectors, 2-D. -/
theorem C101_normals2 (c : Cfg) (u v : Fin 2 → ℝ) (p q r s : E) (hu : IsUnit' u) (hv : IsUnit' v) :
    (∃ a, XMVector2AngleBetweenNormals c (vec2 u p q) (vec2 v r s) = vec4 a ∧ ∀ i, |a i - angle u v| ≤ 3/10^7) ∧
    (∃ a, XMVector2AngleBetweenNormalsEst c (vec2 u p q) (vec2 v r s) = vec4 a ∧ ∀ i, |a i - angle u v| ≤ 104/10^6) := by
  have h := abs_cos_le u v
  have hu' := hu; have hv' := hv
  simp only [IsUnit'] at hu' hv'
  simp only [len, hu', hv', sqrt_one, mul_one, div_one] at h
  have e : XMVector2Dot c (vec2 u p q) (vec2 v r s) = .splat (num (u ⬝ᵥ v)) := by simp [vec2, dotProduct, Fin.sum_univ_two]
  rw [angle_unit u v hu hv]
  unfold XMVector2AngleBetweenNormals XMVector2AngleBetweenNormalsEst
  rw [e]; exact acos_clamp c _ h

/-- C101: on vectors that are not (exactly) of unit length the normals form is still defined, and returns the arc cosine of the dot product clamped to [-1, 1], 2-D. -/
theorem C101_clamped2 (c : Cfg) (u v : Fin 2 → ℝ) (p q r s : E) :
    (∃ a, XMVector2AngleBetweenNormals c (vec2 u p q) (vec2 v r s) = vec4 a ∧ ∀ i, |a i - arccos (min (max (u ⬝ᵥ v) (-1)) 1)| ≤ 3/10^7) ∧
    (∃ a, XMVector2AngleBetweenNormalsEst c (vec2 u p q) (vec2 v r s) = vec4 a ∧ ∀ i, |a i - arccos (min (max (u ⬝ᵥ v) (-1)) 1)| ≤ 104/10^6) := by
  have e : XMVector2Dot c (vec2 u p q) (vec2 v r s) = .splat (num (u ⬝ᵥ v)) := by simp [vec2, dotProduct, Fin.sum_univ_two]
  unfold XMVector2AngleBetweenNormals XMVector2AngleBetweenNormalsEst
  rw [e, ← arccos_clamped]; exact acos_clamp' c _

/-- C101: the angle between any two nonzero vectors, 2-D. -/
theorem C101_vectors2 (c : Cfg) (u v : Fin 2 → ℝ) (p q r s : E) (hu : u ≠ 0) (hv : v ≠ 0) :
    ∃ a, XMVector2AngleBetweenVectors c (vec2 u p q) (vec2 v r s) = vec4 a ∧ ∀ i, |a i - angle u v| ≤ 3/10^7 := by
  have hu' : u ⬝ᵥ u ≠ 0 := fun h => hu (dot_self_zero _ h)
  have hv' : v ⬝ᵥ v ≠ 0 := fun h => hv (dot_self_zero _ h)
  have e : XMVector2Dot c (vec2 u p q) (vec2 v r s) = .splat (num (u ⬝ᵥ v)) := by simp [vec2, dotProduct, Fin.sum_univ_two]
  have eu : XMVector2ReciprocalLength c (vec2 u p q) = .splat (num (1 / len u)) := by
    rw [vec2, XMVector2ReciprocalLength_num _ _ _ _]
    · simp [len, dotProduct, Fin.sum_univ_two]
    · simpa [dotProduct, Fin.sum_univ_two] using hu'
  have ev : XMVector2ReciprocalLength c (vec2 v r s) = .splat (num (1 / len v)) := by
    rw [vec2, XMVector2ReciprocalLength_num _ _ _ _]
    · simp [len, dotProduct, Fin.sum_univ_two]
    · simpa [dotProduct, Fin.sum_univ_two] using hv'
  have em : (XMVectorMultiply (.splat (num (u ⬝ᵥ v))) (XMVectorMultiply (.splat (num (1 / len u))) (.splat (num (1 / len v)))) : V4 E)
      = .splat (num ((u ⬝ᵥ v) / (len u * len v))) := by
    simp only [XMVectorMultiply, V4.splat, mul_num, SSE.mul, V4.map2]
    rw [show (u ⬝ᵥ v) * (1 / len u * (1 / len v)) = (u ⬝ᵥ v) / (len u * len v) by rw [div_mul_div_comm, one_mul, mul_one_div]]
  simp only [XMVector2AngleBetweenVectors, e, eu, ev, em]
  exact (acos_clamp c _ (abs_cos_le u v)).1

/-- C101: the angle between unit vectors, 3-D. -/
theorem C101_normals3 (c : Cfg) (u v : Fin 3 → ℝ) (p q : E) (hu : IsUnit' u) (hv : IsUnit' v) :
    (∃ a, XMVector3AngleBetweenNormals c (vec3 u p) (vec3 v q) = vec4 a ∧ ∀ i, |a i - angle u v| ≤ 3/10^7) ∧
    (∃ a, XMVector3AngleBetweenNormalsEst c (vec3 u p) (vec3 v q) = vec4 a ∧ ∀ i, |a i - angle u v| ≤ 104/10^6) := by
  have h := abs_cos_le u v
  have hu' := hu; have hv' := hv
  simp only [IsUnit'] at hu' hv'
  simp only [len, hu', hv', sqrt_one, mul_one, div_one] at h
  have e : XMVector3Dot c (vec3 u p) (vec3 v q) = .splat (num (u ⬝ᵥ v)) := by simp [vec3, dotProduct, Fin.sum_univ_three]
  rw [angle_unit u v hu hv]
  unfold XMVector3AngleBetweenNormals XMVector3AngleBetweenNormalsEst
  rw [e]; exact acos_clamp c _ h

/-- C101: on vectors that are not (exactly) of unit length the normals form is still defined, and returns the arc cosine of the dot product clamped to [-1, 1], 3-D. -/
theorem C101_clamped3 (c : Cfg) (u v : Fin 3 → ℝ) (p q : E) :
    (∃ a, XMVector3AngleBetweenNormals c (vec3 u p) (vec3 v q) = vec4 a ∧ ∀ i, |a i - arccos (min (max (u ⬝ᵥ v) (-1)) 1)| ≤ 3/10^7) ∧
    (∃ a, XMVector3AngleBetweenNormalsEst c (vec3 u p) (vec3 v q) = vec4 a ∧ ∀ i, |a i - arccos (min (max (u ⬝ᵥ v) (-1)) 1)| ≤ 104/10^6) := by
  have e : XMVector3Dot c (vec3 u p) (vec3 v q) = .splat (num (u ⬝ᵥ v)) := by simp [vec3, dotProduct, Fin.sum_univ_three]
  unfold XMVector3AngleBetweenNormals XMVector3AngleBetweenNormalsEst
  rw [e, ← arccos_clamped]; exact acos_clamp' c _

/-- C101: the angle between any two nonzero vectors, 3-D. -/
theorem C101_vectors3 (c : Cfg) (u v : Fin 3 → ℝ) (p q : E) (hu : u ≠ 0) (hv : v ≠ 0) :
    ∃ a, XMVector3AngleBetweenVectors c (vec3 u p) (vec3 v q) = vec4 a ∧ ∀ i, |a i - angle u v| ≤ 3/10^7 := by
  have hu' : u ⬝ᵥ u ≠ 0 := fun h => hu (dot_self_zero _ h)
  have hv' : v ⬝ᵥ v ≠ 0 := fun h => hv (dot_self_zero _ h)
  have e : XMVector3Dot c (vec3 u p) (vec3 v q) = .splat (num (u ⬝ᵥ v)) := by simp [vec3, dotProduct, Fin.sum_univ_three]
  have eu : XMVector3ReciprocalLength c (vec3 u p) = .splat (num (1 / len u)) := by
    rw [vec3, XMVector3ReciprocalLength_num _ _ _ _]
    · simp [len, dotProduct, Fin.sum_univ_three]
    · simpa [dotProduct, Fin.sum_univ_three] using hu'
  have ev : XMVector3ReciprocalLength c (vec3 v q) = .splat (num (1 / len v)) := by
    rw [vec3, XMVector3ReciprocalLength_num _ _ _ _]
    · simp [len, dotProduct, Fin.sum_univ_three]
    · simpa [dotProduct, Fin.sum_univ_three] using hv'
  have em : (XMVectorMultiply (.splat (num (u ⬝ᵥ v))) (XMVectorMultiply (.splat (num (1 / len u))) (.splat (num (1 / len v)))) : V4 E)
      = .splat (num ((u ⬝ᵥ v) / (len u * len v))) := by
    simp only [XMVectorMultiply, V4.splat, mul_num, SSE.mul, V4.map2]
    rw [show (u ⬝ᵥ v) * (1 / len u * (1 / len v)) = (u ⬝ᵥ v) / (len u * len v) by rw [div_mul_div_comm, one_mul, mul_one_div]]
  simp only [XMVector3AngleBetweenVectors, e, eu, ev, em]
  exact (acos_clamp c _ (abs_cos_le u v)).1

/-- C101: the angle between unit vectors, 4-D. -/
theorem C101_normals4 (c : Cfg) (u v : Fin 4 → ℝ)  (hu : IsUnit' u) (hv : IsUnit' v) :
    (∃ a, XMVector4AngleBetweenNormals c (vec4 u) (vec4 v) = vec4 a ∧ ∀ i, |a i - angle u v| ≤ 3/10^7) ∧
    (∃ a, XMVector4AngleBetweenNormalsEst c (vec4 u) (vec4 v) = vec4 a ∧ ∀ i, |a i - angle u v| ≤ 104/10^6) := by
  have h := abs_cos_le u v
  have hu' := hu; have hv' := hv
  simp only [IsUnit'] at hu' hv'
  simp only [len, hu', hv', sqrt_one, mul_one, div_one] at h
  have e : XMVector4Dot c (vec4 u) (vec4 v) = .splat (num (u ⬝ᵥ v)) := by simp [vec4, dotProduct, Fin.sum_univ_four]
  rw [angle_unit u v hu hv]
  unfold XMVector4AngleBetweenNormals XMVector4AngleBetweenNormalsEst
  rw [e]; exact acos_clamp c _ h

/-- C101: on vectors that are not (exactly) of unit length the normals form is still defined, and returns the arc cosine of the dot product clamped to [-1, 1], 4-D. -/
theorem C101_clamped4 (c : Cfg) (u v : Fin 4 → ℝ)  :
    (∃ a, XMVector4AngleBetweenNormals c (vec4 u) (vec4 v) = vec4 a ∧ ∀ i, |a i - arccos (min (max (u ⬝ᵥ v) (-1)) 1)| ≤ 3/10^7) ∧
    (∃ a, XMVector4AngleBetweenNormalsEst c (vec4 u) (vec4 v) = vec4 a ∧ ∀ i, |a i - arccos (min (max (u ⬝ᵥ v) (-1)) 1)| ≤ 104/10^6) := by
  have e : XMVector4Dot c (vec4 u) (vec4 v) = .splat (num (u ⬝ᵥ v)) := by simp [vec4, dotProduct, Fin.sum_univ_four]
  unfold XMVector4AngleBetweenNormals XMVector4AngleBetweenNormalsEst
  rw [e, ← arccos_clamped]; exact acos_clamp' c _

/-- C101: the angle between any two nonzero vectors, 4-D. -/
theorem C101_vectors4 (c : Cfg) (u v : Fin 4 → ℝ)  (hu : u ≠ 0) (hv : v ≠ 0) :
    ∃ a, XMVector4AngleBetweenVectors c (vec4 u) (vec4 v) = vec4 a ∧ ∀ i, |a i - angle u v| ≤ 3/10^7 := by
  have hu' : u ⬝ᵥ u ≠ 0 := fun h => hu (dot_self_zero _ h)
  have hv' : v ⬝ᵥ v ≠ 0 := fun h => hv (dot_self_zero _ h)
  have e : XMVector4Dot c (vec4 u) (vec4 v) = .splat (num (u ⬝ᵥ v)) := by simp [vec4, dotProduct, Fin.sum_univ_four]
  have eu : XMVector4ReciprocalLength c (vec4 u) = .splat (num (1 / len u)) := by
    rw [vec4, XMVector4ReciprocalLength_num _ _ _ _]
    · simp [len, dotProduct, Fin.sum_univ_four]
    · simpa [dotProduct, Fin.sum_univ_four] using hu'
  have ev : XMVector4ReciprocalLength c (vec4 v) = .splat (num (1 / len v)) := by
    rw [vec4, XMVector4ReciprocalLength_num _ _ _ _]
    · simp [len, dotProduct, Fin.sum_univ_four]
    · simpa [dotProduct, Fin.sum_univ_four] using hv'
  have em : (XMVectorMultiply (.splat (num (u ⬝ᵥ v))) (XMVectorMultiply (.splat (num (1 / len u))) (.splat (num (1 / len v)))) : V4 E)
      = .splat (num ((u ⬝ᵥ v) / (len u * len v))) := by
    simp only [XMVectorMultiply, V4.splat, mul_num, SSE.mul, V4.map2]
    rw [show (u ⬝ᵥ v) * (1 / len u * (1 / len v)) = (u ⬝ᵥ v) / (len u * len v) by rw [div_mul_div_comm, one_mul, mul_one_div]]
  simp only [XMVector4AngleBetweenVectors, e, eu, ev, em]
  exact (acos_clamp c _ (abs_cos_le u v)).1

/-- The hypotheses are met: perpendicular unit vectors; and the angle is then a right angle. -/
example : IsUnit' (![1, 0, 0] : Fin 3 → ℝ) ∧ IsUnit' (![0, 3/5, 4/5] : Fin 3 → ℝ) ∧ angle (![1, 0, 0] : Fin 3 → ℝ) ![0, 3/5, 4/5] = π / 2 := by
  refine ⟨by simp [IsUnit', dotProduct, Fin.sum_univ_three], by simp [IsUnit', dotProduct, Fin.sum_univ_three]; norm_num, ?_⟩
  simp [angle, dotProduct, Fin.sum_univ_three]
example : (![1, 0, 0] : Fin 3 → ℝ) ≠ 0 ∧ angle (![5, 0, 0] : Fin 3 → ℝ) ![-2, 0, 0] = π := by
  refine ⟨fun h => by simpa using congrFun h 0, ?_⟩
  simp [angle, dotProduct, Fin.sum_univ_three, len]

end DXM.Props
