import Mathlib.LinearAlgebra.Matrix.Determinant.Basic
import Verif.Lemmas.SpecSimp

/-
C22-C28, C30-C32: vector algebra on exact-real lanes, every build.
-/

set_option linter.all false

namespace DXM.Props
open DXM.E DXM.Spec Matrix

/-! ### C22 horizontal sum -/

theorem C22_sum (c : Cfg) (a : Fin 4 → ℝ) : XMVectorSum c (vec4 a) = all (∑ i, a i) := by
  simp [Fin.sum_univ_four]
example (c : Cfg) : XMVectorSum c (vec4 ![1, 2, 3, 4]) = all 10 := by rw [C22_sum]; simp [Fin.sum_univ_four]; norm_num

/-! ### C23 dot products: only the leading lanes matter -/

theorem C23_dot2 (c : Cfg) (a b : Fin 2 → ℝ) (p q r s : E) :
    XMVector2Dot c (vec2 a p q) (vec2 b r s) = all (a ⬝ᵥ b) := by simp [dot2]
theorem C23_dot3 (c : Cfg) (a b : Fin 3 → ℝ) (p q : E) :
    XMVector3Dot c (vec3 a p) (vec3 b q) = all (a ⬝ᵥ b) := by simp [dot3]
theorem C23_dot4 (c : Cfg) (a b : Fin 4 → ℝ) : XMVector4Dot c (vec4 a) (vec4 b) = all (a ⬝ᵥ b) := by simp [dot4]
/-- Symmetry and bilinearity, at the level of the API. -/
theorem C23_dot3_bilinear (c : Cfg) (a a' b : Fin 3 → ℝ) (k : ℝ) (p q r : E) :
    XMVector3Dot c (vec3 a p) (vec3 b q) = XMVector3Dot c (vec3 b q) (vec3 a p) ∧
    XMVector3Dot c (vec3 (a + k • a') p) (vec3 b q) =
      XMVectorAdd (XMVector3Dot c (vec3 a p) (vec3 b q)) (XMVectorScale c (XMVector3Dot c (vec3 a' r) (vec3 b q)) (num k)) := by
  constructor <;> simp <;> ring
theorem C23_dot2_bilinear (c : Cfg) (a a' b : Fin 2 → ℝ) (k : ℝ) (p q r s t u : E) :
    XMVector2Dot c (vec2 a p q) (vec2 b r s) = XMVector2Dot c (vec2 b r s) (vec2 a p q) ∧
    XMVector2Dot c (vec2 (a + k • a') p q) (vec2 b r s) =
      XMVectorAdd (XMVector2Dot c (vec2 a p q) (vec2 b r s)) (XMVectorScale c (XMVector2Dot c (vec2 a' t u) (vec2 b r s)) (num k)) := by
  constructor <;> simp <;> ring
theorem C23_dot4_bilinear (c : Cfg) (a a' b : Fin 4 → ℝ) (k : ℝ) :
    XMVector4Dot c (vec4 a) (vec4 b) = XMVector4Dot c (vec4 b) (vec4 a) ∧
    XMVector4Dot c (vec4 (a + k • a')) (vec4 b) =
      XMVectorAdd (XMVector4Dot c (vec4 a) (vec4 b)) (XMVectorScale c (XMVector4Dot c (vec4 a') (vec4 b)) (num k)) := by
  constructor <;> simp <;> ring
-- a NaN in the unused lane does not matter
example (c : Cfg) : XMVector3Dot c (vec3 ![1, 2, 3] nan) (vec3 ![4, 5, 6] posInf) = all 32 := by
  rw [C23_dot3, dot3]; simp; norm_num

/-! ### C24 cross products -/

theorem C24_cross3 (c : Cfg) (a b : Fin 3 → ℝ) (p q : E) :
    XMVector3Cross c (vec3 a p) (vec3 b q) = vec3 (crossProduct a b) (num 0) := by simp [cross_apply]
/-- Orthogonality, antisymmetry and Lagrange's identity of the returned vector. -/
theorem C24_cross3_laws (c : Cfg) (a b : Fin 3 → ℝ) (p q : E) :
    XMVector3Dot c (vec3 a p) (XMVector3Cross c (vec3 a p) (vec3 b q)) = all 0 ∧
    XMVector3Dot c (vec3 b q) (XMVector3Cross c (vec3 a p) (vec3 b q)) = all 0 ∧
    XMVector3Cross c (vec3 a p) (vec3 b q) = XMVectorNegate c (XMVector3Cross c (vec3 b q) (vec3 a p)) ∧
    XMVector3LengthSq c (XMVector3Cross c (vec3 a p) (vec3 b q)) = all ((a ⬝ᵥ a) * (b ⬝ᵥ b) - (a ⬝ᵥ b) ^ 2) := by
  refine ⟨?_, ?_, ?_, ?_⟩ <;> simp [dot3] <;> ring_nf <;> simp
theorem C24_cross2 (c : Cfg) (a b : Fin 2 → ℝ) (p q r s : E) :
    XMVector2Cross c (vec2 a p q) (vec2 b r s) = all (Matrix.det (Matrix.of ![a, b])) := by
  simp [Matrix.det_fin_two]
/-- The 4-D cross product is the vector `r` with `x · r = det (x; a; b; d)` for every `x`. -/
theorem C24_cross4 (c : Cfg) (a b d : Fin 4 → ℝ) :
    ∃ r, XMVector4Cross c (vec4 a) (vec4 b) (vec4 d) = vec4 r ∧ ∀ x, x ⬝ᵥ r = Matrix.det (Matrix.of ![x, a, b, d]) := by
  refine ⟨fun i => Matrix.det (Matrix.of ![Pi.single i 1, a, b, d]), ?_, fun x => ?_⟩
  · simp [Matrix.det_succ_row_zero, Fin.sum_univ_succ, Matrix.submatrix, Fin.succAbove]
    refine ⟨?_, ?_, ?_, ?_⟩ <;> ring
  · simp [dot4, Matrix.det_succ_row_zero, Fin.sum_univ_succ, Matrix.submatrix, Fin.succAbove]
    ring
/-- Hence it is orthogonal to its three inputs. -/
theorem C24_cross4_orthogonal (c : Cfg) (a b d : Fin 4 → ℝ) :
    XMVector4Dot c (vec4 a) (XMVector4Cross c (vec4 a) (vec4 b) (vec4 d)) = all 0 ∧
    XMVector4Dot c (vec4 b) (XMVector4Cross c (vec4 a) (vec4 b) (vec4 d)) = all 0 ∧
    XMVector4Dot c (vec4 d) (XMVector4Cross c (vec4 a) (vec4 b) (vec4 d)) = all 0 := by
  refine ⟨?_, ?_, ?_⟩ <;> simp <;> ring
-- x × y = z, and e1 × e2 × e3 = -e4 or e4 (here -e4)
example (c : Cfg) : XMVector3Cross c (vec3 ![1, 0, 0] nan) (vec3 ![0, 1, 0] nan) = vec3 ![0, 0, 1] (num 0) := by
  rw [C24_cross3]; simp [cross_apply]
example (c : Cfg) : XMVector4Cross c (vec4 ![1, 0, 0, 0]) (vec4 ![0, 1, 0, 0]) (vec4 ![0, 0, 1, 0]) = vec4 ![0, 0, 0, -1] := by
  simp

/-! ### C25 lengths -/

theorem C25_lengthSq2 (c : Cfg) (a : Fin 2 → ℝ) (p q : E) : XMVector2LengthSq c (vec2 a p q) = all (a ⬝ᵥ a) := by simp [dot2]
theorem C25_lengthSq3 (c : Cfg) (a : Fin 3 → ℝ) (p : E) : XMVector3LengthSq c (vec3 a p) = all (a ⬝ᵥ a) := by simp [dot3]
theorem C25_lengthSq4 (c : Cfg) (a : Fin 4 → ℝ) : XMVector4LengthSq c (vec4 a) = all (a ⬝ᵥ a) := by simp [dot4]
theorem C25_length2 (c : Cfg) (a : Fin 2 → ℝ) (p q : E) : XMVector2Length c (vec2 a p q) = all (len a) := by simp [dot2, len]
theorem C25_length3 (c : Cfg) (a : Fin 3 → ℝ) (p : E) : XMVector3Length c (vec3 a p) = all (len a) := by simp [dot3, len]
theorem C25_length4 (c : Cfg) (a : Fin 4 → ℝ) : XMVector4Length c (vec4 a) = all (len a) := by simp [dot4, len]
theorem C25_reciprocalLength2 (c : Cfg) (a : Fin 2 → ℝ) (p q : E) (h : a ≠ 0) :
    XMVector2ReciprocalLength c (vec2 a p q) = all (1 / len a) := by
  have := (dot_self_pos h).ne'; rw [dot2] at this
  simp [XMVector2ReciprocalLength_num, this, len, dot2]
theorem C25_reciprocalLength3 (c : Cfg) (a : Fin 3 → ℝ) (p : E) (h : a ≠ 0) :
    XMVector3ReciprocalLength c (vec3 a p) = all (1 / len a) := by
  have := (dot_self_pos h).ne'; rw [dot3] at this
  simp [XMVector3ReciprocalLength_num, this, len, dot3]
theorem C25_reciprocalLength4 (c : Cfg) (a : Fin 4 → ℝ) (h : a ≠ 0) :
    XMVector4ReciprocalLength c (vec4 a) = all (1 / len a) := by
  have := (dot_self_pos h).ne'; rw [dot4] at this
  simp [XMVector4ReciprocalLength_num, this, len, dot4]
example (c : Cfg) : XMVector2Length c (vec2 ![3, 4] nan ones) = all 5 := by
  rw [C25_length2, len, dot2]; simp; norm_num [sqrt25]
example (c : Cfg) : XMVector2ReciprocalLength c (vec2 ![3, 4] nan ones) = all (1 / 5) := by
  rw [C25_reciprocalLength2 c _ _ _ (by intro h; simpa using congrFun h 0), len, dot2]
  simp; norm_num [sqrt25]

/-! ### C26 normalize -/

theorem C26_normalize2 (c : Cfg) (a : Fin 2 → ℝ) (p q : E) (h : a ≠ 0) :
    Is2 (XMVector2Normalize c (vec2 a p q)) ((len a)⁻¹ • a) ∧ 0 < (len a)⁻¹ ∧ len ((len a)⁻¹ • a) = 1 := by
  have h' := dot_self_pos h; rw [dot2] at h'
  refine ⟨(is2_iff _ _).2 ?_, inv_pos.2 (len_pos h), len_unit h⟩
  simp [XMVector2Normalize_num, h', len, dot2, div_eq_inv_mul]
theorem C26_normalize3 (c : Cfg) (a : Fin 3 → ℝ) (p : E) (h : a ≠ 0) :
    Is3 (XMVector3Normalize c (vec3 a p)) ((len a)⁻¹ • a) ∧ 0 < (len a)⁻¹ ∧ len ((len a)⁻¹ • a) = 1 := by
  have h' := dot_self_pos h; rw [dot3] at h'
  refine ⟨(is3_iff _ _).2 ?_, inv_pos.2 (len_pos h), len_unit h⟩
  simp [XMVector3Normalize_num, h', len, dot3, div_eq_inv_mul]
theorem C26_normalize4 (c : Cfg) (a : Fin 4 → ℝ) (h : a ≠ 0) :
    XMVector4Normalize c (vec4 a) = vec4 ((len a)⁻¹ • a) ∧ 0 < (len a)⁻¹ ∧ len ((len a)⁻¹ • a) = 1 := by
  have h' := dot_self_pos h; rw [dot4] at h'
  refine ⟨?_, inv_pos.2 (len_pos h), len_unit h⟩
  simp [XMVector4Normalize_num, h', len, dot4, div_eq_inv_mul]
/-- The zero vector is sent to the zero vector. -/
theorem C26_normalize_zero (c : Cfg) (p q : E) :
    Is2 (XMVector2Normalize c (vec2 0 p q)) 0 ∧ Is3 (XMVector3Normalize c (vec3 0 p)) 0 ∧
    XMVector4Normalize c (vec4 0) = vec4 0 := by
  refine ⟨(is2_iff _ _).2 ?_, (is3_iff _ _).2 ?_, ?_⟩
  · simp [XMVector2Normalize_zero]
  · simp [XMVector3Normalize_zero]
  · simp [XMVector4Normalize_zero]
/-- Normalizing twice is normalizing once. -/
theorem C26_normalize_idempotent (c : Cfg) (a2 : Fin 2 → ℝ) (a3 : Fin 3 → ℝ) (a4 : Fin 4 → ℝ) (p q : E) :
    (∃ r, Is2 (XMVector2Normalize c (vec2 a2 p q)) r ∧ Is2 (XMVector2Normalize c (XMVector2Normalize c (vec2 a2 p q))) r) ∧
    (∃ r, Is3 (XMVector3Normalize c (vec3 a3 p)) r ∧ Is3 (XMVector3Normalize c (XMVector3Normalize c (vec3 a3 p))) r) ∧
    XMVector4Normalize c (XMVector4Normalize c (vec4 a4)) = XMVector4Normalize c (vec4 a4) := by
  have unit {n : ℕ} {a : Fin n → ℝ} (h : len a = 1) : a ≠ 0 := by
    rintro rfl; simp [len] at h
  refine ⟨?_, ?_, ?_⟩
  · by_cases h : a2 = 0
    · subst h; obtain ⟨z, w, hz⟩ := (C26_normalize_zero c p q).1
      exact ⟨0, ⟨z, w, hz⟩, hz ▸ (C26_normalize_zero c z w).1⟩
    · obtain ⟨⟨z, w, hz⟩, -, h1⟩ := C26_normalize2 c a2 p q h
      refine ⟨_, ⟨z, w, hz⟩, ?_⟩
      have := (C26_normalize2 c _ z w (unit h1)).1
      rwa [h1, inv_one, one_smul, ← hz] at this
  · by_cases h : a3 = 0
    · subst h; obtain ⟨w, hz⟩ := (C26_normalize_zero c p q).2.1
      exact ⟨0, ⟨w, hz⟩, hz ▸ (C26_normalize_zero c w q).2.1⟩
    · obtain ⟨⟨w, hz⟩, -, h1⟩ := C26_normalize3 c a3 p h
      refine ⟨_, ⟨w, hz⟩, ?_⟩
      have := (C26_normalize3 c _ w (unit h1)).1
      rwa [h1, inv_one, one_smul, ← hz] at this
  · by_cases h : a4 = 0
    · subst h; rw [(C26_normalize_zero c p q).2.2, (C26_normalize_zero c p q).2.2]
    · obtain ⟨hz, -, h1⟩ := C26_normalize4 c a4 h
      rw [hz, (C26_normalize4 c _ (unit h1)).1, h1, inv_one, one_smul]
example (c : Cfg) : Is2 (XMVector2Normalize c (vec2 ![3, 4] nan ones)) ![3 / 5, 4 / 5] := by
  have h := (C26_normalize2 c ![3, 4] nan ones (by intro h; simpa using congrFun h 0)).1
  have e : len ![3, (4:ℝ)] = 5 := by rw [len, dot2]; simp; norm_num [sqrt25]
  rw [e] at h; convert h using 1; ext i; fin_cases i <;> norm_num

/-! ### C27 clamp length -/

/-- What ClampLength must return for the vector `a`: `a` itself if its length is in range, otherwise the vector with the
same direction and the nearest admissible length (a zero vector has no direction and stays zero). -/
def ClampSpec {n : ℕ} (lo hi : ℝ) (a r : Fin n → ℝ) : Prop :=
  (lo ≤ len a ∧ len a ≤ hi → r = a) ∧
  (len a < lo → a ≠ 0 → len r = lo ∧ ∃ k : ℝ, 0 < k ∧ r = k • a) ∧
  (hi < len a → len r = hi ∧ ∃ k : ℝ, 0 ≤ k ∧ r = k • a) ∧
  (a = 0 → r = 0)

theorem clampSpec_of {n : ℕ} {lo hi : ℝ} (h0 : 0 ≤ lo) (h : lo ≤ hi) {a : Fin n → ℝ} (ha : a ≠ 0) :
    ClampSpec lo hi a ((if len a < lo then lo / len a else if hi < len a then hi / len a else 1) • a) := by
  have hp := len_pos ha
  refine ⟨?_, ?_, ?_, fun h => absurd h ha⟩
  · rintro ⟨h1, h2⟩; simp [not_lt.2 h1, not_lt.2 h2]
  · intro h1 _
    rw [if_pos h1]
    have : 0 < lo := hp.trans h1
    exact ⟨by rw [len_smul, abs_of_pos (div_pos this hp), div_mul_cancel₀ _ hp.ne'], _, div_pos this hp, rfl⟩
  · intro h1
    rw [if_neg (not_lt.2 (h.trans h1.le)), if_pos h1]
    have : 0 ≤ hi := h0.trans h
    exact ⟨by rw [len_smul, abs_of_nonneg (div_nonneg this hp.le), div_mul_cancel₀ _ hp.ne'], _, div_nonneg this hp.le, rfl⟩
theorem clampSpec_zero {n : ℕ} {lo hi : ℝ} (h0 : 0 ≤ lo) (h : lo ≤ hi) : ClampSpec lo hi (0 : Fin n → ℝ) 0 := by
  have : len (0 : Fin n → ℝ) = 0 := by simp [len]
  refine ⟨fun _ => rfl, fun _ h => absurd rfl h, fun h1 => ?_, fun _ => rfl⟩
  rw [this] at h1; linarith

theorem C27_clampLength2 (c : Cfg) (a : Fin 2 → ℝ) (p q : E) (lo hi : ℝ) (h0 : 0 ≤ lo) (h : lo ≤ hi) :
    ∃ r, Is2 (XMVector2ClampLength c (vec2 a p q) (num lo) (num hi)) r ∧ ClampSpec lo hi a r := by
  by_cases ha : a = 0
  · subst ha
    refine ⟨0, (is2_iff _ _).2 ?_, clampSpec_zero h0 h⟩
    simp [XMVector2ClampLength, XMVector2ClampLengthV, clampLengthBody_zero, h0, h]
  · refine ⟨_, (is2_iff _ _).2 ?_, clampSpec_of h0 h ha⟩
    have h' := dot_self_pos ha; rw [dot2] at h'
    simp [XMVector2ClampLength, XMVector2ClampLengthV, clampLengthBody_pos, h', h, len, dot2, -mul_ite, mul_comm]
theorem C27_clampLength3 (c : Cfg) (a : Fin 3 → ℝ) (p : E) (lo hi : ℝ) (h0 : 0 ≤ lo) (h : lo ≤ hi) :
    ∃ r, Is3 (XMVector3ClampLength c (vec3 a p) (num lo) (num hi)) r ∧ ClampSpec lo hi a r := by
  by_cases ha : a = 0
  · subst ha
    refine ⟨0, (is3_iff _ _).2 ?_, clampSpec_zero h0 h⟩
    simp [XMVector3ClampLength, XMVector3ClampLengthV, clampLengthBody_zero, h0, h]
  · refine ⟨_, (is3_iff _ _).2 ?_, clampSpec_of h0 h ha⟩
    have h' := dot_self_pos ha; rw [dot3] at h'
    simp [XMVector3ClampLength, XMVector3ClampLengthV, clampLengthBody_pos, h', h, len, dot3, -mul_ite, mul_comm]
theorem C27_clampLength4 (c : Cfg) (a : Fin 4 → ℝ) (lo hi : ℝ) (h0 : 0 ≤ lo) (h : lo ≤ hi) :
    ∃ r, XMVector4ClampLength c (vec4 a) (num lo) (num hi) = vec4 r ∧ ClampSpec lo hi a r := by
  by_cases ha : a = 0
  · subst ha
    refine ⟨0, ?_, clampSpec_zero h0 h⟩
    simp [XMVector4ClampLength, XMVector4ClampLengthV, clampLengthBody_zero, h0, h]
  · refine ⟨_, ?_, clampSpec_of h0 h ha⟩
    have h' := dot_self_pos ha; rw [dot4] at h'
    simp [XMVector4ClampLength, XMVector4ClampLengthV, clampLengthBody_pos, h', h, len, dot4, -mul_ite, mul_comm]
-- (3,4) clamped to [1,2] has length 2
example (c : Cfg) : ∃ r, Is2 (XMVector2ClampLength c (vec2 ![3, 4] nan ones) (num 1) (num 2)) r ∧ len r = 2 := by
  obtain ⟨r, h, hs⟩ := C27_clampLength2 c ![3, 4] nan ones 1 2 (by norm_num) (by norm_num)
  have e : len ![3, (4:ℝ)] = 5 := by rw [len, dot2]; simp; norm_num [sqrt25]
  exact ⟨r, h, (hs.2.2.1 (by rw [e]; norm_num)).1⟩

/-! ### C28 reflect -/

theorem C28_reflect2 (c : Cfg) (i n : Fin 2 → ℝ) (p q r s : E) :
    Is2 (XMVector2Reflect c (vec2 i p q) (vec2 n r s)) (i - (2 * (i ⬝ᵥ n)) • n) := by
  refine (is2_iff _ _).2 ?_; simp [dot2]
theorem C28_reflect3 (c : Cfg) (i n : Fin 3 → ℝ) (p q : E) :
    Is3 (XMVector3Reflect c (vec3 i p) (vec3 n q)) (i - (2 * (i ⬝ᵥ n)) • n) := by
  refine (is3_iff _ _).2 ?_; simp [dot3]
theorem C28_reflect4 (c : Cfg) (i n : Fin 4 → ℝ) :
    XMVector4Reflect c (vec4 i) (vec4 n) = vec4 (i - (2 * (i ⬝ᵥ n)) • n) := by
  simp [dot4]
/-- For a unit normal the reflection preserves length, flips the normal component and undoes itself. -/
theorem C28_reflect_laws {k : ℕ} (i n : Fin k → ℝ) (hn : n ⬝ᵥ n = 1) :
    len (i - (2 * (i ⬝ᵥ n)) • n) = len i ∧ (i - (2 * (i ⬝ᵥ n)) • n) ⬝ᵥ n = - (i ⬝ᵥ n) ∧
    (i - (2 * (i ⬝ᵥ n)) • n) - (2 * ((i - (2 * (i ⬝ᵥ n)) • n) ⬝ᵥ n)) • n = i := by
  have h1 : (i - (2 * (i ⬝ᵥ n)) • n) ⬝ᵥ n = - (i ⬝ᵥ n) := by
    rw [sub_dotProduct, smul_dotProduct, hn, smul_eq_mul]; ring
  refine ⟨?_, h1, ?_⟩
  · unfold len; congr 1
    simp only [sub_dotProduct, dotProduct_sub, smul_dotProduct, dotProduct_smul, hn, smul_eq_mul, dotProduct_comm n i]; ring
  · rw [h1]; ext j; simp; 
theorem C28_reflect3_involution (c : Cfg) (i n : Fin 3 → ℝ) (p q : E) (hn : n ⬝ᵥ n = 1) :
    Is3 (XMVector3Reflect c (XMVector3Reflect c (vec3 i p) (vec3 n q)) (vec3 n q)) i := by
  obtain ⟨w, h⟩ := C28_reflect3 c i n p q
  rw [h]; have := C28_reflect3 c (i - (2 * (i ⬝ᵥ n)) • n) n w q
  rwa [(C28_reflect_laws i n hn).2.2] at this
theorem C28_reflect2_involution (c : Cfg) (i n : Fin 2 → ℝ) (p q r s : E) (hn : n ⬝ᵥ n = 1) :
    Is2 (XMVector2Reflect c (XMVector2Reflect c (vec2 i p q) (vec2 n r s)) (vec2 n r s)) i := by
  obtain ⟨z, w, h⟩ := C28_reflect2 c i n p q r s
  rw [h]; have := C28_reflect2 c (i - (2 * (i ⬝ᵥ n)) • n) n z w r s
  rwa [(C28_reflect_laws i n hn).2.2] at this
theorem C28_reflect4_involution (c : Cfg) (i n : Fin 4 → ℝ) (hn : n ⬝ᵥ n = 1) :
    XMVector4Reflect c (XMVector4Reflect c (vec4 i) (vec4 n)) (vec4 n) = vec4 i := by
  rw [C28_reflect4, C28_reflect4, (C28_reflect_laws i n hn).2.2]
example (c : Cfg) : Is3 (XMVector3Reflect c (vec3 ![1, -1, 0] nan) (vec3 ![0, 1, 0] nan)) ![1, 1, 0] := by
  convert C28_reflect3 c ![1, -1, 0] ![0, 1, 0] nan nan using 1
  rw [dot3]; ext j; fin_cases j <;> simp <;> norm_num

/-! ### C30 orthogonal vectors -/

theorem C30_orthogonal2 (c : Cfg) (a : Fin 2 → ℝ) (p q : E) :
    ∃ r, Is2 (XMVector2Orthogonal c (vec2 a p q)) r ∧ r ⬝ᵥ a = 0 ∧ len r = len a ∧ (a ≠ 0 → r ≠ 0) := by
  refine ⟨![-a 1, a 0], (is2_iff _ _).2 ?_, ?_, ?_, ?_⟩
  · simp
  · rw [dot2]; simp; ring
  · simp [len, dot2, add_comm]
  · intro h hr; apply h; ext i
    have h0 := congrFun hr 0; have h1 := congrFun hr 1
    simp at h0 h1; fin_cases i <;> simp [h0, h1]
theorem C30_orthogonal3 (c : Cfg) (a : Fin 3 → ℝ) (p : E) :
    ∃ r, Is3 (XMVector3Orthogonal c (vec3 a p)) r ∧ r ⬝ᵥ a = 0 ∧ (a ≠ 0 → r ≠ 0) := by
  by_cases hs : (a 2 < 0 ↔ a 1 < 0)
  · refine ⟨![a 1 + a 2, -a 0, -a 0], (is3_iff _ _).2 ?_, ?_, ?_⟩
    · simp [hs]
    · rw [dot3]; simp; ring
    · intro h hr; apply h
      have h0 := congrFun hr 0; have h1 := congrFun hr 1
      simp at h0 h1
      have h2 : a 1 = 0 ∧ a 2 = 0 := by
        by_cases hn : a 1 < 0
        · have := hs.2 hn; constructor <;> linarith
        · have := mt hs.1 hn; constructor <;> linarith
      ext i; fin_cases i <;> simp [h1, h2]
  · refine ⟨![a 1 - a 2, -a 0, a 0], (is3_iff _ _).2 ?_, ?_, ?_⟩
    · simp [hs]
    · rw [dot3]; simp; ring
    · intro h hr
      have h0 := congrFun hr 0
      simp at h0
      exact hs (by rw [show a 1 = a 2 by linarith])
theorem C30_orthogonal4 (c : Cfg) (a : Fin 4 → ℝ) :
    ∃ r, XMVector4Orthogonal c (vec4 a) = vec4 r ∧ r ⬝ᵥ a = 0 ∧ len r = len a ∧ (a ≠ 0 → r ≠ 0) := by
  refine ⟨![a 2, a 3, -a 0, -a 1], ?_, ?_, ?_, ?_⟩
  · simp
  · rw [dot4]; simp; ring
  · simp only [len, dot4]; congr 1; simp; ring
  · intro h hr; apply h; ext i
    have h0 := congrFun hr 0; have h1 := congrFun hr 1; have h2 := congrFun hr 2; have h3 := congrFun hr 3
    simp at h0 h1 h2 h3; fin_cases i <;> simp [h0, h1, h2, h3]
-- the two branches of the 3-D version
example (c : Cfg) : Is3 (XMVector3Orthogonal c (vec3 ![1, 2, 3] nan)) ![5, -1, -1] := by
  refine (is3_iff _ _).2 ?_; simp <;> norm_num
example (c : Cfg) : Is3 (XMVector3Orthogonal c (vec3 ![0, 2, -2] nan)) ![4, 0, 0] := by
  refine (is3_iff _ _).2 ?_; simp <;> norm_num

/-! ### C31 components from normal -/

theorem C31_componentsFromNormal (c : Cfg) (v n : Fin 3 → ℝ) (p q : E) (hn : n ⬝ᵥ n = 1) :
    ∃ par perp, Is3 (XMVector3ComponentsFromNormal c (vec3 v p) (vec3 n q)).1 par ∧
      Is3 (XMVector3ComponentsFromNormal c (vec3 v p) (vec3 n q)).2 perp ∧
      par + perp = v ∧ (∃ k : ℝ, par = k • n) ∧ perp ⬝ᵥ n = 0 := by
  refine ⟨(v ⬝ᵥ n) • n, v - (v ⬝ᵥ n) • n, (is3_iff _ _).2 ?_, (is3_iff _ _).2 ?_, by simp, ⟨_, rfl⟩, ?_⟩
  · simp [XMVector3ComponentsFromNormal, dot3, mul_comm (n _) (_ + _)]
  · simp [XMVector3ComponentsFromNormal, dot3, mul_comm (n _) (_ + _)]
  · rw [sub_dotProduct, smul_dotProduct, hn]; simp
example : (![3 / 5, 0, 4 / 5] : Fin 3 → ℝ) ⬝ᵥ ![3 / 5, 0, 4 / 5] = 1 := by rw [dot3]; simp; norm_num

/-! ### C32 distance from a point to a line -/

theorem foot_nearest {n : ℕ} (a d : Fin n → ℝ) (hd : d ≠ 0) (t : ℝ) :
    len (a - ((a ⬝ᵥ d) / (d ⬝ᵥ d)) • d) ≤ len (a - t • d) := by
  have h := dot_self_pos hd
  apply Real.sqrt_le_sqrt
  simp only [sub_dotProduct, dotProduct_sub, smul_dotProduct, dotProduct_smul, smul_eq_mul, dotProduct_comm d a]
  rw [← sub_nonneg]
  have : a ⬝ᵥ a - t * a ⬝ᵥ d - t * (a ⬝ᵥ d - t * d ⬝ᵥ d) -
      (a ⬝ᵥ a - a ⬝ᵥ d / d ⬝ᵥ d * a ⬝ᵥ d - a ⬝ᵥ d / d ⬝ᵥ d * (a ⬝ᵥ d - a ⬝ᵥ d / d ⬝ᵥ d * d ⬝ᵥ d)) =
      (d ⬝ᵥ d) * (t - a ⬝ᵥ d / d ⬝ᵥ d) ^ 2 := by field_simp; ring
  rw [this]; positivity

theorem C32_linePointDistance3 (c : Cfg) (p1 p2 x : Fin 3 → ℝ) (p q r : E) (h : p1 ≠ p2) :
    ∃ d, XMVector3LinePointDistance c (vec3 p1 p) (vec3 p2 q) (vec3 x r) = all d ∧
      (∃ t : ℝ, d = len (x - (p1 + t • (p2 - p1)))) ∧ ∀ t : ℝ, d ≤ len (x - (p1 + t • (p2 - p1))) := by
  have hd : p2 - p1 ≠ 0 := sub_ne_zero.2 h.symm
  have h' := dot_self_pos hd; rw [dot3] at h'; simp at h'
  refine ⟨len ((x - p1) - (((x - p1) ⬝ᵥ (p2 - p1)) / ((p2 - p1) ⬝ᵥ (p2 - p1))) • (p2 - p1)), ?_, ⟨_, by rw [sub_sub]⟩, fun t => ?_⟩
  · simp only [len, dot3]; simp [XMVector3LinePointDistance, div_num, h'.ne', mul_comm (_ - _) (_ / _)]
  · rw [← sub_sub]; exact foot_nearest _ _ hd t
theorem C32_linePointDistance2 (c : Cfg) (p1 p2 x : Fin 2 → ℝ) (p q r s t u : E) (h : p1 ≠ p2) :
    ∃ d, XMVector2LinePointDistance c (vec2 p1 p q) (vec2 p2 r s) (vec2 x t u) = all d ∧
      (∃ t : ℝ, d = len (x - (p1 + t • (p2 - p1)))) ∧ ∀ t : ℝ, d ≤ len (x - (p1 + t • (p2 - p1))) := by
  have hd : p2 - p1 ≠ 0 := sub_ne_zero.2 h.symm
  have h' := dot_self_pos hd; rw [dot2] at h'; simp at h'
  refine ⟨len ((x - p1) - (((x - p1) ⬝ᵥ (p2 - p1)) / ((p2 - p1) ⬝ᵥ (p2 - p1))) • (p2 - p1)), ?_, ⟨_, by rw [sub_sub]⟩, fun t => ?_⟩
  · simp only [len, dot2]; simp [XMVector2LinePointDistance, div_num, h'.ne', mul_comm (_ - _) (_ / _)]
  · rw [← sub_sub]; exact foot_nearest _ _ hd t
-- the point (0,3) is at distance 3 from the x axis
example (c : Cfg) : XMVector2LinePointDistance c (vec2 ![0, 0] nan nan) (vec2 ![1, 0] nan nan) (vec2 ![0, 3] nan nan) = all 3 := by
  simp [XMVector2LinePointDistance, div_num]

end DXM.Props
