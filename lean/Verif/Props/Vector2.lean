import Mathlib.Analysis.Calculus.Deriv.Pow
import Mathlib.Analysis.Calculus.Deriv.Mul
import Mathlib.Analysis.Calculus.Deriv.Add
import Verif.Lemmas.SpecSimp

/-
C29, C33, C34, C36: refraction, 2-D line intersection, interpolation, transforms on exact-real lanes, every build.
-/

set_option linter.all false

namespace DXM.Props
open DXM.E DXM.Spec Matrix

/-! ### C29 refraction -/

/-- Snell's law: `t` is a unit vector on the far side of the surface whose tangential part is `r` times the incident one. -/
def Snell {k : ℕ} (r : ℝ) (i n t : Fin k → ℝ) : Prop :=
  t ⬝ᵥ t = 1 ∧ t ⬝ᵥ n ≤ 0 ∧ t - (t ⬝ᵥ n) • n = r • (i - (i ⬝ᵥ n) • n)

/-- Negative under total internal reflection. -/
def snellDisc {k : ℕ} (r : ℝ) (i n : Fin k → ℝ) : ℝ := 1 - r ^ 2 * (1 - (i ⬝ᵥ n) ^ 2)

theorem snell_of {k : ℕ} (r : ℝ) (i n : Fin k → ℝ) (hi : i ⬝ᵥ i = 1) (hn : n ⬝ᵥ n = 1) (h : 0 ≤ snellDisc r i n) :
    Snell r i n (r • i - (r * (i ⬝ᵥ n) + √(snellDisc r i n)) • n) := by
  have hs := Real.mul_self_sqrt h
  have e : (r • i - (r * (i ⬝ᵥ n) + √(snellDisc r i n)) • n) ⬝ᵥ n = - √(snellDisc r i n) := by
    rw [sub_dotProduct, smul_dotProduct, smul_dotProduct, hn, smul_eq_mul, smul_eq_mul]; ring
  refine ⟨?_, ?_, ?_⟩
  · simp only [sub_dotProduct, dotProduct_sub, smul_dotProduct, dotProduct_smul, smul_eq_mul, hi, hn, dotProduct_comm n i]
    have : snellDisc r i n = 1 - r ^ 2 * (1 - (i ⬝ᵥ n) ^ 2) := rfl
    linear_combination hs + this
  · rw [e]; simp [Real.sqrt_nonneg]
  · rw [e]; ext j; simp; ring

theorem C29_refract3 (c : Cfg) (i n : Fin 3 → ℝ) (r : ℝ) (p q : E) (hi : i ⬝ᵥ i = 1) (hn : n ⬝ᵥ n = 1) :
    (snellDisc r i n ≤ 0 → XMVector3Refract c (vec3 i p) (vec3 n q) (num r) = all 0) ∧
    (0 < snellDisc r i n → ∃ t, Is3 (XMVector3Refract c (vec3 i p) (vec3 n q) (num r)) t ∧ Snell r i n t) := by
  have e1 : 1 - (1 - (i ⬝ᵥ n) * (i ⬝ᵥ n)) * (r * r) = snellDisc r i n := by rw [snellDisc]; ring
  have e2 : 1 - (1 - (i ⬝ᵥ n) * (i ⬝ᵥ n)) * r * r = snellDisc r i n := by rw [snellDisc]; ring
  rw [dot3] at e1 e2
  constructor
  · intro h
    simp [XMVector3Refract, XMVector3RefractV, refractBody, e1, e2, h, XMVector4LessOrEqual]
  · intro h
    refine ⟨_, (is3_iff _ _).2 ?_, snell_of r i n hi hn h.le⟩
    simp [XMVector3Refract, XMVector3RefractV, refractBody, e1, e2, not_le.2 h, XMVector4LessOrEqual, sqrt_num, h.le, dot3]
    split_ifs <;> simp [mul_comm (n _)]
theorem C29_refract4 (c : Cfg) (i n : Fin 4 → ℝ) (r : ℝ) (hi : i ⬝ᵥ i = 1) (hn : n ⬝ᵥ n = 1) :
    (snellDisc r i n ≤ 0 → XMVector4Refract c (vec4 i) (vec4 n) (num r) = all 0) ∧
    (0 < snellDisc r i n → ∃ t, XMVector4Refract c (vec4 i) (vec4 n) (num r) = vec4 t ∧ Snell r i n t) := by
  have e1 : 1 - (1 - (i ⬝ᵥ n) * (i ⬝ᵥ n)) * (r * r) = snellDisc r i n := by rw [snellDisc]; ring
  have e2 : 1 - (1 - (i ⬝ᵥ n) * (i ⬝ᵥ n)) * r * r = snellDisc r i n := by rw [snellDisc]; ring
  rw [dot4] at e1 e2
  constructor
  · intro h
    simp [XMVector4Refract, XMVector4RefractV, refractBody, e1, e2, h, XMVector4LessOrEqual]
  · intro h
    refine ⟨_, ?_, snell_of r i n hi hn h.le⟩
    simp [XMVector4Refract, XMVector4RefractV, refractBody, e1, e2, not_le.2 h, XMVector4LessOrEqual, sqrt_num, h.le, dot4]
    intro _; simp [mul_comm (n _)]

/-- Full statement of the 2-D case: all builds return the same first two lanes. -/
def C29_refract2_agree : Prop :=
  ∀ (c c' : Cfg) (i n : Fin 2 → ℝ) (r : ℝ) (p q s u : E), i ⬝ᵥ i = 1 → n ⬝ᵥ n = 1 →
    ∀ t, Is2 (XMVector2Refract c (vec2 i p q) (vec2 n s u) (num r)) t → Is2 (XMVector2Refract c' (vec2 i p q) (vec2 n s u) (num r)) t

/-- It fails at the critical angle: the SSE build returns zero, the build without intrinsics the grazing ray. -/
theorem C29_refract2_agree_fails : ¬ C29_refract2_agree := by
  intro h
  have h1 : Is2 (XMVector2Refract Cfg.noIntrinsics (vec2 ![1, 0] (num 0) (num 0)) (vec2 ![0, 1] (num 0) (num 0)) (num 1)) ![1, 0] := by
    rw [is2_iff]
    simp [XMVector2Refract, XMVector2RefractV, Cfg.noIntrinsics, refractLane, sqrt_num]
  have h2 := h Cfg.noIntrinsics Cfg.sse2 ![1, 0] ![0, 1] 1 (num 0) (num 0) (num 0) (num 0)
    (by rw [dot2]; simp) (by rw [dot2]; simp) _ h1
  rw [is2_iff] at h2
  simp [XMVector2Refract, XMVector2RefractV, Cfg.sse2] at h2

/-- The 2-D case away from the critical angle; what is missing at the critical angle is agreement between builds. -/
theorem C29_refract2_partial (c : Cfg) (i n : Fin 2 → ℝ) (r : ℝ) (p q s u : E) (hi : i ⬝ᵥ i = 1) (hn : n ⬝ᵥ n = 1) :
    (snellDisc r i n < 0 → Is2 (XMVector2Refract c (vec2 i p q) (vec2 n s u) (num r)) 0) ∧
    (0 < snellDisc r i n → ∃ t, Is2 (XMVector2Refract c (vec2 i p q) (vec2 n s u) (num r)) t ∧ Snell r i n t) := by
  have e2 : 1 - (1 - (i ⬝ᵥ n) * (i ⬝ᵥ n)) * r * r = snellDisc r i n := by rw [snellDisc]; ring
  rw [dot2] at e2
  constructor
  · intro h
    rw [is2_iff]
    simp [XMVector2Refract, XMVector2RefractV, refractLane, e2, not_lt.2 h.le, not_le.2 h]
  · intro h
    refine ⟨_, (is2_iff _ _).2 ?_, snell_of r i n hi hn h.le⟩
    simp [XMVector2Refract, XMVector2RefractV, refractLane, e2, h, h.le, sqrt_num, dot2]
    split_ifs <;> simp [mul_comm (n _)]
-- straight-through refraction meets the hypotheses, and so does total internal reflection
example : 0 < snellDisc (1 / 2) ![1, 0, 0] ![-1, 0, (0:ℝ)] := by rw [snellDisc, dot3]; simp <;> norm_num
example : snellDisc 2 ![1, 0, 0] ![0, 1, (0:ℝ)] < 0 := by rw [snellDisc, dot3]; simp <;> norm_num

/-! ### C33 intersection of two lines in the plane -/

/-- A point of the line through `p` and `q`. -/
def OnLine {n : ℕ} (p q x : Fin n → ℝ) : Prop := ∃ t : ℝ, x = p + t • (q - p)

/-- The code's tolerance, `FLT_EPSILON`. -/
noncomputable def epsilon : ℝ := 1 / 2 ^ 23

theorem intersect_cases (c : Cfg) (a1 a2 b1 b2 : Fin 2 → ℝ) (p q r s t u v w : E)
    (d : ℝ) (hd : d = (a2 0 - a1 0) * (b2 1 - b1 1) - (a2 1 - a1 1) * (b2 0 - b1 0))
    (e : ℝ) (he : e = (b2 0 - b1 0) * (a1 1 - b1 1) - (b2 1 - b1 1) * (a1 0 - b1 0)) :
    let V := XMVector2IntersectLine c (vec2 a1 p q) (vec2 a2 r s) (vec2 b1 t u) (vec2 b2 v w)
    (|d| ≤ epsilon → |e| ≤ epsilon → V = ⟨posInf, posInf, posInf, posInf⟩) ∧
    (|d| ≤ epsilon → epsilon < |e| → V = ⟨nan, nan, nan, nan⟩) ∧
    (epsilon < |d| → V.x = num (a1 0 + e / d * (a2 0 - a1 0)) ∧ V.y = num (a1 1 + e / d * (a2 1 - a1 1))) := by
  have hE : epsilon = 8388608⁻¹ := by norm_num [epsilon]
  rw [hE]
  have hn : ∀ x : E, XMVector2NearEqual c ⟨num d, num d, num d, num d⟩ ⟨num 0, num 0, num 0, num 0⟩
      ⟨num (8388608⁻¹), num (8388608⁻¹), num (8388608⁻¹), num (8388608⁻¹)⟩ = decide (|d| ≤ 8388608⁻¹) := by
    intro x; simp [XMVector2NearEqual, max_neg_self']
  have hn' : ∀ x : E, XMVector2NearEqual c ⟨num e, num e, num e, num e⟩ ⟨num 0, num 0, num 0, num 0⟩
      ⟨num (8388608⁻¹), num (8388608⁻¹), num (8388608⁻¹), num (8388608⁻¹)⟩ = decide (|e| ≤ 8388608⁻¹) := by
    intro x; simp [XMVector2NearEqual, max_neg_self']
  refine ⟨?_, ?_, ?_⟩
  · intro h1 h2
    simp [XMVector2IntersectLine, ← hd, ← he, max_neg_self', not_lt.2 h1, h2, hn (num 0), hn' (num 0), h1]
  · intro h1 h2
    simp [XMVector2IntersectLine, ← hd, ← he, max_neg_self', not_lt.2 h1, not_le.2 h2, hn (num 0), hn' (num 0), h1]
  · intro h1
    have : d ≠ 0 := by rintro h; rw [h] at h1; norm_num at h1
    simp [XMVector2IntersectLine, ← hd, ← he, max_neg_self', h1, hn (num 0), hn' (num 0), not_le.2 h1, div_num, this]
    split_ifs <;> constructor <;> simp <;> ring

theorem C33_intersectLine (c : Cfg) (a1 a2 b1 b2 : Fin 2 → ℝ) (p q r s t u v w : E) :
    let V := XMVector2IntersectLine c (vec2 a1 p q) (vec2 a2 r s) (vec2 b1 t u) (vec2 b2 v w)
    -- twice the (signed) area spanned by the two directions, and by the second direction and the offset
    let d := Matrix.det (Matrix.of ![a2 - a1, b2 - b1])
    let e := Matrix.det (Matrix.of ![b2 - b1, a1 - b1])
    (|d| ≤ epsilon → |e| ≤ epsilon → V = ⟨posInf, posInf, posInf, posInf⟩) ∧
    (|d| ≤ epsilon → epsilon < |e| → V = ⟨nan, nan, nan, nan⟩) ∧
    (epsilon < |d| → ∃ x, Is2 V x ∧ OnLine a1 a2 x ∧ OnLine b1 b2 x) := by
  intro V d e
  obtain ⟨h1, h2, h3⟩ := intersect_cases c a1 a2 b1 b2 p q r s t u v w d (by simp [d, Matrix.det_fin_two])
    e (by simp [e, Matrix.det_fin_two])
  refine ⟨h1, h2, fun h => ⟨a1 + (e / d) • (a2 - a1), (is2_iff _ _).2 (by simpa [V] using h3 h), ⟨_, rfl⟩, ?_⟩⟩
  have hd : d ≠ 0 := by rintro h'; rw [h'] at h; norm_num [epsilon] at h
  have hd' : (a2 0 - a1 0) * (b2 1 - b1 1) - (a2 1 - a1 1) * (b2 0 - b1 0) = d := by simp [d, Matrix.det_fin_two]
  have he' : (b2 0 - b1 0) * (a1 1 - b1 1) - (b2 1 - b1 1) * (a1 0 - b1 0) = e := by simp [e, Matrix.det_fin_two]
  refine ⟨((a2 0 - a1 0) * (a1 1 - b1 1) - (a2 1 - a1 1) * (a1 0 - b1 0)) / d, ?_⟩
  ext j; fin_cases j
  · simp; field_simp; rw [← he', ← hd']; ring
  · simp; field_simp; rw [← he', ← hd']; ring
-- the two diagonals of the square meet in its centre
example (c : Cfg) : Is2 (XMVector2IntersectLine c (vec2 ![0, 0] nan nan) (vec2 ![2, 2] nan nan) (vec2 ![0, 2] nan nan)
    (vec2 ![2, 0] nan nan)) ![1, 1] := by
  obtain ⟨-, -, h⟩ := intersect_cases c ![0, 0] ![2, 2] ![0, 2] ![2, 0] nan nan nan nan nan nan nan nan (-8) (by norm_num) (-4) (by norm_num)
  rw [is2_iff]; convert h (by norm_num [epsilon]) using 2 <;> simp <;> norm_num

/-! ### C34 interpolation -/

theorem C34_lerp (c : Cfg) (a b : Fin 4 → ℝ) (t : ℝ) :
    XMVectorLerp c (vec4 a) (vec4 b) (num t) = vec4 (fun i => (1 - t) * a i + t * b i) ∧
    XMVectorLerpV c (vec4 a) (vec4 b) (all t) = XMVectorLerp c (vec4 a) (vec4 b) (num t) := by
  constructor
  · simp [XMVectorLerp]; refine ⟨?_, ?_, ?_, ?_⟩ <;> ring
  · simp [XMVectorLerp, XMVectorLerpV]
theorem C34_lerpV (c : Cfg) (a b t : Fin 4 → ℝ) :
    XMVectorLerpV c (vec4 a) (vec4 b) (vec4 t) = vec4 (fun i => (1 - t i) * a i + t i * b i) := by
  simp [XMVectorLerpV]; refine ⟨?_, ?_, ?_, ?_⟩ <;> ring
theorem C34_lerp_ends (c : Cfg) (a b : Fin 4 → ℝ) :
    XMVectorLerp c (vec4 a) (vec4 b) (num 0) = vec4 a ∧ XMVectorLerp c (vec4 a) (vec4 b) (num 1) = vec4 b ∧
    ∀ t, XMVectorLerp c (vec4 a) (vec4 a) (num t) = vec4 a := by
  refine ⟨?_, ?_, fun t => ?_⟩ <;> rw [(C34_lerp ..).1] <;> congr 1 <;> ext i <;> ring

/-- The cubic Hermite basis polynomials. -/
noncomputable def h00 (t : ℝ) : ℝ := (1 + 2 * t) * (1 - t) ^ 2
noncomputable def h10 (t : ℝ) : ℝ := t * (1 - t) ^ 2
noncomputable def h01 (t : ℝ) : ℝ := t ^ 2 * (3 - 2 * t)
noncomputable def h11 (t : ℝ) : ℝ := t ^ 2 * (t - 1)

theorem C34_hermite (c : Cfg) (p0 t0 p1 t1 : Fin 4 → ℝ) (t : ℝ) :
    XMVectorHermite c (vec4 p0) (vec4 t0) (vec4 p1) (vec4 t1) (num t) =
      vec4 (h00 t • p0 + h10 t • t0 + h01 t • p1 + h11 t • t1) := by
  simp [XMVectorHermite, hermiteP0, hermiteP1, hermiteT0, hermiteT1, c3, cNeg2, h00, h10, h01, h11]
  split_ifs <;> simp <;> refine ⟨?_, ?_, ?_, ?_⟩ <;> ring
/-- The vector form takes the parameter of each of the four weights from one lane of `T`. -/
theorem C34_hermiteV (c : Cfg) (p0 t0 p1 t1 t : Fin 4 → ℝ) :
    XMVectorHermiteV c (vec4 p0) (vec4 t0) (vec4 p1) (vec4 t1) (vec4 t) =
      vec4 (h00 (t 0) • p0 + h10 (t 1) • t0 + h01 (t 2) • p1 + h11 (t 3) • t1) := by
  simp [XMVectorHermiteV, hermiteP0, hermiteP1, hermiteT0, hermiteT1, c3, cNeg2, cNeg3, h00, h10, h01, h11]
  split_ifs <;> simp <;> refine ⟨?_, ?_, ?_, ?_⟩ <;> ring
theorem C34_hermite_ends (c : Cfg) (p0 t0 p1 t1 : Fin 4 → ℝ) :
    XMVectorHermite c (vec4 p0) (vec4 t0) (vec4 p1) (vec4 t1) (num 0) = vec4 p0 ∧
    XMVectorHermite c (vec4 p0) (vec4 t0) (vec4 p1) (vec4 t1) (num 1) = vec4 p1 ∧
    (∀ t, XMVectorHermiteV c (vec4 p0) (vec4 t0) (vec4 p1) (vec4 t1) (all t) =
      XMVectorHermite c (vec4 p0) (vec4 t0) (vec4 p1) (vec4 t1) (num t)) ∧
    ∀ t, XMVectorHermite c (vec4 p0) (vec4 0) (vec4 p0) (vec4 0) (num t) = vec4 p0 := by
  refine ⟨?_, ?_, fun t => ?_, fun t => ?_⟩
  · rw [C34_hermite]; simp [h00, h10, h01, h11]
  · rw [C34_hermite]; simp [h00, h10, h01, h11]; norm_num
  · rw [C34_hermite]; exact C34_hermiteV c p0 t0 p1 t1 fun _ => t
  · rw [C34_hermite]; congr 1; ext i; simp [h00, h01]; ring
/-- The tangents of the curve at its ends are the given tangents. -/
theorem C34_hermite_tangents (p0 t0 p1 t1 : ℝ) :
    HasDerivAt (fun t => h00 t * p0 + h10 t * t0 + h01 t * p1 + h11 t * t1) t0 0 ∧
    HasDerivAt (fun t => h00 t * p0 + h10 t * t0 + h01 t * p1 + h11 t * t1) t1 1 := by
  have key : ∀ x : ℝ, HasDerivAt (fun t => h00 t * p0 + h10 t * t0 + h01 t * p1 + h11 t * t1)
      ((6 * x ^ 2 - 6 * x) * p0 + (3 * x ^ 2 - 4 * x + 1) * t0 + (6 * x - 6 * x ^ 2) * p1 + (3 * x ^ 2 - 2 * x) * t1) x := by
    intro x
    have e : (fun t => h00 t * p0 + h10 t * t0 + h01 t * p1 + h11 t * t1) =
        fun t : ℝ => t ^ 3 * (2 * p0 + t0 - 2 * p1 + t1) + t ^ 2 * (-3 * p0 - 2 * t0 + 3 * p1 - t1) + t * t0 + p0 := by
      ext t; simp only [h00, h10, h01, h11]; ring
    rw [e]
    have h3 := (hasDerivAt_pow 3 x).mul_const (2 * p0 + t0 - 2 * p1 + t1)
    have h2 := (hasDerivAt_pow 2 x).mul_const (-3 * p0 - 2 * t0 + 3 * p1 - t1)
    have h1 := (hasDerivAt_id x).mul_const t0
    exact (((h3.add h2).add h1).add_const p0).congr_deriv (by norm_num; ring)
  constructor
  · exact (key 0).congr_deriv (by ring)
  · exact (key 1).congr_deriv (by ring)

/-- The Catmull-Rom weights. -/
noncomputable def cr0 (t : ℝ) : ℝ := (-t ^ 3 + 2 * t ^ 2 - t) / 2
noncomputable def cr1 (t : ℝ) : ℝ := (3 * t ^ 3 - 5 * t ^ 2 + 2) / 2
noncomputable def cr2 (t : ℝ) : ℝ := (-3 * t ^ 3 + 4 * t ^ 2 + t) / 2
noncomputable def cr3 (t : ℝ) : ℝ := (t ^ 3 - t ^ 2) / 2

theorem C34_catmullRom (c : Cfg) (p0 p1 p2 p3 : Fin 4 → ℝ) (t : ℝ) :
    XMVectorCatmullRom c (vec4 p0) (vec4 p1) (vec4 p2) (vec4 p3) (num t) =
      vec4 (cr0 t • p0 + cr1 t • p1 + cr2 t • p2 + cr3 t • p3) := by
  simp [XMVectorCatmullRom, c3, c4, c5, cNeg3, cr0, cr1, cr2, cr3]
  split_ifs <;> simp <;> refine ⟨?_, ?_, ?_, ?_⟩ <;> ring
theorem C34_catmullRomV (c : Cfg) (p0 p1 p2 p3 t : Fin 4 → ℝ) :
    XMVectorCatmullRomV c (vec4 p0) (vec4 p1) (vec4 p2) (vec4 p3) (vec4 t) =
      vec4 (fun i => cr0 (t i) * p0 i + cr1 (t i) * p1 i + cr2 (t i) * p2 i + cr3 (t i) * p3 i) := by
  simp [XMVectorCatmullRomV, catmullLane, c3, c4, c5, cNeg3, cr0, cr1, cr2, cr3]
  split_ifs <;> simp <;> refine ⟨?_, ?_, ?_, ?_⟩ <;> ring
theorem C34_catmullRom_ends (c : Cfg) (p0 p1 p2 p3 : Fin 4 → ℝ) :
    XMVectorCatmullRom c (vec4 p0) (vec4 p1) (vec4 p2) (vec4 p3) (num 0) = vec4 p1 ∧
    XMVectorCatmullRom c (vec4 p0) (vec4 p1) (vec4 p2) (vec4 p3) (num 1) = vec4 p2 ∧
    (∀ t, XMVectorCatmullRomV c (vec4 p0) (vec4 p1) (vec4 p2) (vec4 p3) (all t) =
      XMVectorCatmullRom c (vec4 p0) (vec4 p1) (vec4 p2) (vec4 p3) (num t)) ∧
    ∀ t, XMVectorCatmullRom c (vec4 p0) (vec4 p0) (vec4 p0) (vec4 p0) (num t) = vec4 p0 := by
  refine ⟨?_, ?_, fun t => ?_, fun t => ?_⟩
  · rw [C34_catmullRom]; simp [cr0, cr1, cr2, cr3]
  · rw [C34_catmullRom]; congr 1; ext i; simp [cr0, cr1, cr2, cr3]; ring
  · rw [C34_catmullRom]; exact (C34_catmullRomV c p0 p1 p2 p3 fun _ => t).trans (by congr 1)
  · rw [C34_catmullRom]; congr 1; ext i; simp [cr0, cr1, cr2, cr3]; ring

theorem C34_baryCentric (c : Cfg) (p0 p1 p2 : Fin 4 → ℝ) (f g : ℝ) :
    XMVectorBaryCentric c (vec4 p0) (vec4 p1) (vec4 p2) (num f) (num g) = vec4 ((1 - f - g) • p0 + f • p1 + g • p2) ∧
    XMVectorBaryCentricV c (vec4 p0) (vec4 p1) (vec4 p2) (all f) (all g) =
      XMVectorBaryCentric c (vec4 p0) (vec4 p1) (vec4 p2) (num f) (num g) := by
  constructor
  · simp [XMVectorBaryCentric]; refine ⟨?_, ?_, ?_, ?_⟩ <;> ring
  · simp [XMVectorBaryCentric, XMVectorBaryCentricV]
theorem C34_baryCentricV (c : Cfg) (p0 p1 p2 f g : Fin 4 → ℝ) :
    XMVectorBaryCentricV c (vec4 p0) (vec4 p1) (vec4 p2) (vec4 f) (vec4 g) =
      vec4 (fun i => (1 - f i - g i) * p0 i + f i * p1 i + g i * p2 i) := by
  simp [XMVectorBaryCentricV]; refine ⟨?_, ?_, ?_, ?_⟩ <;> ring
example (c : Cfg) : XMVectorLerp c (vec4 ![0, 0, 0, 0]) (vec4 ![4, 8, 12, 16]) (num (1 / 4)) = vec4 ![1, 2, 3, 4] := by
  rw [(C34_lerp ..).1]; simp; norm_num

/-! ### C36 vector-matrix transforms -/

variable (c : Cfg) (A B : Matrix (Fin 4) (Fin 4) ℝ)

theorem C36_transform4 (v : Fin 4 → ℝ) : XMVector4Transform c (vec4 v) (mat A) = vec4 (v ᵥ* A) := by
  simp only [vec4, vecMul4]; simp
/-- A 3-D point is padded with w = 1, whatever its w lane holds. -/
theorem C36_transform3 (v : Fin 3 → ℝ) (p : E) : XMVector3Transform c (vec3 v p) (mat A) = vec4 (![v 0, v 1, v 2, 1] ᵥ* A) := by
  simp only [vec4, vecMul4]; simp
/-- A 2-D point is padded with z = 0, w = 1. -/
theorem C36_transform2 (v : Fin 2 → ℝ) (p q : E) : XMVector2Transform c (vec2 v p q) (mat A) = vec4 (![v 0, v 1, 0, 1] ᵥ* A) := by
  simp only [vec4, vecMul4]; simp
/-- Normals are padded with w = 0: the translation row is ignored. -/
theorem C36_transformNormal3 (v : Fin 3 → ℝ) (p : E) :
    XMVector3TransformNormal c (vec3 v p) (mat A) = vec4 (![v 0, v 1, v 2, 0] ᵥ* A) := by
  simp only [vec4, vecMul4]; simp
theorem C36_transformNormal2 (v : Fin 2 → ℝ) (p q : E) :
    XMVector2TransformNormal c (vec2 v p q) (mat A) = vec4 (![v 0, v 1, 0, 0] ᵥ* A) := by
  simp only [vec4, vecMul4]; simp
/-- Perspective division of a transformed point. -/
theorem C36_transformCoord3 (v : Fin 3 → ℝ) (p : E) (h : (![v 0, v 1, v 2, 1] ᵥ* A) 3 ≠ 0) :
    XMVector3TransformCoord c (vec3 v p) (mat A) =
      vec4 (((![v 0, v 1, v 2, 1] ᵥ* A) 3)⁻¹ • (![v 0, v 1, v 2, 1] ᵥ* A)) := by
  simp only [vecMul4] at h; simp at h
  simp only [vec4, Pi.smul_apply, vecMul4]; simp [XMVector3TransformCoord_num, h, div_eq_inv_mul]
theorem C36_transformCoord2 (v : Fin 2 → ℝ) (p q : E) (h : (![v 0, v 1, 0, 1] ᵥ* A) 3 ≠ 0) :
    XMVector2TransformCoord c (vec2 v p q) (mat A) =
      vec4 (((![v 0, v 1, 0, 1] ᵥ* A) 3)⁻¹ • (![v 0, v 1, 0, 1] ᵥ* A)) := by
  simp only [vecMul4] at h; simp at h
  simp only [vec4, Pi.smul_apply, vecMul4]; simp [XMVector2TransformCoord_num, h, div_eq_inv_mul]
example (c : Cfg) : XMVector3TransformCoord c (vec3 ![1, 2, 3] nan) (mat !![2, 0, 0, 0; 0, 2, 0, 0; 0, 0, 2, 0; 0, 0, 0, 2]) =
    vec4 ![1, 2, 3, 1] := by
  rw [C36_transformCoord3]
  · simp [vecMul, dot4]; norm_num
  · simp [vecMul, dot4]

end DXM.Props
