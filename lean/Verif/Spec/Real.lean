import Mathlib.Data.Matrix.Mul
import Mathlib.LinearAlgebra.Matrix.Notation
import Mathlib.LinearAlgebra.CrossProduct
import Mathlib.Algebra.Quaternion
import Mathlib.Analysis.SpecialFunctions.Trigonometric.Basic
import Verif.ELane

/-
Vocabulary of the exact-real statements: how real vectors, matrices and quaternions are laid out in XMVECTOR / XMMATRIX.
Everything on the right-hand side is Mathlib's.
-/

namespace DXM.Spec
open DXM.E

/-- The 2-D vector `a` in lanes x, y; the lanes z, w hold anything. -/
def vec2 (a : Fin 2 → ℝ) (z w : E) : V4 E := ⟨num (a 0), num (a 1), z, w⟩
/-- The 3-D vector `a` in lanes x, y, z; lane w holds anything. -/
def vec3 (a : Fin 3 → ℝ) (w : E) : V4 E := ⟨num (a 0), num (a 1), num (a 2), w⟩
/-- The 4-D vector `a`. -/
def vec4 (a : Fin 4 → ℝ) : V4 E := ⟨num (a 0), num (a 1), num (a 2), num (a 3)⟩
/-- The vector with `r` in every lane. -/
def all (r : ℝ) : V4 E := ⟨num r, num r, num r, num r⟩
/-- The matrix `A`, one row per register. -/
def mat (A : Matrix (Fin 4) (Fin 4) ℝ) : M4 E := ⟨vec4 (A 0), vec4 (A 1), vec4 (A 2), vec4 (A 3)⟩
/-- The quaternion `q` as (i, j, k, real). -/
def quat (q : Quaternion ℝ) : V4 E := ⟨num q.imI, num q.imJ, num q.imK, num q.re⟩
/-- Lanes x, y hold `a`. -/
def Is2 (v : V4 E) (a : Fin 2 → ℝ) : Prop := ∃ z w, v = vec2 a z w
/-- Lanes x, y, z hold `a`. -/
def Is3 (v : V4 E) (a : Fin 3 → ℝ) : Prop := ∃ w, v = vec3 a w
/-- Euclidean length. -/
noncomputable def len {n : ℕ} (a : Fin n → ℝ) : ℝ := √(a ⬝ᵥ a)
/-- The affine map `x ↦ x R + t` of row vectors as a homogeneous 4x4 matrix. -/
def affine (R : Matrix (Fin 3) (Fin 3) ℝ) (t : Fin 3 → ℝ) : Matrix (Fin 4) (Fin 4) ℝ :=
  !![R 0 0, R 0 1, R 0 2, 0; R 1 0, R 1 1, R 1 2, 0; R 2 0, R 2 1, R 2 2, 0; t 0, t 1, t 2, 1]
/-- The pure quaternion with vector part `v`. -/
def pureQ (v : Fin 3 → ℝ) : Quaternion ℝ := ⟨0, v 0, v 1, v 2⟩
/-- Rodrigues' formula: `v` rotated about the unit axis `n` by the angle `t`. -/
noncomputable def rodrigues (n : Fin 3 → ℝ) (t : ℝ) (v : Fin 3 → ℝ) : Fin 3 → ℝ :=
  Real.cos t • v + ((1 - Real.cos t) * (n ⬝ᵥ v)) • n + Real.sin t • crossProduct n v
/-- The row-vector matrix of that rotation: row `i` is the image of the `i`-th basis vector. -/
noncomputable def axisRot (n : Fin 3 → ℝ) (t : ℝ) : Matrix (Fin 3) (Fin 3) ℝ :=
  Matrix.of fun i => rodrigues n t (Pi.single i 1)
/-- The quaternion `cos(t/2) + sin(t/2) n`. -/
noncomputable def axisQ (n : Fin 3 → ℝ) (t : ℝ) : Quaternion ℝ :=
  ⟨Real.cos (t/2), Real.sin (t/2) * n 0, Real.sin (t/2) * n 1, Real.sin (t/2) * n 2⟩
/-- Two quaternions whose components differ by at most `e`. -/
def QClose (p q : Quaternion ℝ) (e : ℝ) : Prop := |p.imI - q.imI| ≤ e ∧ |p.imJ - q.imJ| ≤ e ∧ |p.imK - q.imK| ≤ e ∧ |p.re - q.re| ≤ e
/-- The coordinate axes. -/
def ex : Fin 3 → ℝ := ![1, 0, 0]
def ey : Fin 3 → ℝ := ![0, 1, 0]
def ez : Fin 3 → ℝ := ![0, 0, 1]

end DXM.Spec
