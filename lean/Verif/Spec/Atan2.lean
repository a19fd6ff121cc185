import Verif.Spec.IEEE
import Mathlib.Analysis.SpecialFunctions.Complex.Arg
import Mathlib.Analysis.SpecialFunctions.Trigonometric.Arctan

/-
Arctangent and the two-argument arctangent on binary32 patterns that are not NaN, as IEEE 754 (9.2.1) and C (Annex F) define them:
signed zeros and infinities are limits, and the sign of the result is the sign of `y`.
-/

namespace DXM.Spec
open Real

/-- -1 or 1, by the sign bit. -/
noncomputable def sgn (b : BitVec 32) : ℝ := if signBit b then -1 else 1

/-- The arctangent: half a turn over two at an infinity. -/
noncomputable def extArctan (b : BitVec 32) : ℝ := if IsInf b then sgn b * (π / 2) else arctan (value b)

/-- The angle of the point (x, y) in (-π, π], or in [-π, π] when `y` is a signed zero. -/
noncomputable def extAtan2 (y x : BitVec 32) : ℝ :=
  if IsInf y then sgn y * (if IsInf x then (if signBit x then 3 * π / 4 else π / 4) else π / 2)
  else if IsInf x ∨ value y = 0 then sgn y * (if signBit x then π else 0)
  else Complex.arg ⟨value x, value y⟩

end DXM.Spec
