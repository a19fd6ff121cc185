import Mathlib.Data.Real.Basic
import Mathlib.Tactic.Positivity
import Mathlib.Algebra.Order.Field.Basic

/-
IEEE-754 binary16 patterns: fields, classes, values, rounding.  Independent of the model.
-/

namespace DXM.Spec.Half

/-- bit 15 -/
def signBit (b : BitVec 16) : Bool := b.getLsbD 15
/-- bits 10..14 -/
def expField (b : BitVec 16) : ℕ := b.toNat / 2^10 % 2^5
/-- bits 0..9 -/
def fracField (b : BitVec 16) : ℕ := b.toNat % 2^10
/-- exponent all ones, fraction nonzero -/
def IsNaN (b : BitVec 16) : Prop := expField b = 31 ∧ fracField b ≠ 0
/-- exponent all ones, fraction zero -/
def IsInf (b : BitVec 16) : Prop := expField b = 31 ∧ fracField b = 0
/-- exponent not all ones -/
def IsFinite (b : BitVec 16) : Prop := expField b ≠ 31
instance (b : BitVec 16) : Decidable (IsNaN b) := inferInstanceAs (Decidable (_ ∧ _))
instance (b : BitVec 16) : Decidable (IsInf b) := inferInstanceAs (Decidable (_ ∧ _))
instance (b : BitVec 16) : Decidable (IsFinite b) := inferInstanceAs (Decidable (_ ≠ _))

/-- The number a finite pattern stands for: (-1)^s · 2^(e-15) · (1 + f/2^10), subnormals (-1)^s · 2^-14 · f/2^10. -/
noncomputable def value (b : BitVec 16) : ℝ :=
  (if signBit b then -1 else 1) *
    (if expField b = 0 then (2:ℝ)^(-14 : ℤ) * (fracField b / 2^10) else (2:ℝ)^((expField b : ℤ) - 15) * (1 + fracField b / 2^10))

/-- Half way between the largest finite half (65504) and 2^16: magnitudes from here on round to infinity. -/
noncomputable def overflow : ℝ := 65520

/-- `r` is the real number `x` rounded to nearest, ties to even, as IEEE-754 section 4.3.1 prescribes. -/
structure Rounds (x : ℝ) (r : BitVec 16) : Prop where
  /-- in range: a finite pattern, nearest among all finite patterns -/
  finite : |x| < overflow → IsFinite r
  nearest : |x| < overflow → ∀ y, IsFinite y → |value r - x| ≤ |value y - x|
  /-- of two equally near numbers the one with even fraction -/
  even : |x| < overflow → ∀ y, IsFinite y → value y ≠ value r → |value y - x| = |value r - x| → fracField r % 2 = 0
  /-- out of range: infinity -/
  top : overflow ≤ x → r = 0x7C00#16
  bot : x ≤ -overflow → r = 0xFC00#16

end DXM.Spec.Half
