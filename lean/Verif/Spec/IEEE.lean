import Mathlib.Data.EReal.Basic
import Mathlib.Algebra.Field.Basic
import Mathlib.Data.Real.Basic
import Mathlib.Analysis.Real.Sqrt
import Mathlib.Algebra.Order.Floor.Ring
import Mathlib.Algebra.Order.Archimedean.Real.Basic

/-
IEEE-754 binary32, as in the standard: fields, values, order, correct rounding.  Nothing here refers to the model.
-/

namespace DXM.Spec

/-- Bit 31. -/
def signBit (b : BitVec 32) : Bool := b.getLsbD 31
/-- Bits 30..23: the biased exponent. -/
def expField (b : BitVec 32) : ℕ := b.toNat / 2^23 % 2^8
/-- Bits 22..0: the fraction. -/
def fracField (b : BitVec 32) : ℕ := b.toNat % 2^23
/-- Exponent all ones, fraction not zero. -/
def IsNaN (b : BitVec 32) : Prop := expField b = 255 ∧ fracField b ≠ 0
/-- Exponent all ones, fraction zero. -/
def IsInf (b : BitVec 32) : Prop := expField b = 255 ∧ fracField b = 0
/-- Neither NaN nor infinite. -/
def IsFinite (b : BitVec 32) : Prop := expField b ≠ 255
instance (b : BitVec 32) : Decidable (IsNaN b) := inferInstanceAs (Decidable (_ ∧ _))
instance (b : BitVec 32) : Decidable (IsInf b) := inferInstanceAs (Decidable (_ ∧ _))
instance (b : BitVec 32) : Decidable (IsFinite b) := inferInstanceAs (Decidable (_ ≠ _))

/-- The number a finite pattern stands for: (-1)^s · 2^(e-127) · (1 + f/2^23), subnormals (-1)^s · 2^-126 · f/2^23. -/
noncomputable def value (b : BitVec 32) : ℝ :=
  (if signBit b then -1 else 1) *
    (if expField b = 0 then (2:ℝ)^(-126 : ℤ) * (fracField b / 2^23) else (2:ℝ)^((expField b : ℤ) - 127) * (1 + fracField b / 2^23))

/-- The extended number a non-NaN pattern stands for. -/
noncomputable def evalue (b : BitVec 32) : EReal := if IsInf b then (if signBit b then ⊥ else ⊤) else (value b : EReal)

/-- IEEE `a < b`, false on NaN. -/
def FLt (a b : BitVec 32) : Prop := ¬ IsNaN a ∧ ¬ IsNaN b ∧ evalue a < evalue b
/-- IEEE `a <= b`, false on NaN. -/
def FLe (a b : BitVec 32) : Prop := ¬ IsNaN a ∧ ¬ IsNaN b ∧ evalue a ≤ evalue b
/-- IEEE `a == b`, false on NaN. -/
def FEq (a b : BitVec 32) : Prop := ¬ IsNaN a ∧ ¬ IsNaN b ∧ evalue a = evalue b

/-- Half way between the largest finite number and 2^128: magnitudes from here on round to infinity. -/
noncomputable def overflow : ℝ := 2^128 - 2^103

/-- `r` is the real number `x` rounded to nearest, ties to even, as IEEE-754 section 4.3.1 prescribes. -/
structure Rounds (x : ℝ) (r : BitVec 32) : Prop where
  /-- in range: a finite pattern, nearest among all finite patterns -/
  finite : |x| < overflow → IsFinite r
  nearest : |x| < overflow → ∀ y, IsFinite y → |value r - x| ≤ |value y - x|
  /-- of two equally near numbers the one with even fraction -/
  even : |x| < overflow → ∀ y, IsFinite y → value y ≠ value r → |value y - x| = |value r - x| → fracField r % 2 = 0
  /-- out of range: infinity -/
  top : overflow ≤ x → r = 0x7F800000#32
  bot : x ≤ -overflow → r = 0xFF800000#32

/-- `n` is the integer nearest to `x`, ties to even. -/
structure NearestEven (x : ℝ) (n : ℤ) : Prop where
  near : |x - n| ≤ 1/2
  even : |x - n| = 1/2 → Even n

/-- The integer part toward zero. -/
noncomputable def truncZ (x : ℝ) : ℤ := if 0 ≤ x then ⌊x⌋ else ⌈x⌉

end DXM.Spec
