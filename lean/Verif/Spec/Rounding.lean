import Verif.Spec.IEEE

/-
The vocabulary of floating-point error bounds (Higham, Accuracy and Stability of Numerical Algorithms).
Nothing here refers to the model.
-/

namespace DXM.Spec

/-- Half a unit in the last place of 1, the unit roundoff of binary32. -/
noncomputable def ulp2 : ℝ := 1 / 2^24
/-- The smallest normal number. -/
noncomputable def tiny : ℝ := 1 / 2^126
/-- The error after `k` roundings: `k u / (1 - k u)`. -/
noncomputable def gam (k : ℕ) : ℝ := k * ulp2 / (1 - k * ulp2)

/-- `r` is the exact result `x`, whose terms have total magnitude `M`, up to `k` successive roundings; no overflow occurs as long as `M` is
at most 2^127. -/
def Near (r : BitVec 32) (x M : ℝ) (k : ℕ) : Prop := M ≤ 2^127 → IsFinite r ∧ |value r - x| ≤ gam k * M

/-- `r` is finite and is `x` up to the relative error of `k` successive roundings. -/
def RelNear (r : BitVec 32) (x : ℝ) (k : ℕ) : Prop := IsFinite r ∧ |value r - x| ≤ gam k * |x|

end DXM.Spec
