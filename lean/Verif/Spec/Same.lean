import Verif.Spec.IEEE
import Verif.F32

/-
When two float results count as the same.
-/

namespace DXM.Spec
variable {P : Env}

/-- The same float: identical bits, or both NaN (which NaN an operation returns is not fixed by IEEE-754). -/
def Same (a b : F32 P) : Prop := a.bits = b.bits ∨ (IsNaN a.bits ∧ IsNaN b.bits)
/-- The same number: equal as IEEE numbers, so that +0 and -0 count as the same, or both NaN. -/
def SameNum (a b : F32 P) : Prop := FEq a.bits b.bits ∨ (IsNaN a.bits ∧ IsNaN b.bits)

/-- Lane by lane the same float. -/
def SameV (u v : V4 (F32 P)) : Prop := Same u.x v.x ∧ Same u.y v.y ∧ Same u.z v.z ∧ Same u.w v.w
/-- Lane by lane the same number. -/
def SameNumV (u v : V4 (F32 P)) : Prop := SameNum u.x v.x ∧ SameNum u.y v.y ∧ SameNum u.z v.z ∧ SameNum u.w v.w
/-- Entry by entry the same float. -/
def SameM (m n : M4 (F32 P)) : Prop := SameV m.r0 n.r0 ∧ SameV m.r1 n.r1 ∧ SameV m.r2 n.r2 ∧ SameV m.r3 n.r3
/-- Entry by entry the same number. -/
def SameNumM (m n : M4 (F32 P)) : Prop := SameNumV m.r0 n.r0 ∧ SameNumV m.r1 n.r1 ∧ SameNumV m.r2 n.r2 ∧ SameNumV m.r3 n.r3

end DXM.Spec
