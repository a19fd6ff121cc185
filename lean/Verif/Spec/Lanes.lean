import Verif.Basic

/-
Specification vocabulary for data movement.
-/

namespace DXM.Spec
variable {α : Type}

/-- The lane named by a permute index: 0-3 name the lanes of the first vector, 4-7 those of the second. -/
def pick (V1 V2 : V4 α) (p : Fin 8) : α := if h : p.val < 4 then V1.lane ⟨p.val, h⟩ else V2.lane ⟨p.val - 4, by omega⟩

/-- Lane `i + n` counted cyclically. -/
def cyc (V : V4 α) (i n : Nat) : α := V.lane ⟨(i + n) % 4, Nat.mod_lt _ (by decide)⟩

end DXM.Spec
