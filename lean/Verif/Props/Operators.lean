import Verif.Lemmas.SpecSimp

/-
C54: the operators of the XMVector wrapper.
-/

set_option linter.all false

namespace DXM.Props
open DXM.E DXM.Spec

variable {α : Type} [Lane α]

/-- The vector whose lane `i` is `f i`. -/
def lanes (f : Fin 4 → α) : V4 α := ⟨f 0, f 1, f 2, f 3⟩
/-- Lane `i`. -/
def lane (V : V4 α) (i : Fin 4) : α := ![V.x, V.y, V.z, V.w] i

/-- C54, for every lane type (so for every bit pattern under any reading of the scalar operations): the binary operators are
the scalar operators lane by lane. -/
theorem C54_lanewise (c : Cfg) (a b : V4 α) (s : α) :
    XMVector.add a b = lanes (fun i => Lane.add (lane a i) (lane b i)) ∧
    XMVector.sub a b = lanes (fun i => Lane.sub (lane a i) (lane b i)) ∧
    XMVector.mul a b = lanes (fun i => Lane.mul (lane a i) (lane b i)) ∧
    XMVector.div a b = lanes (fun i => Lane.div (lane a i) (lane b i)) ∧
    XMVector.divScalar a s = lanes (fun i => Lane.div (lane a i) s) := by
  refine ⟨rfl, rfl, rfl, rfl, rfl⟩

/-- C54: `a op= b` stores `a op b`. -/
theorem C54_assign (c : Cfg) (a b : V4 α) (s : α) :
    XMVector.addAssign a b = XMVector.add a b ∧ XMVector.subAssign a b = XMVector.sub a b ∧
    XMVector.mulAssign a b = XMVector.mul a b ∧ XMVector.divAssign a b = XMVector.div a b ∧
    XMVector.scaleAssign c a s = XMVector.scale c a s ∧ XMVector.divScalarAssign a s = XMVector.divScalar a s ∧
    XMVector.scaleL c s a = XMVector.scale c a s :=
  ⟨rfl, rfl, rfl, rfl, rfl, rfl, rfl⟩

/-- C54 on exact-real lanes: vector addition, subtraction, Hadamard product and quotient, scaling, negation; `==` is equality. -/
theorem C54_real (c : Cfg) (a b : Fin 4 → ℝ) (s : ℝ) :
    XMVector.add (vec4 a) (vec4 b) = vec4 (a + b) ∧ XMVector.sub (vec4 a) (vec4 b) = vec4 (a - b) ∧
    XMVector.mul (vec4 a) (vec4 b) = vec4 (a * b) ∧ XMVector.scale c (vec4 a) (num s) = vec4 (s • a) ∧
    XMVector.neg c (vec4 a) = vec4 (-a) ∧ (XMVector.eq c (vec4 a) (vec4 b) = true ↔ a = b) ∧
    ((∀ i, b i ≠ 0) → XMVector.div (vec4 a) (vec4 b) = vec4 (a / b)) ∧
    (s ≠ 0 → XMVector.divScalar (vec4 a) (num s) = vec4 (s⁻¹ • a)) := by
  refine ⟨?_, ?_, ?_, ?_, ?_, ?_, ?_, ?_⟩
  · simp [XMVector.add, vec4]
  · simp [XMVector.sub, vec4]
  · simp [XMVector.mul, vec4]
  · simp [XMVector.scale, vec4, mul_comm]
  · simp [XMVector.neg, vec4]
  · have hm : ∀ b : Bool, Lane.sgn (Lane.mask b : E) = b := by
      intro b; cases b
      · exact LawfulLane.sgn_zero
      · exact LawfulLane.sgn_ones
    unfold XMVector.eq XMVector4Equal
    split_ifs <;> simp [vec4, funext_iff, Fin.forall_fin_succ, and_assoc, SSE.mm_eq_15, hm]
  · intro h
    simp [XMVector.div, vec4, div_num _ _ (h _)]
  · intro h
    simp [XMVector.divScalar, vec4, div_num _ _ h]
    refine ⟨?_, ?_, ?_, ?_⟩ <;> ring
example : (∀ i, (![1, 2, 3, 4] : Fin 4 → ℝ) i ≠ 0) ∧ (3 : ℝ) ≠ 0 := by
  refine ⟨fun i => ?_, by norm_num⟩; fin_cases i <;> simp

end DXM.Props
