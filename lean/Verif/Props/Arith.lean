import Verif.Lemmas.F32Val
import Verif.Props.Bits

/-
C18: element-wise arithmetic on all bit patterns (interpretation I): lane by lane the correctly rounded IEEE operation, with the IEEE
special cases, in every build.
-/

set_option linter.all false

namespace DXM.Props
open DXM.Spec
variable {P : Env}

/-- C18: on finite lanes Add, Subtract, Multiply, Divide, Reciprocal and Sqrt return the exact result rounded once (nearest, ties to
even, overflow to infinity).  Lane `i` of the result depends on lane `i` of the arguments only. -/
theorem C18_rounded (A B : V4 (F32 P)) (i : Fin 4) (ha : IsFinite (A.lane i).bits) (hb : IsFinite (B.lane i).bits) :
    Rounds (value (A.lane i).bits + value (B.lane i).bits) ((XMVectorAdd A B).lane i).bits ∧
    Rounds (value (A.lane i).bits - value (B.lane i).bits) ((XMVectorSubtract A B).lane i).bits ∧
    Rounds (value (A.lane i).bits * value (B.lane i).bits) ((XMVectorMultiply A B).lane i).bits ∧
    (value (B.lane i).bits ≠ 0 → Rounds (value (A.lane i).bits / value (B.lane i).bits) ((XMVectorDivide A B).lane i).bits) ∧
    (value (A.lane i).bits ≠ 0 → Rounds (1 / value (A.lane i).bits) ((XMVectorReciprocal A).lane i).bits) ∧
    (0 ≤ value (A.lane i).bits → Rounds (Real.sqrt (value (A.lane i).bits)) ((XMVectorSqrt A).lane i).bits) := by
  have e1 : (XMVectorAdd A B).lane i = F32.ofBV (IEEE.add P (A.lane i).bits (B.lane i).bits) := V4.lane_map2 _ _ _ _
  have e2 : (XMVectorSubtract A B).lane i = F32.ofBV (IEEE.sub P (A.lane i).bits (B.lane i).bits) := V4.lane_map2 _ _ _ _
  have e3 : (XMVectorMultiply A B).lane i = F32.ofBV (IEEE.mul P (A.lane i).bits (B.lane i).bits) := V4.lane_map2 _ _ _ _
  have e4 : (XMVectorDivide A B).lane i = F32.ofBV (IEEE.div P (A.lane i).bits (B.lane i).bits) := V4.lane_map2 _ _ _ _
  have e5 : (XMVectorReciprocal A).lane i = F32.ofBV (IEEE.div P 0x3F800000#32 (A.lane i).bits) := by fin_cases i <;> rfl
  have e6 : (XMVectorSqrt A).lane i = F32.ofBV (IEEE.sqrt P (A.lane i).bits) := V4.lane_map _ _ _
  rw [e1, e2, e3, e4, e5, e6]
  refine ⟨IEEE.add_rounds P ha hb, IEEE.sub_rounds P ha hb, IEEE.mul_rounds P ha hb, IEEE.div_rounds P ha hb, fun h => ?_, IEEE.sqrt_rounds P ha⟩
  have := IEEE.div_rounds P (a := 0x3F800000#32) (by decide) ha h
  rwa [IEEE.value_one] at this

/-- C18: MultiplyAdd and NegativeMultiplySubtract: a single rounding of the exact `a*b + c`, `c - a*b` in FMA builds; otherwise the
rounded product is added / subtracted and rounded again. -/
theorem C18_multiplyAdd (c : Cfg) (A B D : V4 (F32 P)) (i : Fin 4)
    (ha : IsFinite (A.lane i).bits) (hb : IsFinite (B.lane i).bits) (hd : IsFinite (D.lane i).bits) :
    (c.sse = true ∧ c.fma = true →
      Rounds (value (A.lane i).bits * value (B.lane i).bits + value (D.lane i).bits) ((XMVectorMultiplyAdd c A B D).lane i).bits ∧
      Rounds (value (D.lane i).bits - value (A.lane i).bits * value (B.lane i).bits) ((XMVectorNegativeMultiplySubtract c A B D).lane i).bits) ∧
    (¬ (c.sse = true ∧ c.fma = true) →
      XMVectorMultiplyAdd c A B D = XMVectorAdd (XMVectorMultiply A B) D ∧
      XMVectorNegativeMultiplySubtract c A B D = XMVectorSubtract D (XMVectorMultiply A B)) := by
  unfold XMVectorMultiplyAdd XMVectorNegativeMultiplySubtract
  constructor
  · rintro ⟨h1, h2⟩
    rw [if_pos h1, if_pos h1]; unfold SSE.fmadd SSE.fnmadd; rw [if_pos h2, if_pos h2, V4.lane_map3, V4.lane_map3]
    exact ⟨IEEE.fma_rounds P ha hb hd, IEEE.fnma_rounds P ha hb hd⟩
  · intro h
    by_cases h1 : c.sse = true
    · have h2 : ¬ c.fma = true := fun g => h ⟨h1, g⟩
      rw [if_pos h1, if_pos h1]; unfold SSE.fmadd SSE.fnmadd; rw [if_neg h2, if_neg h2]; exact ⟨rfl, rfl⟩
    · rw [if_neg h1, if_neg h1]; exact ⟨rfl, rfl⟩

/-- C18: Scale is the correctly rounded product with the scalar; all builds return the same bits unless the result is NaN, and then all
return a NaN. -/
theorem C18_scale (c c' : Cfg) (A : V4 (F32 P)) (s : F32 P) (i : Fin 4) :
    (IsFinite (A.lane i).bits → IsFinite s.bits → Rounds (value (A.lane i).bits * value s.bits) ((XMVectorScale c A s).lane i).bits) ∧
    (IsNaN ((XMVectorScale c A s).lane i).bits ↔ IsNaN ((XMVectorScale c' A s).lane i).bits) ∧
    (¬ IsNaN ((XMVectorScale c A s).lane i).bits → (XMVectorScale c A s).lane i = (XMVectorScale c' A s).lane i) := by
  have k : ∀ c : Cfg, (XMVectorScale c A s).lane i = F32.ofBV (IEEE.mul P s.bits (A.lane i).bits) ∨
      (XMVectorScale c A s).lane i = F32.ofBV (IEEE.mul P (A.lane i).bits s.bits) := by
    intro c; unfold XMVectorScale
    by_cases hs : c.sse = true <;> [rw [if_pos hs]; rw [if_neg hs]]
    · left; fin_cases i <;> rfl
    · right; fin_cases i <;> rfl
  have hc := IEEE.mul_comm_bits P s.bits (A.lane i).bits
  refine ⟨fun ha hs => ?_, ?_, ?_⟩
  · rcases k c with g | g <;> rw [g, F32.bits_ofBV]
    · rw [mul_comm]; exact IEEE.mul_rounds P hs ha
    · exact IEEE.mul_rounds P ha hs
  · rcases k c with g | g <;> rcases k c' with g' | g' <;> rw [g, g', F32.bits_ofBV] <;> simp only [F32.bits_ofBV]
    · exact hc.1
    · exact hc.1.symm
  · rcases k c with g | g <;> rcases k c' with g' | g' <;> rw [g, g', F32.bits_ofBV] <;> intro h
    · rfl
    · rw [hc.2 h]
    · rw [hc.2 (fun hh => h (hc.1.1 hh))]
    · rfl

/-- C18: ReciprocalSqrt rounds twice: the square root, then its reciprocal. -/
theorem C18_reciprocalSqrt (A : V4 (F32 P)) (i : Fin 4) (ha : IsFinite (A.lane i).bits) (h : 0 < value (A.lane i).bits) :
    ∃ s, Rounds (Real.sqrt (value (A.lane i).bits)) s ∧ IsFinite s ∧ 0 < value s ∧ Rounds (1 / value s) ((XMVectorReciprocalSqrt A).lane i).bits := by
  have h1 := IEEE.sqrt_rounds P ha h.le
  have h2 := IEEE.sqrt_pos_finite P ha h
  refine ⟨_, h1, h2.1, h2.2, ?_⟩
  have e : (XMVectorReciprocalSqrt A).lane i = F32.ofBV (IEEE.div P 0x3F800000#32 (IEEE.sqrt P (A.lane i).bits)) := by fin_cases i <;> rfl
  have := IEEE.div_rounds P (a := 0x3F800000#32) (by decide) h2.1 h2.2.ne'
  rw [IEEE.value_one] at this
  rw [e]; exact this

/-- C18: special cases of Add and Subtract: NaN propagates; infinity absorbs finite lanes; equal infinities add, opposite ones give NaN;
an exact zero sum is +0 unless both terms are -0. -/
theorem C18_add_special (A B : V4 (F32 P)) (i : Fin 4) :
    let a := (A.lane i).bits; let b := (B.lane i).bits; let s := ((XMVectorAdd A B).lane i).bits; let d := ((XMVectorSubtract A B).lane i).bits
    (IsNaN a ∨ IsNaN b → IsNaN s ∧ IsNaN d) ∧
    (IsInf a → IsFinite b → s = a ∧ d = a) ∧
    (IsFinite a → IsInf b → s = b ∧ d = b ^^^ 0x80000000#32) ∧
    (IsInf a → IsInf b → (a = b → s = a ∧ IsNaN d) ∧ (a ≠ b → IsNaN s ∧ d = a)) ∧
    (IsFinite a → IsFinite b → value a + value b = 0 → s = if signBit a && signBit b then 0x80000000#32 else 0#32) := by
  intro a b s d
  have hs : s = IEEE.add P a b := by show ((XMVectorAdd A B).lane i).bits = _; fin_cases i <;> rfl
  have hd : d = IEEE.sub P a b := by show ((XMVectorSubtract A B).lane i).bits = _; fin_cases i <;> rfl
  clear_value a b s d; subst hs hd
  exact IEEE.add_special P a b

/-- C18: special cases of Multiply: NaN propagates; infinity times zero is NaN; otherwise infinity; the sign of any non-NaN product is the
exclusive or of the signs (zeros and infinities included). -/
theorem C18_multiply_special (A B : V4 (F32 P)) (i : Fin 4) :
    let a := (A.lane i).bits; let b := (B.lane i).bits; let p := ((XMVectorMultiply A B).lane i).bits
    (IsNaN a ∨ IsNaN b → IsNaN p) ∧
    (IsInf a → IsFinite b → value b = 0 → IsNaN p) ∧ (IsInf b → IsFinite a → value a = 0 → IsNaN p) ∧
    (IsInf a → ¬ IsNaN b → ¬ FEq b 0#32 → IsInf p) ∧ (IsInf b → ¬ IsNaN a → ¬ FEq a 0#32 → IsInf p) ∧
    (¬ IsNaN p → signBit p = (signBit a != signBit b)) := by
  intro a b p
  have hp : p = IEEE.mul P a b := by show ((XMVectorMultiply A B).lane i).bits = _; fin_cases i <;> rfl
  clear_value a b p; subst hp
  exact IEEE.mul_special P a b

/-- C18: special cases of Divide: NaN propagates; 0/0 and inf/inf are NaN; x/0 is infinite; x/inf is zero; the sign is the exclusive or. -/
theorem C18_divide_special (A B : V4 (F32 P)) (i : Fin 4) :
    let a := (A.lane i).bits; let b := (B.lane i).bits; let q := ((XMVectorDivide A B).lane i).bits
    (IsNaN a ∨ IsNaN b → IsNaN q) ∧ (IsInf a → IsInf b → IsNaN q) ∧
    (IsFinite a → IsFinite b → value a = 0 → value b = 0 → IsNaN q) ∧
    (IsFinite a → IsFinite b → value a ≠ 0 → value b = 0 → IsInf q) ∧
    (IsInf a → IsFinite b → IsInf q) ∧ (IsFinite a → IsInf b → IsFinite q ∧ value q = 0) ∧
    (¬ IsNaN q → signBit q = (signBit a != signBit b)) := by
  intro a b q
  have hq : q = IEEE.div P a b := by show ((XMVectorDivide A B).lane i).bits = _; fin_cases i <;> rfl
  clear_value a b q; subst hq
  exact IEEE.div_special P a b

/-- C18: special cases of Sqrt: a zero is returned as it is, negative lanes and NaN give NaN, +infinity gives +infinity. -/
theorem C18_sqrt_special (A : V4 (F32 P)) (i : Fin 4) :
    let a := (A.lane i).bits; let r := ((XMVectorSqrt A).lane i).bits
    (IsNaN a → IsNaN r) ∧ (FLt a 0#32 → IsNaN r) ∧ (FEq a 0#32 → r = a) ∧ (a = 0x7F800000#32 → r = a) := by
  intro a r
  have hr : r = IEEE.sqrt P a := by show ((XMVectorSqrt A).lane i).bits = _; fin_cases i <;> rfl
  clear_value a r; subst hr
  exact IEEE.sqrt_special P a

example : IsFinite 0x3F800000#32 ∧ IsFinite 0x00000001#32 ∧ IsInf 0xFF800000#32 ∧ IsNaN 0x7F800001#32 := by decide

end DXM.Props
