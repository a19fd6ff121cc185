import Verif.Lemmas.Same

/-
Evaluation of the float operations on given finite operands, whatever the environment.
-/

set_option linter.all false

namespace DXM.Spec
open DXM.IEEE
variable {P : Env}
theorem ev_add (a b r : BitVec 32) (h : (IEEE.isNaN a || IEEE.isNaN b || isInf a || isInf b) = false) (hr : roundI (sg a && sg b) (ival a + ival b) 1 = r) :
    (Lane.add (Lane.ofBits a) (Lane.ofBits b) : F32 P) = Lane.ofBits r := by
  show IEEE.add P a b = r
  simp only [Bool.or_eq_false_iff] at h
  obtain ⟨⟨⟨h1, h2⟩, h3⟩, h4⟩ := h
  unfold IEEE.add addCore; rw [h1, h2, h3, h4]
  simp only [Bool.or_self, Bool.or_false, Bool.false_and, Bool.false_eq_true, if_false]
  exact hr
theorem ev_sub (a b r : BitVec 32) (h : (IEEE.isNaN a || IEEE.isNaN b || isInf a || isInf (IEEE.neg b)) = false) (hr : roundI (sg a && sg (IEEE.neg b)) (ival a + ival (IEEE.neg b)) 1 = r) :
    (Lane.sub (Lane.ofBits a) (Lane.ofBits b) : F32 P) = Lane.ofBits r := by
  show IEEE.sub P a b = r
  simp only [Bool.or_eq_false_iff] at h
  obtain ⟨⟨⟨h1, h2⟩, h3⟩, h4⟩ := h
  unfold IEEE.sub addCore; rw [h1, h2, h3, h4]
  simp only [Bool.or_self, Bool.or_false, Bool.false_and, Bool.false_eq_true, if_false]
  exact hr
theorem ev_mul (a b r : BitVec 32) (h : (IEEE.isNaN a || IEEE.isNaN b || isInf a || isInf b) = false) (hr : mk (sg a != sg b) (roundN (mag a * mag b) (2^149)) = r) :
    (Lane.mul (Lane.ofBits a) (Lane.ofBits b) : F32 P) = Lane.ofBits r := by
  show IEEE.mul P a b = r
  simp only [Bool.or_eq_false_iff] at h
  obtain ⟨⟨⟨h1, h2⟩, h3⟩, h4⟩ := h
  unfold IEEE.mul; rw [h1, h2, h3, h4]
  simp only [Bool.or_self, Bool.or_false, Bool.false_and, Bool.false_eq_true, if_false]
  exact hr
theorem ev_div (a b r : BitVec 32) (h : (IEEE.isNaN a || IEEE.isNaN b || isInf a || isInf b || decide (mag b = 0)) = false)
    (hr : mk (sg a != sg b) (roundN (mag a * 2^149) (mag b)) = r) :
    (Lane.div (Lane.ofBits a) (Lane.ofBits b) : F32 P) = Lane.ofBits r := by
  show IEEE.div P a b = r
  simp only [Bool.or_eq_false_iff, decide_eq_false_iff_not] at h
  obtain ⟨⟨⟨⟨h1, h2⟩, h3⟩, h4⟩, h5⟩ := h
  unfold IEEE.div; rw [h1, h2, h3, h4, if_neg h5]
  simp only [Bool.or_self, Bool.or_false, Bool.false_and, Bool.false_eq_true, if_false]
  exact hr
theorem ev_fma (a b c r : BitVec 32) (h : (IEEE.isNaN a || IEEE.isNaN b || IEEE.isNaN c || isInf a || isInf b || isInf c) = false)
    (hr : roundI ((sg a != sg b) && sg c) (ival a * ival b + ival c * 2^149) (2^149) = r) :
    (Lane.fma (Lane.ofBits a) (Lane.ofBits b) (Lane.ofBits c) : F32 P) = Lane.ofBits r := by
  show IEEE.fma P a b c = r
  simp only [Bool.or_eq_false_iff] at h
  obtain ⟨⟨⟨⟨⟨h1, h2⟩, h3⟩, h4⟩, h5⟩, h6⟩ := h
  unfold IEEE.fma fmaCore; rw [h1, h2, h3, h4, h5, h6]
  simp only [Bool.or_self, Bool.or_false, Bool.false_and, Bool.false_eq_true, if_false]
  exact hr
/-- `s` is the integer square root of the operand in units of 2^-298. -/
theorem ev_sqrt (a : BitVec 32) (s : ℕ) (r : BitVec 32) (h : (IEEE.isNaN a || decide (mag a = 0) || sg a || isInf a) = false)
    (hs : s * s ≤ mag a * 2^149 ∧ mag a * 2^149 < (s + 1) * (s + 1)) (hr : mk false (roundN (2 * s + if s * s = mag a * 2^149 then 0 else 1) 2) = r) :
    (Lane.sqrt (Lane.ofBits a) : F32 P) = Lane.ofBits r := by
  show IEEE.sqrt P a = r
  simp only [Bool.or_eq_false_iff, decide_eq_false_iff_not] at h
  obtain ⟨⟨⟨h1, h2⟩, h3⟩, h4⟩ := h
  have e : Nat.sqrt (mag a * 2^149) = s := Nat.eq_sqrt.2 hs |>.symm
  unfold IEEE.sqrt
  simp only []
  rw [h1, if_neg h2, h3, h4, e]
  simp only [Bool.false_eq_true, if_false]
  exact hr
theorem differ (a b : BitVec 32) (h : (IEEE.isNaN a || decide (mag a = 0) || decide (a = b)) = false) :
    ¬ SameNum (Lane.ofBits a : F32 P) (Lane.ofBits b) := by
  simp only [Bool.or_eq_false_iff, decide_eq_false_iff_not] at h
  obtain ⟨⟨h1, h2⟩, h3⟩ := h
  rintro (g | g)
  · rcases feq_cases g with g | g
    · exact h3 g
    · exact h2 g.1
  · have := (isNaN_iff a).2 g.1
    rw [h1] at this; cases this
end DXM.Spec
