import Verif.Lemmas.FEval

/-
Sign symmetry of the float operations.
-/

set_option linter.all false

namespace DXM.Spec
open DXM.IEEE
variable {P : Env} {a b a' b' : F32 P}

namespace SameNum
theorem ival_neg (x : BitVec 32) : ival (IEEE.neg x) = - ival x := by
  unfold ival; rw [sg_neg, mag_neg]
  cases sg x <;> simp
theorem nn (x : BitVec 32) : IEEE.neg (IEEE.neg x) = x := by
  refine ext_am ?_ ?_
  · rw [sg_neg, sg_neg, Bool.not_not]
  · rw [am_neg, am_neg]
theorem neg_mk (s : Bool) (n : ℕ) (h : n < 2^31) : IEEE.neg (mk s n) = mk (!s) n := by
  refine ext_am ?_ ?_
  · rw [sg_neg, sg_mk _ _ h, sg_mk _ _ h]
  · rw [am_neg, am_mk _ _ h, am_mk _ _ h]
theorem roundI_neg (s t : Bool) (n : ℤ) (q : ℕ) : roundI s (-n) q = IEEE.neg (roundI t n q) ∨ (mag (roundI s (-n) q) = 0 ∧ mag (IEEE.neg (roundI t n q)) = 0) := by
  unfold roundI
  by_cases h : n = 0
  · right; subst h; simp only [neg_zero, if_true]; exact ⟨mag_mk0 _, by rw [mag_neg, mag_mk0]⟩
  · left
    rw [if_neg (by omega), if_neg h, neg_mk _ _ (roundN_lt _ _), Int.natAbs_neg]
    congr 1
    rw [← decide_not]; congr 1; simp only [eq_iff_iff]; omega
/-- The difference taken the other way round is the opposite. -/
theorem sub_anti (a b : F32 P) : SameNum (Lane.sub a b) (Lane.neg (Lane.sub b a)) := by
  by_cases hn : IsNaN a.bits ∨ IsNaN b.bits
  · exact nans (Same.sub_nan _ _ hn) (Same.neg_nan _ (Same.sub_nan _ _ hn.symm))
  rw [not_or] at hn
  have ha := isNaN_f hn.1; have hb := isNaN_f hn.2
  have key : ∀ x y : BitVec 32, x = y ∨ (mag x = 0 ∧ mag y = 0) ∨ (IsNaN x ∧ IsNaN y) → SameNum (P := P) x y := by
    rintro x y (h | h | h)
    · rw [h]; exact rfl'
    · exact zeros (a := (x : F32 P)) (b := (y : F32 P)) h.1 h.2
    · exact nans (a := (x : F32 P)) (b := (y : F32 P)) h.1 h.2
  refine key (IEEE.sub P a.bits b.bits) (IEEE.neg (IEEE.sub P b.bits a.bits)) ?_
  unfold IEEE.sub
  rw [ha, hb]
  simp only [Bool.or_self, Bool.false_eq_true, if_false]
  unfold addCore
  have ia : isInf (IEEE.neg a.bits) = isInf a.bits := by unfold isInf; rw [am_neg]
  have ib : isInf (IEEE.neg b.bits) = isInf b.bits := by unfold isInf; rw [am_neg]
  rw [ia, ib, sg_neg, sg_neg]
  by_cases h1 : isInf a.bits = true
  · rw [if_pos h1]
    by_cases h2 : isInf b.bits = true
    · simp only [h1, h2, Bool.true_and, if_true]
      by_cases h3 : (sg a.bits != !sg b.bits) = true
      · have h4 : (sg b.bits != !sg a.bits) = true := by revert h3; cases sg a.bits <;> cases sg b.bits <;> simp
        rw [if_pos h3, if_pos h4]
        exact Or.inr (Or.inr ⟨isNaN_qnan _ _ _ _ _, (isNaN_am (am_neg _)).2 (isNaN_qnan _ _ _ _ _)⟩)
      · have h4 : ¬ (sg b.bits != !sg a.bits) = true := by revert h3; cases sg a.bits <;> cases sg b.bits <;> simp
        rw [if_neg h3, if_neg h4]
        left
        have e1 : am a.bits = am b.bits := by unfold isInf at h1 h2; simp at h1 h2; rw [h1, h2]
        refine ext_am ?_ ?_
        · rw [sg_neg]; revert h3; cases sg a.bits <;> cases sg b.bits <;> simp
        · rw [am_neg]; exact e1
    · rw [if_neg h2, if_pos h1]
      have : (isInf b.bits && sg a.bits != !sg b.bits) = false := by simp [h2]
      rw [this]
      left; simp only [Bool.false_eq_true, if_false]; exact (nn _).symm
  · rw [if_neg h1]
    by_cases h2 : isInf b.bits = true
    · rw [if_pos h2, if_pos h2]
      have : (isInf a.bits && sg b.bits != !sg a.bits) = false := by simp [h1]
      rw [this]
      left; simp only [Bool.false_eq_true, if_false]
    · rw [if_neg h2, if_neg h2, if_neg h1, ival_neg, ival_neg]
      have e : ival a.bits + -ival b.bits = -(ival b.bits + -ival a.bits) := by ring
      rw [e]
      rcases roundI_neg (sg a.bits && !sg b.bits) (sg b.bits && !sg a.bits) (ival b.bits + -ival a.bits) 1 with h | h
      · exact Or.inl h
      · exact Or.inr (Or.inl h)
/-- A square does not see the sign. -/
theorem sq_neg (a : F32 P) : Lane.mul (Lane.neg a) (Lane.neg a) = Lane.mul a a ∨ IsNaN a.bits := by
  by_cases hn : IsNaN a.bits
  · exact Or.inr hn
  left
  show IEEE.mul P (IEEE.neg a.bits) (IEEE.neg a.bits) = IEEE.mul P a.bits a.bits
  have i : isInf (IEEE.neg a.bits) = isInf a.bits := by unfold isInf; rw [am_neg]
  have n1 := isNaN_f hn
  have n2 : IEEE.isNaN (IEEE.neg a.bits) = false := by rw [← n1]; unfold IEEE.isNaN; rw [am_neg]
  unfold IEEE.mul
  rw [n1, n2, i, mag_neg, sg_neg]
  cases h : isInf a.bits
  · simp
  · by_cases h0 : mag a.bits = 0
    · exfalso; rw [isInf_zero h0] at h; cases h
    · simp [h0]
theorem sq_congr (h : SameNum a (Lane.neg b)) : SameNum (Lane.mul a a) (Lane.mul b b) := by
  refine (mul h h).trans ?_
  rcases sq_neg b with e | e
  · rw [e]; exact rfl'
  · exact nans (Same.mul_nan _ _ (Or.inl (Same.neg_nan _ e))) (Same.mul_nan _ _ (Or.inl e))
theorem le_congr (h : SameNum a a') (g : SameNum b b') : Lane.le a b = Lane.le a' b' := by
  have key : ∀ {x y x' y' : F32 P}, SameNum x x' → SameNum y y' → Lane.le x y = true → Lane.le x' y' = true := by
    intro x y x' y' h g hl
    have hl' : FLe x.bits y.bits := (IEEE.le_iff _ _).1 hl
    suffices hs : FLe x'.bits y'.bits from (IEEE.le_iff _ _).2 hs
    rcases h with h | h
    · rcases g with g | g
      · exact ⟨h.2.1, g.2.1, by rw [← h.2.2, ← g.2.2]; exact hl'.2.2⟩
      · exact absurd g.1 hl'.2.1
    · exact absurd h.1 hl'.1
  rw [Bool.eq_iff_iff]
  exact ⟨key h g, key h.symm g.symm⟩
theorem lt_congr (h : SameNum a a') (g : SameNum b b') : Lane.lt a b = Lane.lt a' b' := by
  have key : ∀ {x y x' y' : F32 P}, SameNum x x' → SameNum y y' → Lane.lt x y = true → Lane.lt x' y' = true := by
    intro x y x' y' h g hl
    have hl' : FLt x.bits y.bits := (IEEE.lt_iff _ _).1 hl
    suffices hs : FLt x'.bits y'.bits from (IEEE.lt_iff _ _).2 hs
    rcases h with h | h
    · rcases g with g | g
      · exact ⟨h.2.1, g.2.1, by rw [← h.2.2, ← g.2.2]; exact hl'.2.2⟩
      · exact absurd g.1 hl'.2.1
    · exact absurd h.1 hl'.1
  rw [Bool.eq_iff_iff]
  exact ⟨key h g, key h.symm g.symm⟩
end SameNum

theorem ev_fnma (a b c r : BitVec 32) (h : (IEEE.isNaN a || IEEE.isNaN b || IEEE.isNaN c || isInf (IEEE.neg a) || isInf b || isInf c) = false)
    (hr : roundI ((sg (IEEE.neg a) != sg b) && sg c) (ival (IEEE.neg a) * ival b + ival c * 2^149) (2^149) = r) :
    (Lane.fnma (Lane.ofBits a) (Lane.ofBits b) (Lane.ofBits c) : F32 P) = Lane.ofBits r := by
  show IEEE.fnma P a b c = r
  simp only [Bool.or_eq_false_iff] at h
  obtain ⟨⟨⟨⟨⟨h1, h2⟩, h3⟩, h4⟩, h5⟩, h6⟩ := h
  unfold IEEE.fnma fmaCore; rw [h1, h2, h3, h4, h5, h6]
  simp only [Bool.or_self, Bool.or_false, Bool.false_and, Bool.false_eq_true, if_false]
  exact hr

/-- Same operations on operands that are the same numbers. -/
syntax "snum" : tactic
macro_rules | `(tactic| snum) => `(tactic| first
  | with_reducible assumption
  | with_reducible exact SameNum.rfl'
  | (with_reducible apply SameNum.add <;> snum) | (with_reducible apply SameNum.sqrt <;> snum)
  | (with_reducible apply SameNum.mul <;> snum) | (with_reducible apply SameNum.sub <;> snum) | (with_reducible apply SameNum.neg <;> snum))

end DXM.Spec
