import Verif.Lemmas.Same
import Verif.Lemmas.FErr

/-
Operations that do not round: `Ex a v` says that the float `a` is finite and is exactly the number `v`; `Ro a v` that `a` is `v` correctly rounded.
-/

set_option linter.all false

namespace DXM.FErr
open DXM.Spec DXM.IEEE
variable {P : Env} {a b c : F32 P} {v w u : ℝ}

/-- The float is finite and equals the number. -/
def Ex (a : F32 P) (v : ℝ) : Prop := Fin' a ∧ val a = v
/-- The number is a float. -/
def IsF (v : ℝ) : Prop := ∃ y : BitVec 32, IsFinite y ∧ value y = v
/-- The float is the number correctly rounded. -/
def Ro (a : F32 P) (v : ℝ) : Prop := Rounds v a.bits

theorem ex_leaf (h : Fin' a) : Ex a (val a) := ⟨h, rfl⟩
theorem ex_zero : Ex (Lane.ofBits 0#32 : F32 P) 0 := ⟨by show IsFinite 0#32; decide, by show value 0#32 = 0; exact value_zero_iff.2 (by decide)⟩
theorem ex_one : Ex (Lane.ofBits 0x3F800000#32 : F32 P) 1 := ⟨fin_one, val_one⟩
theorem ex_negOne : Ex (Lane.ofBits 0xBF800000#32 : F32 P) (-1) := ⟨fin_negOne, val_negOne⟩
theorem ex_nz : Ex (Lane.ofBits 0x80000000#32 : F32 P) 0 := ⟨by show IsFinite 0x80000000#32; decide, by show value 0x80000000#32 = 0; exact value_zero_iff.2 (by decide)⟩
theorem Ex.isF (h : Ex a v) : IsF v := ⟨a.bits, h.1, h.2⟩
theorem isF_val (h : Fin' a) : IsF (val a) := ⟨a.bits, h, rfl⟩
theorem isF_neg (h : IsF v) : IsF (-v) := by
  obtain ⟨y, h1, h2⟩ := h
  exact ⟨IEEE.neg y, finite_neg.2 h1, by rw [neg_value, h2]⟩
theorem isF_zero : IsF 0 := ⟨0#32, by decide, value_zero_iff.2 (by decide)⟩
theorem isF_one : IsF 1 := ⟨0x3F800000#32, by decide, value_one⟩
theorem ro_ex (h : Ro a v) (hv : IsF v) : Ex a v := by
  obtain ⟨y, h1, rfl⟩ := hv
  exact rounds_exact h1 h

theorem ro_add (ha : Ex a v) (hb : Ex b w) : Ro (Lane.add a b) (v + w) := by
  obtain ⟨h1, rfl⟩ := ha; obtain ⟨h2, rfl⟩ := hb; exact add_rounds P h1 h2
theorem ro_sub (ha : Ex a v) (hb : Ex b w) : Ro (Lane.sub a b) (v - w) := by
  obtain ⟨h1, rfl⟩ := ha; obtain ⟨h2, rfl⟩ := hb; exact sub_rounds P h1 h2
theorem ro_mul (ha : Ex a v) (hb : Ex b w) : Ro (Lane.mul a b) (v * w) := by
  obtain ⟨h1, rfl⟩ := ha; obtain ⟨h2, rfl⟩ := hb; exact mul_rounds P h1 h2
theorem ro_fma (ha : Ex a v) (hb : Ex b w) (hc : Ex c u) : Ro (Lane.fma a b c) (v * w + u) := by
  obtain ⟨h1, rfl⟩ := ha; obtain ⟨h2, rfl⟩ := hb; obtain ⟨h3, rfl⟩ := hc; exact fma_rounds P h1 h2 h3
theorem ro_fnma (ha : Ex a v) (hb : Ex b w) (hc : Ex c u) : Ro (Lane.fnma a b c) (u - v * w) := by
  obtain ⟨h1, rfl⟩ := ha; obtain ⟨h2, rfl⟩ := hb; obtain ⟨h3, rfl⟩ := hc; exact fnma_rounds P h1 h2 h3
theorem ro_div (ha : Ex a v) (hb : Ex b w) (hw : w ≠ 0) : Ro (Lane.div a b) (v / w) := by
  obtain ⟨h1, rfl⟩ := ha; obtain ⟨h2, rfl⟩ := hb; exact div_rounds P h1 h2 hw

theorem ex_add (ha : Ex a v) (hb : Ex b w) (h : IsF (v + w)) : Ex (Lane.add a b) (v + w) := ro_ex (ro_add ha hb) h
theorem ex_sub (ha : Ex a v) (hb : Ex b w) (h : IsF (v - w)) : Ex (Lane.sub a b) (v - w) := ro_ex (ro_sub ha hb) h
theorem ex_mul (ha : Ex a v) (hb : Ex b w) (h : IsF (v * w)) : Ex (Lane.mul a b) (v * w) := ro_ex (ro_mul ha hb) h
theorem ex_fma (ha : Ex a v) (hb : Ex b w) (hc : Ex c u) (h : IsF (v * w + u)) : Ex (Lane.fma a b c) (v * w + u) := ro_ex (ro_fma ha hb hc) h
theorem ex_fnma (ha : Ex a v) (hb : Ex b w) (hc : Ex c u) (h : IsF (u - v * w)) : Ex (Lane.fnma a b c) (u - v * w) := ro_ex (ro_fnma ha hb hc) h
theorem ex_div (ha : Ex a v) (hb : Ex b w) (hw : w ≠ 0) (h : IsF (v / w)) : Ex (Lane.div a b) (v / w) := ro_ex (ro_div ha hb hw) h
theorem ex_neg (ha : Ex a v) : Ex (Lane.neg a) (-v) := by
  obtain ⟨h1, rfl⟩ := ha
  exact ⟨finite_neg.2 h1, neg_value _⟩
theorem Ex.eq (h : Ex a v) (e : v = w) : Ex a w := e ▸ h
theorem Ro.eq (h : Ro a v) (e : v = w) : Ro a w := e ▸ h

theorem Ex.sameNum (h : Ex a v) (g : Ex b v) : SameNum a b := by
  refine Or.inl ⟨not_nan_of_finite h.1, not_nan_of_finite g.1, ?_⟩
  rw [evalue_finite h.1, evalue_finite g.1]
  exact congrArg _ (h.2.trans g.2.symm)

/-- Correct rounding only depends on the number, not on the sign of a zero. -/
theorem Ro.congr (h : Ro a v) (e : SameNum b a) : Ro b v := by
  have hn : ¬ IsNaN a.bits := by
    intro hn
    rcases lt_or_ge |v| overflow with hv | hv
    · exact not_nan_of_finite (h.finite hv) hn
    · rcases le_abs.1 hv with g | g
      · rw [h.top g] at hn; revert hn; decide
      · rw [h.bot (by linarith)] at hn; revert hn; decide
  rcases e with e | e
  · rcases feq_cases e with e | ⟨e1, e2⟩
    · unfold Ro; rw [e]; exact h
    · have v1 := value_zero_iff.2 e1
      have v2 := value_zero_iff.2 e2
      have i1 : IsFinite b.bits := by
        by_contra g
        unfold IsFinite at g
        have : am b.bits = 0 := SameNum.mag_zero_am e1
        exact (finite_iff' b.bits).not.1 (by unfold IsFinite; exact g) (by
          have := SameNum.isNaN_zero e1; have := SameNum.isInf_zero e1
          simp_all)
      have f1 : fracField b.bits = 0 := by
        have h1 : am b.bits = 0 := SameNum.mag_zero_am e1
        unfold am at h1
        unfold fracField; omega
      have big : |v| < overflow := by
        by_contra g
        rcases le_abs.1 (not_lt.1 g) with g | g
        · rw [h.top g] at e2; revert e2; decide
        · rw [h.bot (by linarith)] at e2; revert e2; decide
      refine ⟨fun _ => i1, fun hb y hy => ?_, fun _ _ _ _ _ => by rw [f1], fun g => ?_, fun g => ?_⟩
      · rw [v1, ← v2]; exact h.nearest hb y hy
      · exact absurd big (not_lt.2 (g.trans (le_abs_self _)))
      · exact absurd big (not_lt.2 (by linarith [neg_abs_le v]))
  · exact absurd e.2 hn

theorem Ex.zero_mag (h : Ex a 0) : mag a.bits = 0 := value_zero_iff.1 h.2
theorem Ex.sameZero (h : Ex a 0) : SameNum a (Lane.ofBits 0#32) := SameNum.zeros h.zero_mag (show mag 0#32 = 0 by decide)
theorem Ro.add0 (h : Ro a v) (g : Ex b 0) : Ro (Lane.add a b) v := h.congr ((SameNum.add_left g.sameZero).trans (SameNum.add_zero a))
theorem Ro.zero_add (h : Ro a v) (g : Ex b 0) : Ro (Lane.add b a) v :=
  h.congr ((SameNum.of_same (Same.add_comm _ _)).trans ((SameNum.add_left g.sameZero).trans (SameNum.add_zero a)))
theorem Ro.mul1 (h : Ro a v) : Ro (Lane.mul a (Lane.ofBits 0x3F800000#32)) v := h.congr (SameNum.mul_one a)

theorem Ro.cases (h : Ro a v) : Ex a (val a) ∨ a.bits = 0x7F800000#32 ∨ a.bits = 0xFF800000#32 := by
  rcases lt_or_ge |v| overflow with hv | hv
  · exact Or.inl ⟨h.finite hv, rfl⟩
  · rcases le_abs.1 hv with g | g
    · exact Or.inr (Or.inl (h.top g))
    · exact Or.inr (Or.inr (h.bot (by linarith)))
theorem inf_bits {x : BitVec 32} (h : IsInf x) : x = if signBit x then 0xFF800000#32 else 0x7F800000#32 := by
  obtain ⟨h1, h2⟩ := h
  unfold expField at h1; unfold fracField at h2; unfold signBit
  rw [BitVec.getLsbD, Nat.testBit_eq_decide_div_mod_eq]
  apply BitVec.eq_of_toNat_eq
  have := x.isLt
  split_ifs with g
  · simp at g; show x.toNat = 0xFF800000; omega
  · simp at g; show x.toNat = 0x7F800000; omega
theorem signBit_pos {x : BitVec 32} (hx : IsFinite x) (h : 0 < value x) : signBit x = false := by
  by_contra g
  rw [Bool.not_eq_false] at g
  have := value_sign x
  rw [sg_eq, g] at this
  have h1 : (0:ℝ) ≤ (mag x : ℝ) * 2^(-149:ℤ) := by positivity
  simp at this
  have h2 : (2:ℝ)^(-149:ℤ) = (2^149)⁻¹ := by norm_num
  rw [h2] at h1
  linarith
theorem div1_inf (h : IsInf a.bits) (g : Ex b 1) : (Lane.div a b).bits = a.bits := by
  have h1 : IsInf (Lane.div a b).bits := (div_special P a.bits b.bits).2.2.2.2.1 h g.1
  have h2 := (div_special P a.bits b.bits).2.2.2.2.2.2 (not_nan_of_inf h1)
  have h3 : signBit b.bits = false := signBit_pos g.1 (by rw [show value b.bits = 1 from g.2]; norm_num)
  rw [inf_bits h1, inf_bits h]
  have h4 : signBit (Lane.div a b).bits = signBit a.bits := by
    refine Eq.trans h2 ?_
    rw [h3]; simp
  rw [h4]
theorem Ro.div1 (h : Ro a v) (g : Ex b 1) : Ro (Lane.div a b) v := by
  rcases h.cases with e | e
  · have := ro_ex (ro_div e g one_ne_zero) (by rw [div_one]; exact e.isF)
    rw [div_one] at this
    exact h.congr (this.sameNum e)
  · have hi : IsInf a.bits := by rcases e with e | e <;> rw [e] <;> decide
    unfold Ro; rw [div1_inf hi g]; exact h

theorem fma_inf (ha : Fin' a) (hb : Fin' b) (hc : IsInf c.bits) : (Lane.fma a b c).bits = c.bits := by
  show IEEE.fma P a.bits b.bits c.bits = c.bits
  have h1 := isNaN_f (not_nan_of_finite ha); have h2 := isNaN_f (not_nan_of_finite hb); have h3 := isNaN_f (not_nan_of_inf hc)
  have h4 := isInf_f (not_inf_of_finite ha); have h5 := isInf_f (not_inf_of_finite hb); have h6 := (isInf_iff c.bits).2 hc
  unfold IEEE.fma fmaCore
  rw [h1, h2, h3, h4, h5, h6]
  simp only [Bool.or_self, Bool.false_eq_true, if_false, if_true]
/-- Adding a product with an exact zero does not round again. -/
theorem Ro.fma0 (h : Ro c u) (ha : Ex a v) (hb : Ex b w) (h0 : v * w = 0) : Ro (Lane.fma a b c) u := by
  rcases h.cases with e | e
  · have := ro_ex (ro_fma ha hb e) (by rw [h0, _root_.zero_add]; exact e.isF)
    rw [h0, _root_.zero_add] at this
    exact h.congr (this.sameNum e)
  · have hi : IsInf c.bits := by rcases e with e | e <;> rw [e] <;> decide
    unfold Ro; rw [fma_inf ha.1 hb.1 hi]; exact h

/-- Close a side condition: the number is a float, or is (not) zero. -/
macro "isf" : tactic => `(tactic| (simp only [mul_zero, zero_mul, mul_one, one_mul, mul_neg, neg_mul, _root_.neg_neg, neg_zero, add_zero, zero_add, sub_zero, zero_sub, sub_self, div_one, add_neg_cancel, neg_add_cancel]
                                  <;> with_reducible first | done | exact isF_zero | exact isF_one | assumption | exact isF_neg isF_one | (apply isF_neg; assumption) | (norm_num; done)))
/-- Apply the rules for exact operations. -/
macro "ex" : tactic => `(tactic| (repeat' with_reducible first
  | assumption | exact ex_zero | exact ex_one | exact ex_negOne | exact ex_nz
  | apply ex_fma | apply ex_fnma | apply ex_mul | apply ex_add | apply ex_sub | apply ex_neg | apply ex_div) <;> (isf))
/-- The operations are exact and give this number. -/
macro "exv" : tactic => `(tactic| (apply Ex.eq; (focus ex); simp; done))
/-- One operation rounds, those after it do not. -/
macro "ro" : tactic => `(tactic| (
  (try (apply Ro.div1; rotate_left; (focus exv)))
  repeat with_reducible first
    | (apply Ro.eq; (focus (apply ro_fma <;> ex)); ring1)
    | (apply Ro.eq; (focus (apply ro_add <;> ex)); ring1)
    | (apply Ro.eq; (focus (apply ro_mul <;> ex)); ring1)
    | (apply Ro.fma0; rotate_left; (focus ex); (focus ex); (focus (simp; done)))
    | (apply Ro.zero_add; rotate_left; (focus exv))
    | (apply Ro.add0; rotate_left; (focus exv))))

end DXM.FErr
