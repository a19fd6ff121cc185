import Verif.Spec.Same
import Verif.Lemmas.F32Val

/-
Congruence of the float operations under "the same float" and "the same number".
-/

set_option linter.all false

namespace DXM.Spec
open DXM.IEEE
variable {P : Env} {a b c a' b' c' : F32 P}

theorem nan_iff_of (h : Same a b) : IsNaN a.bits ↔ IsNaN b.bits := by
  rcases h with h | h
  · rw [h]
  · exact ⟨fun _ => h.2, fun _ => h.1⟩

namespace Same
theorem rfl' : Same a a := Or.inl rfl
theorem symm (h : Same a b) : Same b a := h.elim (fun h => Or.inl h.symm) (fun h => Or.inr h.symm)
theorem trans (h : Same a b) (g : Same b c) : Same a c := by
  rcases h with h | h
  · unfold Same; rw [h]; exact g
  · exact Or.inr ⟨h.1, (nan_iff_of g).1 h.2⟩

/-- An operation that is NaN on NaN operands respects sameness. -/
theorem op1 (f : F32 P → F32 P) (hf : ∀ x, IsNaN x.bits → IsNaN (f x).bits) (h : Same a a') : Same (f a) (f a') := by
  rcases h with h | h
  · left; rw [show a = a' from h]
  · exact Or.inr ⟨hf _ h.1, hf _ h.2⟩
theorem op2 (f : F32 P → F32 P → F32 P) (hf : ∀ x y, IsNaN x.bits ∨ IsNaN y.bits → IsNaN (f x y).bits)
    (h : Same a a') (g : Same b b') : Same (f a b) (f a' b') := by
  rcases h with h | h
  · rcases g with g | g
    · left; rw [show a = a' from h, show b = b' from g]
    · exact Or.inr ⟨hf _ _ (Or.inr g.1), hf _ _ (Or.inr g.2)⟩
  · exact Or.inr ⟨hf _ _ (Or.inl h.1), hf _ _ (Or.inl h.2)⟩

theorem add_nan (x y : F32 P) (h : IsNaN x.bits ∨ IsNaN y.bits) : IsNaN (Lane.add x y).bits := by
  show IsNaN (IEEE.add P x.bits y.bits)
  unfold IEEE.add; rw [if_pos (by simpa [isNaN_iff] using h)]; exact isNaN_qnan _ _ _ _ _
theorem sub_nan (x y : F32 P) (h : IsNaN x.bits ∨ IsNaN y.bits) : IsNaN (Lane.sub x y).bits := IEEE.sub_nan P h
theorem mul_nan (x y : F32 P) (h : IsNaN x.bits ∨ IsNaN y.bits) : IsNaN (Lane.mul x y).bits := IEEE.mul_nan P h
theorem div_nan (x y : F32 P) (h : IsNaN x.bits ∨ IsNaN y.bits) : IsNaN (Lane.div x y).bits := by
  show IsNaN (IEEE.div P x.bits y.bits)
  unfold IEEE.div; rw [if_pos (by simpa [isNaN_iff] using h)]; exact isNaN_qnan _ _ _ _ _
theorem sqrt_nan (x : F32 P) (h : IsNaN x.bits) : IsNaN (Lane.sqrt x).bits := by
  show IsNaN (IEEE.sqrt P x.bits)
  unfold IEEE.sqrt; rw [if_pos (by simpa [isNaN_iff] using h)]; exact isNaN_qnan _ _ _ _ _
theorem neg_nan (x : F32 P) (h : IsNaN x.bits) : IsNaN (Lane.neg x).bits := (isNaN_am (am_neg x.bits)).2 h

theorem add (h : Same a a') (g : Same b b') : Same (Lane.add a b) (Lane.add a' b') := op2 _ add_nan h g
theorem sub (h : Same a a') (g : Same b b') : Same (Lane.sub a b) (Lane.sub a' b') := op2 _ sub_nan h g
theorem mul (h : Same a a') (g : Same b b') : Same (Lane.mul a b) (Lane.mul a' b') := op2 _ mul_nan h g
theorem div (h : Same a a') (g : Same b b') : Same (Lane.div a b) (Lane.div a' b') := op2 _ div_nan h g
theorem sqrt (h : Same a a') : Same (Lane.sqrt a) (Lane.sqrt a') := op1 _ sqrt_nan h
theorem neg (h : Same a a') : Same (Lane.neg a) (Lane.neg a') := op1 _ neg_nan h

theorem mul_comm (a b : F32 P) : Same (Lane.mul a b) (Lane.mul b a) := by
  have h := mul_comm_bits P a.bits b.bits
  by_cases hn : IsNaN (IEEE.mul P a.bits b.bits)
  · exact Or.inr ⟨hn, h.1.1 hn⟩
  · exact Or.inl (h.2 hn)
theorem add_comm (a b : F32 P) : Same (Lane.add a b) (Lane.add b a) := by
  by_cases hn : IsNaN a.bits ∨ IsNaN b.bits
  · exact Or.inr ⟨add_nan _ _ hn, add_nan _ _ hn.symm⟩
  rw [not_or] at hn
  have ha := isNaN_f hn.1; have hb := isNaN_f hn.2
  unfold Same
  show IEEE.add P a.bits b.bits = IEEE.add P b.bits a.bits ∨ (IsNaN (IEEE.add P a.bits b.bits) ∧ IsNaN (IEEE.add P b.bits a.bits))
  unfold IEEE.add addCore
  rw [ha, hb]
  simp only [Bool.or_self, Bool.false_eq_true, if_false]
  rcases Bool.eq_false_or_eq_true (isInf a.bits) with ia | ia <;> rcases Bool.eq_false_or_eq_true (isInf b.bits) with ib | ib
  · simp only [ia, ib, if_true, Bool.true_and]
    by_cases hs : sg a.bits = sg b.bits
    · left
      rw [hs]
      simp only [bne_self_eq_false, Bool.false_eq_true, if_false]
      exact ext_am hs (by unfold isInf at ia ib; simp at ia ib; rw [ia, ib])
    · right
      rw [if_pos (by simpa using hs), if_pos (by simpa using fun h => hs h.symm)]
      exact ⟨isNaN_qnan _ _ _ _ _, isNaN_qnan _ _ _ _ _⟩
  · simp [ia, ib]
  · simp [ia, ib]
  · left; simp only [ia, ib, Bool.false_eq_true, if_false]; rw [Bool.and_comm, Int.add_comm]
theorem mul' (h : Same a b') (g : Same b a') : Same (Lane.mul a b) (Lane.mul a' b') := (mul h g).trans (mul_comm _ _)
theorem add' (h : Same a b') (g : Same b a') : Same (Lane.add a b) (Lane.add a' b') := (add h g).trans (add_comm _ _)

theorem isNaN_congr (h : Same a a') : Lane.isNaN a = Lane.isNaN a' := by
  rw [F32.isNaN_eq, F32.isNaN_eq, Bool.eq_iff_iff, isNaN_iff, isNaN_iff]; exact nan_iff_of h
theorem cmp_congr (f : BitVec 32 → BitVec 32 → Bool) (hf : ∀ x y, IsNaN x ∨ IsNaN y → f x y = false)
    (h : Same a a') (g : Same b b') : f a.bits b.bits = f a'.bits b'.bits := by
  rcases h with h | h
  · rcases g with g | g
    · rw [h, g]
    · rw [hf _ _ (Or.inr g.1), hf _ _ (Or.inr g.2)]
  · rw [hf _ _ (Or.inl h.1), hf _ _ (Or.inl h.2)]
theorem lt_nan (x y : BitVec 32) (h : IsNaN x ∨ IsNaN y) : IEEE.lt x y = false := by
  unfold IEEE.lt; rw [← isNaN_iff, ← isNaN_iff] at h; rcases h with h | h <;> simp [h]
theorem le_nan (x y : BitVec 32) (h : IsNaN x ∨ IsNaN y) : IEEE.le x y = false := by
  unfold IEEE.le; rw [← isNaN_iff, ← isNaN_iff] at h; rcases h with h | h <;> simp [h]
theorem eq_nan (x y : BitVec 32) (h : IsNaN x ∨ IsNaN y) : IEEE.eq x y = false := by
  unfold IEEE.eq; rw [← isNaN_iff, ← isNaN_iff] at h; rcases h with h | h <;> simp [h]
theorem lt_congr (h : Same a a') (g : Same b b') : Lane.lt a b = Lane.lt a' b' := cmp_congr _ lt_nan h g
theorem le_congr (h : Same a a') (g : Same b b') : Lane.le a b = Lane.le a' b' := cmp_congr _ le_nan h g
theorem eq_congr (h : Same a a') (g : Same b b') : Lane.eq a b = Lane.eq a' b' := cmp_congr _ eq_nan h g
theorem ite {p : Prop} [Decidable p] (h : Same a a') (g : Same b b') : Same (if p then a else b) (if p then a' else b') := by
  split_ifs; exacts [h, g]
theorem minps (h : Same a a') (g : Same b b') : Same (Lane.minps a b) (Lane.minps a' b') := by
  unfold Lane.minps; rw [lt_congr h g]; exact ite h g
theorem maxps (h : Same a a') (g : Same b b') : Same (Lane.maxps a b) (Lane.maxps a' b') := by
  unfold Lane.maxps; rw [lt_congr g h]; exact ite h g
end Same


/-! ### The same number -/

theorem feq_cases {x y : BitVec 32} (h : FEq x y) : x = y ∨ (mag x = 0 ∧ mag y = 0) := by
  have hx := isNaN_f h.1; have hy := isNaN_f h.2.1
  have hk : key x = key y := by
    have h1 := (eq_iff x y).2 h
    unfold IEEE.eq at h1; rw [hx, hy] at h1; simpa using h1
  unfold key at hk
  by_cases hs : sg x = sg y
  · left
    refine ext_am hs ?_
    rw [hs] at hk
    split_ifs at hk <;> omega
  · right
    have h0 : am x = 0 ∧ am y = 0 := by
      revert hs hk
      cases sg x <;> cases sg y <;> simp <;> omega
    unfold mag
    rw [h0.1, h0.2]
    exact ⟨rfl, rfl⟩
theorem feq_zeros {x y : BitVec 32} (hx : mag x = 0) (hy : mag y = 0) : FEq x y := by
  have nz : ∀ z, mag z = 0 → ¬ IsNaN z := fun z h g => by
    rw [← isNaN_iff] at g
    unfold IEEE.isNaN at g
    have h1 : magN 0x7F800000 < magN (am z) := magN_strictMono (by simpa using g)
    unfold mag at h; omega
  have h1 := (feq_zero (nz x hx)).2 hx
  have h2 := (feq_zero (nz y hy)).2 hy
  exact ⟨h1.1, h2.1, h1.2.2.trans h2.2.2.symm⟩
theorem feq_refl {x : BitVec 32} (h : ¬ IsNaN x) : FEq x x := ⟨h, h, rfl⟩
theorem feq_symm {x y : BitVec 32} (h : FEq x y) : FEq y x := ⟨h.2.1, h.1, h.2.2.symm⟩

namespace SameNum
theorem rfl' : SameNum a a := by
  by_cases h : IsNaN a.bits
  · exact Or.inr ⟨h, h⟩
  · exact Or.inl (feq_refl h)
theorem of_same (h : Same a b) : SameNum a b := by
  rcases h with h | h
  · have := rfl' (a := a); unfold SameNum at *; rw [← h]; exact this
  · exact Or.inr h
theorem symm (h : SameNum a b) : SameNum b a := h.elim (fun h => Or.inl (feq_symm h)) (fun h => Or.inr h.symm)
theorem trans (h : SameNum a b) (g : SameNum b c) : SameNum a c := by
  rcases h with h | h <;> rcases g with g | g
  · exact Or.inl ⟨h.1, g.2.1, h.2.2.trans g.2.2⟩
  · exact absurd g.1 h.2.1
  · exact absurd h.2 g.1
  · exact Or.inr ⟨h.1, g.2⟩
/-- The same number: the same float, or two zeros. -/
theorem cases (h : SameNum a b) : Same a b ∨ (mag a.bits = 0 ∧ mag b.bits = 0) := by
  rcases h with h | h
  · rcases feq_cases h with g | g
    · exact Or.inl (Or.inl g)
    · exact Or.inr g
  · exact Or.inl (Or.inr h)
theorem zeros (h : mag a.bits = 0) (g : mag b.bits = 0) : SameNum a b := Or.inl (feq_zeros h g)
theorem nans (h : IsNaN a.bits) (g : IsNaN b.bits) : SameNum a b := Or.inr ⟨h, g⟩

theorem mag_zero_am {x : BitVec 32} (h : mag x = 0) : am x = 0 := by
  by_contra h0
  have h1 : magN 0 < magN (am x) := magN_strictMono (Nat.pos_of_ne_zero h0)
  unfold mag at h; omega
theorem isInf_zero {x : BitVec 32} (h : mag x = 0) : isInf x = false := by
  unfold isInf; rw [mag_zero_am h]; rfl
theorem isNaN_zero {x : BitVec 32} (h : mag x = 0) : IEEE.isNaN x = false := by
  unfold IEEE.isNaN; rw [mag_zero_am h]; rfl
theorem ival_zero {x : BitVec 32} (h : mag x = 0) : ival x = 0 := by unfold ival; rw [h]; simp
theorem mag_mk0 (s : Bool) : mag (mk s 0) = 0 := by unfold mag; rw [am_mk _ _ (by norm_num)]; rfl
theorem mag_neg (x : BitVec 32) : mag (IEEE.neg x) = mag x := by unfold mag; rw [am_neg]

theorem neg (h : SameNum a a') : SameNum (Lane.neg a) (Lane.neg a') := by
  rcases h.cases with h | h
  · exact of_same h.neg
  · exact zeros ((mag_neg _).trans h.1) ((mag_neg _).trans h.2)

/-- Adding a zero of either sign gives the same number. -/
theorem addCore_zero (op : ℕ) {x y z : BitVec 32} (hy : mag y = 0) (hz : mag z = 0) (hx : ¬ IsNaN x) :
    FEq (addCore P op x y) (addCore P op x z) := by
  unfold addCore
  rw [isInf_zero hy, isInf_zero hz]
  rcases Bool.eq_false_or_eq_true (isInf x) with ix | ix <;> simp only [ix, if_true, Bool.false_and, Bool.false_eq_true, if_false]
  · exact feq_refl hx
  · rw [ival_zero hy, ival_zero hz]
    simp only [Int.add_zero]
    unfold roundI
    split_ifs with h0
    · exact feq_zeros (mag_mk0 _) (mag_mk0 _)
    · refine feq_refl fun hn => ?_
      have h2 := (roundI_neg false false (ival x) 1).1
      unfold roundI at h2
      rw [if_neg h0] at h2
      exact h2 hn
theorem add_left (h : SameNum b b') : SameNum (Lane.add a b) (Lane.add a b') := by
  rcases h.cases with h | h
  · exact of_same (Same.add Same.rfl' h)
  · by_cases hn : IsNaN a.bits
    · exact nans (Same.add_nan _ _ (Or.inl hn)) (Same.add_nan _ _ (Or.inl hn))
    · left
      show FEq (IEEE.add P a.bits b.bits) (IEEE.add P a.bits b'.bits)
      unfold IEEE.add
      rw [isNaN_f hn, isNaN_zero h.1, isNaN_zero h.2]
      simp only [Bool.or_self, Bool.false_eq_true, if_false]
      exact addCore_zero _ h.1 h.2 hn
theorem add (h : SameNum a a') (g : SameNum b b') : SameNum (Lane.add a b) (Lane.add a' b') :=
  (add_left g).trans ((of_same (Same.add_comm _ _)).trans ((add_left h).trans (of_same (Same.add_comm _ _))))
theorem addCore_op (o o' : ℕ) (x y : BitVec 32) :
    addCore P o x y = addCore P o' x y ∨ (IsNaN (addCore P o x y) ∧ IsNaN (addCore P o' x y)) := by
  unfold addCore
  by_cases h1 : isInf x = true
  · rw [if_pos h1, if_pos h1]
    by_cases h2 : (isInf y && sg x != sg y) = true
    · rw [if_pos h2, if_pos h2]
      exact Or.inr ⟨isNaN_qnan _ _ _ _ _, isNaN_qnan _ _ _ _ _⟩
    · rw [if_neg h2, if_neg h2]; left; trivial
  · rw [if_neg h1, if_neg h1]; left; trivial
/-- Subtraction is addition of the opposite. -/
theorem sub_add (a b : F32 P) : SameNum (Lane.sub a b) (Lane.add a (Lane.neg b)) := by
  by_cases hn : IsNaN a.bits ∨ IsNaN b.bits
  · exact nans (Same.sub_nan _ _ hn) (Same.add_nan _ _ (hn.imp_right (Same.neg_nan b)))
  rw [not_or] at hn
  have ha := isNaN_f hn.1; have hb := isNaN_f hn.2
  have hb' : IEEE.isNaN (IEEE.neg b.bits) = false := by
    rw [← hb]; unfold IEEE.isNaN; rw [am_neg]
  refine of_same ?_
  unfold Same
  show IEEE.sub P a.bits b.bits = IEEE.add P a.bits (IEEE.neg b.bits) ∨
    (IsNaN (IEEE.sub P a.bits b.bits) ∧ IsNaN (IEEE.add P a.bits (IEEE.neg b.bits)))
  unfold IEEE.sub IEEE.add
  rw [ha, hb, hb']
  simp only [Bool.or_self, Bool.false_eq_true, if_false]
  exact addCore_op _ _ _ _
theorem sub (h : SameNum a a') (g : SameNum b b') : SameNum (Lane.sub a b) (Lane.sub a' b') :=
  (sub_add _ _).trans ((add h g.neg).trans (sub_add _ _).symm)
theorem mul_left (h : SameNum b b') : SameNum (Lane.mul a b) (Lane.mul a b') := by
  rcases h.cases with h | h
  · exact of_same (Same.mul Same.rfl' h)
  · by_cases hn : IsNaN a.bits
    · exact nans (Same.mul_nan _ _ (Or.inl hn)) (Same.mul_nan _ _ (Or.inl hn))
    · unfold SameNum
      show FEq (IEEE.mul P a.bits b.bits) (IEEE.mul P a.bits b'.bits) ∨ (IsNaN (IEEE.mul P a.bits b.bits) ∧ IsNaN (IEEE.mul P a.bits b'.bits))
      unfold IEEE.mul
      rw [isNaN_f hn, isNaN_zero h.1, isNaN_zero h.2, isInf_zero h.1, isInf_zero h.2, h.1, h.2]
      simp only [Bool.or_self, Bool.false_eq_true, if_false, Bool.or_false, decide_true, Bool.or_true, if_true, Nat.mul_zero]
      split_ifs
      · exact Or.inr ⟨isNaN_qnan _ _ _ _ _, isNaN_qnan _ _ _ _ _⟩
      · left
        have e : roundN 0 (2^149) = 0 := by
          unfold roundN rne; simp
        rw [e]
        exact feq_zeros (mag_mk0 _) (mag_mk0 _)
theorem mul (h : SameNum a a') (g : SameNum b b') : SameNum (Lane.mul a b) (Lane.mul a' b') :=
  (mul_left g).trans ((of_same (Same.mul_comm _ _)).trans ((mul_left h).trans (of_same (Same.mul_comm _ _))))
theorem sqrt (h : SameNum a a') : SameNum (Lane.sqrt a) (Lane.sqrt a') := by
  rcases h.cases with h | h
  · exact of_same h.sqrt
  · have e : ∀ x : F32 P, mag x.bits = 0 → Lane.sqrt x = x := fun x hx => by
      show IEEE.sqrt P x.bits = x.bits
      unfold IEEE.sqrt; rw [isNaN_zero hx]; simp [hx]
    rw [e a h.1, e a' h.2]; exact zeros h.1 h.2
theorem mul' (h : SameNum a b') (g : SameNum b a') : SameNum (Lane.mul a b) (Lane.mul a' b') :=
  (mul h g).trans (of_same (Same.mul_comm _ _))
theorem add' (h : SameNum a b') (g : SameNum b a') : SameNum (Lane.add a b) (Lane.add a' b') :=
  (add h g).trans (of_same (Same.add_comm _ _))
theorem add_zero (a : F32 P) : SameNum (Lane.add a (Lane.ofBits 0#32)) a := by
  by_cases hn : IsNaN a.bits
  · exact nans (Same.add_nan _ _ (Or.inl hn)) hn
  left
  show FEq (IEEE.add P a.bits 0#32) a.bits
  rcases finite_or hn with h | h
  · have h0 : IsFinite 0#32 := by decide
    have hr := add_rounds P h h0
    have z : value 0#32 = 0 := by
      have := evalue_zero; rw [evalue_finite h0] at this; exact_mod_cast this
    rw [z, _root_.add_zero] at hr
    obtain ⟨h1, h2⟩ := rounds_exact h hr
    exact ⟨not_nan_of_finite h1, hn, by rw [evalue_finite h1, evalue_finite h, h2]⟩
  · rw [((add_special P a.bits 0#32).2.1 h (by decide)).1]; exact feq_refl hn
theorem zero_add (a : F32 P) : SameNum (Lane.add (Lane.ofBits 0#32) a) a := (of_same (Same.add_comm _ _)).trans (add_zero a)
theorem add_zeros (a : F32 P) : SameNum (Lane.add a (Lane.add (Lane.ofBits 0#32) (Lane.ofBits 0#32))) a :=
  (add_left (add_zero _)).trans (add_zero a)
theorem neg_of_spec {x : F32 P} (hn : IsNaN a.bits → IsNaN x.bits) (h : ¬ IsNaN a.bits → ¬ IsNaN x.bits ∧ evalue x.bits = - evalue a.bits) :
    SameNum x (Lane.neg a) := by
  by_cases g : IsNaN a.bits
  · exact nans (hn g) (Same.neg_nan _ g)
  · left
    obtain ⟨h1, h2⟩ := h g
    refine ⟨h1, fun k => g ((isNaN_am (am_neg a.bits)).1 k), ?_⟩
    rw [h2]; exact (evalue_neg a.bits).symm
theorem mul_neg_one (a : F32 P) : SameNum (Lane.mul a (Lane.ofBits 0xBF800000#32)) (Lane.neg a) :=
  neg_of_spec (fun h => Same.mul_nan _ _ (Or.inl h)) fun h => mul_neg_one_spec P h
theorem zero_sub (a : F32 P) : SameNum (Lane.sub (Lane.ofBits 0#32) a) (Lane.neg a) :=
  neg_of_spec (fun h => Same.sub_nan _ _ (Or.inr h)) fun h => zero_sub_spec P h
theorem mul_one (a : F32 P) : SameNum (Lane.mul a (Lane.ofBits 0x3F800000#32)) a := by
  by_cases hn : IsNaN a.bits
  · exact nans (Same.mul_nan _ _ (Or.inl hn)) hn
  left
  show FEq (IEEE.mul P a.bits 0x3F800000#32) a.bits
  have h1 : IsFinite 0x3F800000#32 := by decide
  rcases finite_or hn with h | h
  · have hr := mul_rounds P h h1
    rw [value_one, _root_.mul_one] at hr
    obtain ⟨h1, h2⟩ := rounds_exact h hr
    exact ⟨not_nan_of_finite h1, hn, by rw [evalue_finite h1, evalue_finite h, h2]⟩
  · have e : IEEE.mul P a.bits 0x3F800000#32 = a.bits := by
      have i := (isInf_iff a.bits).2 h
      have m1 : mag 0x3F800000#32 ≠ 0 := by decide +kernel
      have m2 := mag_inf h
      unfold IEEE.mul
      rw [isNaN_f hn, isNaN_f (not_nan_of_finite h1), i]
      simp only [Bool.or_self, Bool.false_eq_true, if_false, Bool.true_or, if_true, m1, m2, decide_false]
      refine ext_am ?_ ?_
      · rw [sg_mk _ _ (by norm_num), show sg 0x3F800000#32 = false by decide]; cases sg a.bits <;> rfl
      · rw [am_mk _ _ (by norm_num)]; unfold isInf at i; simp at i; exact i.symm
    rw [e]; exact feq_refl hn
theorem isNaN_congr (h : SameNum a a') : IsNaN a.bits ↔ IsNaN a'.bits := by
  rcases h with h | h
  · exact ⟨fun g => absurd g h.1, fun g => absurd g h.2.1⟩
  · exact ⟨fun _ => h.2, fun _ => h.1⟩
end SameNum

/-- Same operations in the same order, up to exchanging the operands of sums and products. -/
syntax "same" : tactic
macro_rules | `(tactic| same) => `(tactic| first
  | with_reducible exact Same.rfl'
  | (with_reducible apply Same.add <;> same) | (with_reducible apply Same.add' <;> same)
  | (with_reducible apply Same.mul <;> same) | (with_reducible apply Same.mul' <;> same)
  | (with_reducible apply Same.sub <;> same) | (with_reducible apply Same.div <;> same)
  | (with_reducible apply Same.sqrt <;> same) | (with_reducible apply Same.neg <;> same))

end DXM.Spec
