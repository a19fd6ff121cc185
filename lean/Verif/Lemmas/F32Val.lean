import Verif.Lemmas.F32Lane
import Mathlib.Tactic.IntervalCases

/-
Values of exact operations: negation, absolute value, subtraction from zero, multiplication by -1.
-/

set_option linter.all false

namespace DXM.IEEE
open DXM.Spec
variable (P : Env)

/-- A number of the format is rounded to itself. -/
theorem rounds_exact {y r : BitVec 32} (hy : IsFinite y) (h : Rounds (value y) r) : IsFinite r ∧ value r = value y := by
  have hlt : |value y| < overflow := by
    rw [value_abs, overflow_eq, mul_lt_mul_iff_left₀ u149]
    have : mag y ≤ magN 0x7F7FFFFF := magN_strictMono.monotone (by have := (finite_iff y).1 hy; omega)
    have e1 : magN 0x7F7FFFFF = 16777215 * 2^253 := by decide +kernel
    rw [e1] at this
    have h' : (mag y : ℝ) ≤ 16777215 * 2^253 := by exact_mod_cast this
    linarith
  refine ⟨h.finite hlt, ?_⟩
  have := h.nearest hlt y hy
  rw [sub_self, abs_zero] at this
  exact sub_eq_zero.1 (abs_nonpos_iff.1 this)

theorem isNaN_qnan (op : ℕ) (a b c : BitVec 32) : IsNaN (qnan P op a b c) := by
  have h0 : ∀ i, (i = 22 ∨ 23 ≤ i ∧ i < 31) → (qnan P op a b c).getLsbD i = true := by
    intro i hi
    unfold qnan; rw [BitVec.getLsbD_or]
    have : (0x7FC00000#32 : BitVec 32).getLsbD i = true := by
      rcases hi with h | ⟨h1, h2⟩
      · subst h; decide
      · interval_cases i <;> decide
    rw [this]; simp
  generalize qnan P op a b c = q at *
  have hlow : 0x7FC00000 ≤ am q := by
    have hle : (0x7FC00000#32 &&& q) = 0x7FC00000#32 := by
      refine BitVec.eq_of_getLsbD_eq fun i hi => ?_
      rw [BitVec.getLsbD_and]
      by_cases hh : i = 22 ∨ 23 ≤ i ∧ i < 31
      · rw [h0 i hh]; simp
      · have : (0x7FC00000#32 : BitVec 32).getLsbD i = false := by
          interval_cases i <;> first | decide | (exfalso; apply hh; omega)
        rw [this]; simp
    have h2 := congrArg BitVec.toNat hle
    rw [BitVec.toNat_and] at h2
    have e : (0x7FC00000#32 : BitVec 32).toNat = 0x7FC00000 := by decide
    rw [e] at h2
    have h3 : 0x7FC00000 &&& (q.toNat % 2^31) = 0x7FC00000 := by
      rw [← Nat.and_two_pow_sub_one_eq_mod, ← Nat.and_assoc, h2]; decide
    unfold am
    exact h3 ▸ Nat.and_le_right
  rw [← isNaN_iff]; unfold isNaN; simp; omega

theorem not_nan_of_finite {a : BitVec 32} (h : IsFinite a) : ¬ IsNaN a := by unfold IsNaN; exact fun g => h g.1
theorem not_inf_of_finite {a : BitVec 32} (h : IsFinite a) : ¬ IsInf a := by unfold IsInf; exact fun g => h g.1
theorem finite_or {a : BitVec 32} (h : ¬ IsNaN a) : IsFinite a ∨ IsInf a := by unfold IsNaN IsInf IsFinite at *; tauto
theorem evalue_finite {a : BitVec 32} (h : IsFinite a) : evalue a = (value a : EReal) := by
  unfold evalue; rw [if_neg (not_inf_of_finite h)]

theorem am_abs (a : BitVec 32) : am (abs a) = am a := by
  unfold am abs
  have : (2147483647#32 : BitVec 32).toNat = 2^31 - 1 := by decide
  rw [BitVec.toNat_and, this, Nat.and_two_pow_sub_one_eq_mod, Nat.mod_mod]
theorem sg_abs (a : BitVec 32) : sg (abs a) = false := by
  unfold sg abs; rw [BitVec.msb_and, show (2147483647#32 : BitVec 32).msb = false by decide]; simp

theorem isNaN_am {a b : BitVec 32} (h : am a = am b) : IsNaN a ↔ IsNaN b := by
  rw [← isNaN_iff, ← isNaN_iff]; unfold isNaN; rw [h]
theorem isInf_am {a b : BitVec 32} (h : am a = am b) : IsInf a ↔ IsInf b := by
  rw [← isInf_iff, ← isInf_iff]; unfold isInf; rw [h]

theorem evalue_neg (a : BitVec 32) : evalue (neg a) = - evalue a := by
  unfold evalue
  simp only [isInf_am (am_neg a)]
  rw [← sg_eq, ← sg_eq, sg_neg, neg_value]
  by_cases h : IsInf a
  · rw [if_pos h, if_pos h]; cases sg a <;> simp
  · rw [if_neg h, if_neg h]; simp
theorem evalue_abs (a : BitVec 32) : evalue (abs a) = evalue a ∨ evalue (abs a) = - evalue a := by
  by_cases h : sg a = true
  · right
    have : abs a = neg a := ext_am (by rw [sg_abs, sg_neg, h]; rfl) (by rw [am_abs, am_neg])
    rw [this, evalue_neg]
  · left
    have : abs a = a := ext_am (by rw [sg_abs]; simpa using h) (am_abs a)
    rw [this]
theorem abs_nonneg' {a : BitVec 32} (h : ¬ IsNaN a) : 0 ≤ evalue (abs a) := by
  unfold evalue
  rw [← sg_eq, sg_abs]
  by_cases hi : IsInf (abs a)
  · rw [if_pos hi]; simp
  · rw [if_neg hi, value_sign, sg_abs]; simp; positivity

/-- `0 - d` is `-d`. -/
theorem zero_sub_spec {d : BitVec 32} (h : ¬ IsNaN d) : ¬ IsNaN (sub P 0#32 d) ∧ evalue (sub P 0#32 d) = - evalue d := by
  rcases finite_or h with hf | hi
  · have z : IsFinite 0#32 := by decide
    have h1 := sub_rounds P z hf
    have hz : value 0#32 = 0 := by rw [value_eq]; simp [ival, mag, magN, am, sg]
    rw [hz, zero_sub, ← neg_value] at h1
    obtain ⟨h2, h3⟩ := rounds_exact (finite_neg.2 hf) h1
    refine ⟨not_nan_of_finite h2, ?_⟩
    rw [evalue_finite h2, h3, neg_value, evalue_finite hf, EReal.coe_neg]
  · have e : sub P 0#32 d = neg d := by
      have hn : isNaN d = false := by rw [Bool.eq_false_iff, ne_eq, isNaN_iff]; exact h
      have hi' : isInf (neg d) = true := by rw [isInf_iff, isInf_am (am_neg d)]; exact hi
      unfold sub; rw [if_neg (by rw [hn]; decide)]
      unfold addCore; rw [if_neg (by decide), if_pos hi']
    rw [e, isNaN_am (am_neg d), evalue_neg]; exact ⟨h, rfl⟩
theorem sub_nan {a b : BitVec 32} (h : IsNaN a ∨ IsNaN b) : IsNaN (sub P a b) := by
  unfold sub; rw [if_pos (by simpa [isNaN_iff] using h)]; exact isNaN_qnan P 1 a b 0

/-- `d * (-1)` is `-d`. -/
theorem mul_neg_one_spec {d : BitVec 32} (h : ¬ IsNaN d) : ¬ IsNaN (mul P d 0xBF800000#32) ∧ evalue (mul P d 0xBF800000#32) = - evalue d := by
  rcases finite_or h with hf | hi
  · have z : IsFinite 0xBF800000#32 := by decide
    have h1 := mul_rounds P hf z
    have hz : value 0xBF800000#32 = -1 := by
      have e1 : signBit 0xBF800000#32 = true := by decide
      have e2 : expField 0xBF800000#32 = 127 := by decide
      have e3 : fracField 0xBF800000#32 = 0 := by decide
      unfold value; rw [e1, e2, e3]; norm_num
    rw [hz, mul_neg_one, ← neg_value] at h1
    obtain ⟨h2, h3⟩ := rounds_exact (finite_neg.2 hf) h1
    refine ⟨not_nan_of_finite h2, ?_⟩
    rw [evalue_finite h2, h3, neg_value, evalue_finite hf, EReal.coe_neg]
  · have hi' : isInf d = true := by rw [isInf_iff]; exact hi
    have hn : isNaN d = false := by rw [Bool.eq_false_iff, ne_eq, isNaN_iff]; exact h
    have ham : am d = 0x7F800000 := by unfold isInf at hi'; simpa using hi'
    have hm : mag d ≠ 0 := by unfold mag; rw [ham]; decide +kernel
    have hm1 : mag 0xBF800000#32 ≠ 0 := by decide +kernel
    have e : mul P d 0xBF800000#32 = neg d := by
      unfold mul
      rw [if_neg (by rw [hn]; decide), if_pos (by rw [hi']; rfl), if_neg (by simp [hm, hm1])]
      refine ext_am ?_ ?_
      · rw [sg_mk _ _ (by norm_num), sg_neg, show sg 0xBF800000#32 = true by decide]; cases sg d <;> rfl
      · rw [am_mk _ _ (by norm_num), am_neg, ham]
    rw [e, isNaN_am (am_neg d), evalue_neg]; exact ⟨h, rfl⟩
theorem mul_nan {a b : BitVec 32} (h : IsNaN a ∨ IsNaN b) : IsNaN (mul P a b) := by
  unfold mul; rw [if_pos (by simpa [isNaN_iff] using h)]; exact isNaN_qnan P 2 a b 0

theorem neg_mk (s : Bool) (m : ℕ) (h : m < 2^31) : neg (mk s m) = mk (!s) m :=
  ext_am (by rw [sg_neg, sg_mk _ _ h, sg_mk _ _ h]) (by rw [am_neg, am_mk _ _ h, am_mk _ _ h])
theorem neg_neg (a : BitVec 32) : neg (neg a) = a :=
  ext_am (by rw [sg_neg, sg_neg, Bool.not_not]) (by rw [am_neg, am_neg])
theorem roundN_lt (p q : ℕ) : roundN p q < 2^31 := by
  unfold roundN; exact lt_of_le_of_lt (min_le_left _ _) (by norm_num)
theorem evalue_zero : evalue 0#32 = 0 := by
  rw [evalue_finite (by decide), value_eq]; simp [ival, mag, magN, am, sg]
theorem evalue_negzero : evalue 0x80000000#32 = 0 := by
  rw [show (0x80000000#32 : BitVec 32) = neg 0#32 by decide, evalue_neg, evalue_zero, neg_zero]
theorem evalue_mk0 (s : Bool) : evalue (mk s 0) = 0 := by
  cases s
  · exact evalue_zero
  · exact evalue_negzero
theorem not_nan_mk (s : Bool) (m : ℕ) (h : m ≤ 0x7F800000) : ¬ IsNaN (mk s m) := by
  rw [← isNaN_iff]; unfold isNaN; rw [am_mk _ _ (by omega)]; simp; omega

/-- Negating the exact result negates the rounded one. -/
theorem roundI_neg (z z' : Bool) (n : ℤ) (q : ℕ) :
    ¬ IsNaN (roundI z n q) ∧ evalue (roundI z' (-n) q) = - evalue (roundI z n q) := by
  unfold roundI
  by_cases h : n = 0
  · subst h; rw [if_pos rfl, if_pos (by simp), evalue_mk0, evalue_mk0, neg_zero]
    exact ⟨not_nan_mk _ _ (by norm_num), rfl⟩
  · rw [if_neg h, if_neg (by omega), ← evalue_neg, neg_mk _ _ (roundN_lt _ _), Int.natAbs_neg]
    refine ⟨not_nan_mk _ _ (by unfold roundN; exact min_le_left _ _), ?_⟩
    have : decide (-n < 0) = !decide (n < 0) := by
      rcases lt_or_gt_of_ne h with g | g
      · simp [g]; omega
      · simp [g]; omega
    rw [this]

/-- `b - a` is `-(a - b)`. -/
theorem sub_swap (a b : BitVec 32) : (IsNaN (sub P b a) ↔ IsNaN (sub P a b)) ∧
    (¬ IsNaN (sub P a b) → evalue (sub P b a) = - evalue (sub P a b)) := by
  by_cases hn : IsNaN a ∨ IsNaN b
  · have h1 := sub_nan P hn
    exact ⟨⟨fun _ => h1, fun _ => sub_nan P hn.symm⟩, fun h => absurd h1 h⟩
  have ha : isNaN a = false := by rw [Bool.eq_false_iff, ne_eq, isNaN_iff]; tauto
  have hb : isNaN b = false := by rw [Bool.eq_false_iff, ne_eq, isNaN_iff]; tauto
  have na : ¬ IsNaN a := fun h => hn (Or.inl h)
  have nb : ¬ IsNaN b := fun h => hn (Or.inr h)
  have fi : ∀ x, isInf (neg x) = isInf x := fun x => by unfold isInf; rw [am_neg]
  unfold sub; rw [ha, hb]; simp only [Bool.or_self, Bool.false_eq_true, if_false]
  unfold addCore; simp only [fi, sg_neg]
  by_cases ia : isInf a = true <;> by_cases ib : isInf b = true
  · rw [ia, ib]; simp only [if_true, Bool.true_and]
    by_cases hs : sg a = sg b
    · have e1 : (sg b != !sg a) = true := by rw [hs]; cases sg b <;> rfl
      have e2 : (sg a != !sg b) = true := by rw [hs]; cases sg b <;> rfl
      rw [if_pos e1, if_pos e2]
      exact ⟨⟨fun _ => isNaN_qnan _ _ _ _ _, fun _ => isNaN_qnan _ _ _ _ _⟩, fun h => absurd (isNaN_qnan _ _ _ _ _) h⟩
    · have e1 : ¬ (sg b != !sg a) = true := by revert hs; cases sg a <;> cases sg b <;> simp
      have e2 : ¬ (sg a != !sg b) = true := by revert hs; cases sg a <;> cases sg b <;> simp
      rw [if_neg e1, if_neg e2]
      have e : b = neg a := ext_am (by rw [sg_neg]; revert hs; cases sg a <;> cases sg b <;> simp)
        (by unfold isInf at ia ib; rw [am_neg]; simp at ia ib; rw [ia, ib])
      rw [e, evalue_neg, isNaN_am (am_neg a)]; exact ⟨Iff.rfl, fun _ => rfl⟩
  · simp only [ia, ib, if_true, if_false, Bool.false_and, Bool.false_eq_true, evalue_neg, isNaN_am (am_neg _)]
    simp
  · simp only [ia, ib, if_true, if_false, Bool.false_and, Bool.false_eq_true, evalue_neg, isNaN_am (am_neg _)]
    simp
  · simp only [ia, ib, if_true, if_false, Bool.false_and, Bool.false_eq_true]
    have iv : ∀ x, ival (neg x) = - ival x := fun x => by
      unfold ival mag; rw [sg_neg, am_neg]; cases sg x <;> simp
    have e : ival b + ival (neg a) = -(ival a + ival (neg b)) := by rw [iv, iv]; ring
    rw [e]
    have h1 := roundI_neg (sg a && !sg b) (sg b && !sg a) (ival a + ival (neg b)) 1
    have h2 := roundI_neg (sg b && !sg a) (sg b && !sg a) (-(ival a + ival (neg b))) 1
    exact ⟨⟨fun h => absurd h h2.1, fun h => absurd h h1.1⟩, fun _ => h1.2⟩

theorem value_one : value 0x3F800000#32 = 1 := by
  have e1 : signBit 0x3F800000#32 = false := by decide
  have e2 : expField 0x3F800000#32 = 127 := by decide
  have e3 : fracField 0x3F800000#32 = 0 := by decide
  unfold value; rw [e1, e2, e3]; norm_num

theorem mul_comm_bits (a b : BitVec 32) : (IsNaN (mul P a b) ↔ IsNaN (mul P b a)) ∧ (¬ IsNaN (mul P a b) → mul P a b = mul P b a) := by
  by_cases hn : IsNaN a ∨ IsNaN b
  · have h1 := mul_nan P hn
    exact ⟨⟨fun _ => mul_nan P hn.symm, fun _ => h1⟩, fun h => absurd h1 h⟩
  have ha : isNaN a = false := by rw [Bool.eq_false_iff, ne_eq, isNaN_iff]; tauto
  have hb : isNaN b = false := by rw [Bool.eq_false_iff, ne_eq, isNaN_iff]; tauto
  unfold mul; rw [ha, hb]; simp only [Bool.or_self, Bool.false_eq_true, if_false]
  rw [Bool.or_comm (isInf b), Bool.or_comm (decide (mag b = 0)), Nat.mul_comm (mag b), bne_comm (a := sg b)]
  split_ifs
  · exact ⟨⟨fun _ => isNaN_qnan _ _ _ _ _, fun _ => isNaN_qnan _ _ _ _ _⟩, fun h => absurd (isNaN_qnan _ _ _ _ _) h⟩
  · exact ⟨Iff.rfl, fun _ => rfl⟩
  · exact ⟨Iff.rfl, fun _ => rfl⟩

theorem value_zero_iff {a : BitVec 32} : value a = 0 ↔ mag a = 0 := by
  constructor
  · intro h
    have := value_abs a; rw [h, abs_zero] at this
    have u := u149
    have : (mag a : ℝ) = 0 := by
      rcases mul_eq_zero.1 this.symm with g | g
      · exact g
      · exact absurd g u.ne'
    exact_mod_cast this
  · intro h; rw [value_sign, h]; simp

theorem isInf_mk (s : Bool) : IsInf (mk s 0x7F800000) := by
  rw [← isInf_iff]; unfold isInf; rw [am_mk _ _ (by norm_num)]; simp
theorem sb_mk (s : Bool) (m : ℕ) (h : m < 2^31) : signBit (mk s m) = s := by rw [← sg_eq, sg_mk _ _ h]
theorem isNaN_f {a : BitVec 32} (h : ¬ IsNaN a) : isNaN a = false := by rw [Bool.eq_false_iff, ne_eq, isNaN_iff]; exact h
theorem isInf_f {a : BitVec 32} (h : ¬ IsInf a) : isInf a = false := by rw [Bool.eq_false_iff, ne_eq, isInf_iff]; exact h
theorem not_nan_of_inf {a : BitVec 32} (h : IsInf a) : ¬ IsNaN a := by unfold IsNaN IsInf at *; tauto

theorem add_special (a b : BitVec 32) :
    (IsNaN a ∨ IsNaN b → IsNaN (add P a b) ∧ IsNaN (sub P a b)) ∧
    (IsInf a → IsFinite b → add P a b = a ∧ sub P a b = a) ∧
    (IsFinite a → IsInf b → add P a b = b ∧ sub P a b = b ^^^ 0x80000000#32) ∧
    (IsInf a → IsInf b → (a = b → add P a b = a ∧ IsNaN (sub P a b)) ∧ (a ≠ b → IsNaN (add P a b) ∧ sub P a b = a)) ∧
    (IsFinite a → IsFinite b → value a + value b = 0 → add P a b = if signBit a && signBit b then 0x80000000#32 else 0#32) := by
  have fi : ∀ x, isInf (neg x) = isInf x := fun x => by unfold isInf; rw [am_neg]
  refine ⟨fun h => ⟨?_, sub_nan P h⟩, fun ha hb => ?_, fun ha hb => ?_, fun ha hb => ?_, fun ha hb h => ?_⟩
  · unfold add; rw [if_pos (by simpa [isNaN_iff] using h)]; exact isNaN_qnan _ _ _ _ _
  · have h1 := isNaN_f (not_nan_of_inf ha); have h2 := isNaN_f (not_nan_of_finite hb)
    have h3 := isInf_f (not_inf_of_finite hb); have h4 := (isInf_iff a).2 ha
    unfold add sub addCore; simp [h1, h2, h3, h4, fi]
  · have h1 := isNaN_f (not_nan_of_inf hb); have h2 := isNaN_f (not_nan_of_finite ha)
    have h3 := isInf_f (not_inf_of_finite ha); have h4 := (isInf_iff b).2 hb
    unfold add sub addCore; simp [h1, h2, h3, h4, fi]; rfl
  · have h1 := isNaN_f (not_nan_of_inf ha); have h2 := isNaN_f (not_nan_of_inf hb)
    have h3 := (isInf_iff a).2 ha; have h4 := (isInf_iff b).2 hb
    unfold add sub addCore; simp only [h1, h2, h3, h4, fi, sg_neg, Bool.or_self, Bool.false_eq_true, if_false, if_true, Bool.true_and]
    refine ⟨fun h => ?_, fun h => ?_⟩
    · subst h; rw [if_neg (by simp), if_pos (by cases sg a <;> rfl)]; exact ⟨rfl, isNaN_qnan _ _ _ _ _⟩
    · have hs : sg a ≠ sg b := fun g => h (ext_am g (by unfold isInf at h3 h4; simp at h3 h4; rw [h3, h4]))
      rw [if_pos (by simpa using hs), if_neg (by revert hs; cases sg a <;> cases sg b <;> simp)]
      exact ⟨isNaN_qnan _ _ _ _ _, rfl⟩
  · have h1 := isNaN_f (not_nan_of_finite ha); have h2 := isNaN_f (not_nan_of_finite hb)
    have h3 := isInf_f (not_inf_of_finite ha); have h4 := isInf_f (not_inf_of_finite hb)
    have h0 : ival a + ival b = 0 := by
      rw [value_eq, value_eq, ← add_mul] at h
      rcases mul_eq_zero.1 h with g | g
      · exact_mod_cast g
      · exact absurd g (by positivity)
    unfold add addCore roundI; simp only [h1, h2, h3, h4, h0, Bool.or_self, Bool.false_eq_true, if_false, if_true]
    rw [← sg_eq, ← sg_eq]; cases (sg a && sg b) <;> rfl

theorem feq_zero {b : BitVec 32} (h : ¬ IsNaN b) : FEq b 0#32 ↔ mag b = 0 := by
  unfold FEq
  constructor
  · rintro ⟨_, _, h2⟩
    rw [evalue_zero] at h2
    rcases finite_or h with g | g
    · rw [evalue_finite g] at h2; rw [← value_zero_iff]; exact_mod_cast h2
    · unfold evalue at h2; rw [if_pos g] at h2; split_ifs at h2 <;> simp at h2
  · intro h2
    have hf : IsFinite b := by
      rcases finite_or h with g | g
      · exact g
      · exfalso
        have := (isInf_iff b).2 g; unfold isInf at this; simp at this
        unfold mag at h2; rw [this] at h2; revert h2; decide +kernel
    refine ⟨h, by decide, ?_⟩
    rw [evalue_zero, evalue_finite hf, value_zero_iff.2 h2]; rfl

theorem mag_inf {a : BitVec 32} (h : IsInf a) : mag a ≠ 0 := by
  have := (isInf_iff a).2 h; unfold isInf at this; simp at this
  unfold mag; rw [this]; decide +kernel

theorem mul_special (a b : BitVec 32) :
    (IsNaN a ∨ IsNaN b → IsNaN (mul P a b)) ∧
    (IsInf a → IsFinite b → value b = 0 → IsNaN (mul P a b)) ∧ (IsInf b → IsFinite a → value a = 0 → IsNaN (mul P a b)) ∧
    (IsInf a → ¬ IsNaN b → ¬ FEq b 0#32 → IsInf (mul P a b)) ∧ (IsInf b → ¬ IsNaN a → ¬ FEq a 0#32 → IsInf (mul P a b)) ∧
    (¬ IsNaN (mul P a b) → signBit (mul P a b) = (signBit a != signBit b)) := by
  refine ⟨mul_nan P, fun ha hb h => ?_, fun hb ha h => ?_, fun ha hb h => ?_, fun hb ha h => ?_, fun h => ?_⟩
  · unfold mul; rw [isNaN_f (not_nan_of_inf ha), isNaN_f (not_nan_of_finite hb), (isInf_iff a).2 ha, value_zero_iff.1 h]; simp
    exact isNaN_qnan _ _ _ _ _
  · unfold mul; rw [isNaN_f (not_nan_of_inf hb), isNaN_f (not_nan_of_finite ha), (isInf_iff b).2 hb, value_zero_iff.1 h]; simp
    exact isNaN_qnan _ _ _ _ _
  · rw [feq_zero hb] at h
    unfold mul; rw [isNaN_f (not_nan_of_inf ha), isNaN_f hb, (isInf_iff a).2 ha]; simp [h, mag_inf ha, isInf_mk]
  · rw [feq_zero ha] at h
    unfold mul; rw [isNaN_f (not_nan_of_inf hb), isNaN_f ha, (isInf_iff b).2 hb]; simp [h, mag_inf hb, isInf_mk]
  · unfold mul at *
    split_ifs at h ⊢ with h1 h2 h3
    · exact absurd (isNaN_qnan _ _ _ _ _) h
    · exact absurd (isNaN_qnan _ _ _ _ _) h
    · rw [sb_mk _ _ (by norm_num), sg_eq, sg_eq]
    · rw [sb_mk _ _ (roundN_lt _ _), sg_eq, sg_eq]

theorem div_special (a b : BitVec 32) :
    (IsNaN a ∨ IsNaN b → IsNaN (div P a b)) ∧ (IsInf a → IsInf b → IsNaN (div P a b)) ∧
    (IsFinite a → IsFinite b → value a = 0 → value b = 0 → IsNaN (div P a b)) ∧
    (IsFinite a → IsFinite b → value a ≠ 0 → value b = 0 → IsInf (div P a b)) ∧
    (IsInf a → IsFinite b → IsInf (div P a b)) ∧ (IsFinite a → IsInf b → IsFinite (div P a b) ∧ value (div P a b) = 0) ∧
    (¬ IsNaN (div P a b) → signBit (div P a b) = (signBit a != signBit b)) := by
  refine ⟨fun h => ?_, fun ha hb => ?_, fun ha hb h1 h2 => ?_, fun ha hb h1 h2 => ?_, fun ha hb => ?_, fun ha hb => ?_, fun h => ?_⟩
  · unfold div; rw [if_pos (by simpa [isNaN_iff] using h)]; exact isNaN_qnan _ _ _ _ _
  · unfold div; simp only [isNaN_f (not_nan_of_inf ha), isNaN_f (not_nan_of_inf hb), (isInf_iff a).2 ha, (isInf_iff b).2 hb]; simp
    exact isNaN_qnan _ _ _ _ _
  · unfold div; rw [isNaN_f (not_nan_of_finite ha), isNaN_f (not_nan_of_finite hb), isInf_f (not_inf_of_finite ha), isInf_f (not_inf_of_finite hb), value_zero_iff.1 h1, value_zero_iff.1 h2]; simp
    exact isNaN_qnan _ _ _ _ _
  · unfold div; rw [isNaN_f (not_nan_of_finite ha), isNaN_f (not_nan_of_finite hb), isInf_f (not_inf_of_finite ha), isInf_f (not_inf_of_finite hb), value_zero_iff.1 h2]
    rw [ne_eq, value_zero_iff] at h1; simp [h1, isInf_mk]
  · unfold div; rw [isNaN_f (not_nan_of_inf ha), isNaN_f (not_nan_of_finite hb), (isInf_iff a).2 ha, isInf_f (not_inf_of_finite hb)]; simp [isInf_mk]
  · unfold div; rw [isNaN_f (not_nan_of_finite ha), isNaN_f (not_nan_of_inf hb), isInf_f (not_inf_of_finite ha), (isInf_iff b).2 hb]; simp only [Bool.or_self, Bool.false_eq_true, if_false, if_true]
    refine ⟨?_, ?_⟩
    · rw [finite_iff, am_mk _ _ (by norm_num)]; norm_num
    · rw [value_zero_iff]; unfold mag; rw [am_mk _ _ (by norm_num)]; rfl
  · unfold div at *
    split_ifs at h ⊢ <;> first | exact absurd (isNaN_qnan _ _ _ _ _) h | rw [sb_mk _ _ (roundN_lt _ _), sg_eq, sg_eq] | rw [sb_mk _ _ (by norm_num), sg_eq, sg_eq]

theorem sqrt_special (a : BitVec 32) :
    (IsNaN a → IsNaN (sqrt P a)) ∧ (FLt a 0#32 → IsNaN (sqrt P a)) ∧ (FEq a 0#32 → sqrt P a = a) ∧ (a = 0x7F800000#32 → sqrt P a = a) := by
  refine ⟨fun h => ?_, fun h => ?_, fun h => ?_, ?_⟩
  · unfold sqrt; rw [if_pos ((isNaN_iff a).2 h)]; exact isNaN_qnan _ _ _ _ _
  · have hm : mag a ≠ 0 := by
      intro g; have := ((feq_zero h.1).2 g).2.2; have h3 := h.2.2; rw [this] at h3; exact absurd h3 (lt_irrefl _)
    have hsg : sg a = true := by
      rw [← lt_iff] at h; unfold lt key at h; cases hh : sg a
      · rw [hh] at h; simp at h; have := h.2; simp [am, sg] at this; omega
      · rfl
    unfold sqrt; rw [if_neg (by rw [isNaN_f h.1]; decide), if_neg hm, if_pos hsg]; exact isNaN_qnan _ _ _ _ _
  · unfold sqrt; rw [if_neg (by rw [isNaN_f h.1]; decide), if_pos ((feq_zero h.1).1 h)]
  · rintro rfl
    unfold sqrt; rw [if_neg (by decide), if_neg (by decide +kernel), if_neg (by decide), if_pos (by decide)]

/-- The root of a positive finite number is positive and finite. -/
theorem sqrt_pos_finite {a : BitVec 32} (ha : IsFinite a) (h : 0 < value a) : IsFinite (sqrt P a) ∧ 0 < value (sqrt P a) := by
  have hr := sqrt_rounds P ha h.le
  have hu := u149
  have hmag : 1 ≤ mag a := by
    rcases Nat.eq_zero_or_pos (mag a) with g | g
    · exact absurd (value_zero_iff.2 g) h.ne'
    · exact g
  have hv : (2:ℝ)^(-149:ℤ) ≤ value a := by
    have := value_abs a; rw [abs_of_pos h] at this; rw [this]
    have : (1:ℝ) ≤ mag a := by exact_mod_cast hmag
    nlinarith
  have hov : value a < overflow := by
    have := value_abs a; rw [abs_of_pos h] at this
    rw [this, overflow_eq, mul_lt_mul_iff_left₀ u149]
    have : mag a ≤ magN 0x7F7FFFFF := magN_strictMono.monotone (by have := (finite_iff a).1 ha; omega)
    have e1 : magN 0x7F7FFFFF = 16777215 * 2^253 := by decide +kernel
    rw [e1] at this
    have h' : (mag a : ℝ) ≤ 16777215 * 2^253 := by exact_mod_cast this
    linarith
  have hrt : Real.sqrt (value a) < overflow := by
    have h1 : Real.sqrt (value a) ≤ max 1 (value a) := by
      rcases le_total (value a) 1 with g | g
      · exact le_max_of_le_left (Real.sqrt_le_one.2 g)
      · refine le_max_of_le_right ?_
        rw [Real.sqrt_le_left h.le]; nlinarith
    refine lt_of_le_of_lt h1 (max_lt ?_ hov)
    unfold overflow; norm_num
  have hlow : (2:ℝ)^(-149:ℤ) ≤ Real.sqrt (value a) := by
    apply Real.le_sqrt_of_sq_le
    have h1 : (2:ℝ)^(-149:ℤ) ≤ 1 := by rw [zpow_neg]; apply inv_le_one_of_one_le₀; norm_num
    nlinarith
  have hpos : 0 ≤ Real.sqrt (value a) := Real.sqrt_nonneg _
  have habs : |Real.sqrt (value a)| < overflow := by rwa [abs_of_nonneg hpos]
  refine ⟨hr.finite habs, ?_⟩
  by_contra hn
  have h1 := hr.nearest habs 1#32 (by decide)
  have e1 : value 1#32 = (2:ℝ)^(-149:ℤ) := by rw [value_eq]; simp [ival, mag, magN, am, sg]
  rw [e1, abs_of_nonpos (by linarith), abs_of_nonpos (by linarith)] at h1
  linarith

end DXM.IEEE
