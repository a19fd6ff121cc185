import Mathlib.Tactic.FieldSimp
import Verif.Lemmas.Round
import Verif.Spec.IEEE

/-
The integer arithmetic of F32.lean against the value semantics of Spec/IEEE.lean.
-/

set_option linter.all false

namespace DXM.IEEE
open DXM.Spec

theorem sg_eq (b : BitVec 32) : sg b = signBit b := rfl
theorem sg_iff (b : BitVec 32) : sg b = true ↔ 2^31 ≤ b.toNat := by
  unfold sg; rw [BitVec.msb_eq_decide]; simp
theorem am_fields (b : BitVec 32) : am b = expField b * 2^23 + fracField b := by
  unfold am expField fracField; have := b.isLt; omega
theorem am_lt (b : BitVec 32) : am b < 2^31 := by unfold am; omega
theorem toNat_eq (b : BitVec 32) : b.toNat = am b + if sg b then 2^31 else 0 := by
  have := sg_iff b; unfold am; have := b.isLt; split_ifs with h
  · have := (sg_iff b).1 h; omega
  · have : ¬ 2^31 ≤ b.toNat := fun h' => h ((sg_iff b).2 h'); omega
theorem ext_am {a b : BitVec 32} (h1 : sg a = sg b) (h2 : am a = am b) : a = b := by
  apply BitVec.eq_of_toNat_eq; rw [toNat_eq, toNat_eq, h1, h2]
theorem fracField_lt (b : BitVec 32) : fracField b < 2^23 := by unfold fracField; omega
theorem expField_lt (b : BitVec 32) : expField b < 256 := by unfold expField; omega
theorem isNaN_iff (b : BitVec 32) : isNaN b = true ↔ IsNaN b := by
  unfold isNaN IsNaN; have := am_fields b; have := fracField_lt b; have := expField_lt b; simp; omega
theorem isInf_iff (b : BitVec 32) : isInf b = true ↔ IsInf b := by
  unfold isInf IsInf; have := am_fields b; have := fracField_lt b; have := expField_lt b; simp; omega
theorem finite_iff (b : BitVec 32) : IsFinite b ↔ am b < 0x7F800000 := by
  unfold IsFinite; have := am_fields b; have := fracField_lt b; have := expField_lt b; omega
theorem finite_iff' (b : BitVec 32) : IsFinite b ↔ isNaN b = false ∧ isInf b = false := by
  rw [finite_iff]; unfold isNaN isInf; simp; omega
theorem even_iff (b : BitVec 32) : fracField b % 2 = am b % 2 := by have := am_fields b; omega

theorem sg_mk (s : Bool) (n : ℕ) (h : n < 2^31) : sg (mk s n) = s := by
  rw [Bool.eq_iff_iff, sg_iff]; unfold mk
  cases s <;> simp [BitVec.toNat_ofNat] <;> omega
theorem am_mk (s : Bool) (n : ℕ) (h : n < 2^31) : am (mk s n) = n := by
  unfold mk am
  cases s <;> simp [BitVec.toNat_ofNat] <;> omega
theorem mk_am (b : BitVec 32) : mk (sg b) (am b) = b := ext_am (sg_mk _ _ (am_lt b)) (am_mk _ _ (am_lt b))

/-- The value of a magnitude pattern. -/
theorem magN_value (e f : ℕ) (hf : f < 2^23) : (magN (e * 2^23 + f) : ℝ) * 2^(-149 : ℤ) =
    if e = 0 then 2^(-126 : ℤ) * ((f : ℝ) / 2^23) else 2^((e : ℤ) - 127) * (1 + (f : ℝ) / 2^23) := by
  split_ifs with h
  · subst h
    have := magN_kq 0 f (by omega) (Or.inl rfl)
    rw [this]; push_cast
    rw [show (-126 : ℤ) = -149 + 23 by norm_num, zpow_add₀ (by norm_num)]
    norm_num; ring
  · have := magN_kq (e - 1) (2^23 + f) (by omega) (Or.inr (by omega))
    rw [show (e - 1) * 2^23 + (2^23 + f) = e * 2^23 + f by omega] at this
    rw [this]
    rw [show (e : ℤ) - 127 = (-149 : ℤ) + ((e - 1 : ℕ) : ℤ) + 23 by omega, zpow_add₀ (by norm_num), zpow_add₀ (by norm_num), zpow_natCast]
    push_cast; norm_num; ring

theorem value_eq (b : BitVec 32) : value b = (ival b : ℝ) * 2^(-149 : ℤ) := by
  have h := magN_value (expField b) (fracField b) (fracField_lt b)
  unfold value ival mag
  rw [← h, ← am_fields, sg_eq]
  split_ifs <;> push_cast <;> ring
theorem value_mk (s : Bool) (n : ℕ) (h : n < 2^31) : value (mk s n) = (if s then -1 else 1) * ((magN n : ℝ) * 2^(-149 : ℤ)) := by
  rw [value_eq]; unfold ival mag; rw [sg_mk _ _ h, am_mk _ _ h]; cases s <;> simp
theorem value_abs (b : BitVec 32) : |value b| = (mag b : ℝ) * 2^(-149 : ℤ) := by
  rw [value_eq, abs_mul, abs_of_pos (by positivity : (0:ℝ) < 2^(-149 : ℤ))]
  congr 1; unfold ival; split_ifs <;> simp
theorem value_sign (b : BitVec 32) : value b = (if sg b then -1 else 1) * ((mag b : ℝ) * 2^(-149 : ℤ)) := by
  rw [value_eq]; unfold ival; split_ifs <;> push_cast <;> ring

theorem u149 : (0:ℝ) < 2^(-149 : ℤ) := by positivity

theorem ival_key (a b : BitVec 32) : ival a < ival b ↔ key a < key b := by
  have m := magN_strictMono
  have h0 : ∀ n, (0 : ℤ) ≤ magN n := fun n => by positivity
  unfold ival key mag
  split_ifs
  · rw [neg_lt_neg_iff, neg_lt_neg_iff]; norm_cast; exact m.lt_iff_lt
  · constructor
    · intro h
      rcases Nat.eq_zero_or_pos (am a) with h1 | h1
      · rcases Nat.eq_zero_or_pos (am b) with h2 | h2
        · rw [h1, h2] at h; simp [magN_zero] at h
        · omega
      · omega
    · intro h
      have := m.monotone (Nat.zero_le (am a)); rw [magN_zero] at this
      rcases Nat.eq_zero_or_pos (am a) with h1 | h1
      · have := m (show 0 < am b by omega); rw [magN_zero] at this; have := h0 (am a); omega
      · have := m h1; rw [magN_zero] at this; have := h0 (am b); omega
  · constructor
    · intro h; have := h0 (am a); have := h0 (am b); omega
    · intro h; omega
  · norm_cast; exact m.lt_iff_lt

theorem value_key (a b : BitVec 32) : value a < value b ↔ key a < key b := by
  rw [value_eq, value_eq, mul_lt_mul_iff_left₀ u149]; norm_cast; exact ival_key a b

theorem evalue_key {a b : BitVec 32} (ha : ¬ IsNaN a) (hb : ¬ IsNaN b) : evalue a < evalue b ↔ key a < key b := by
  have ga : am a ≤ 0x7F800000 := by rw [← isNaN_iff] at ha; unfold isNaN at ha; simpa using ha
  have gb : am b ≤ 0x7F800000 := by rw [← isNaN_iff] at hb; unfold isNaN at hb; simpa using hb
  unfold evalue
  by_cases ia : IsInf a <;> by_cases ib : IsInf b
  · rw [if_pos ia, if_pos ib, ← sg_eq, ← sg_eq]
    rw [← isInf_iff] at ia ib; unfold isInf at ia ib; simp at ia ib
    unfold key; rw [ia, ib]; cases sg a <;> cases sg b <;> simp
  · rw [if_pos ia, if_neg ib, ← sg_eq]
    rw [← isInf_iff] at ia ib; unfold isInf at ia ib; simp at ia ib
    unfold key; rw [ia]; cases sg a <;> cases sg b <;> simp <;> omega
  · rw [if_neg ia, if_pos ib, ← sg_eq]
    rw [← isInf_iff] at ia ib; unfold isInf at ia ib; simp at ia ib
    unfold key; rw [ib]; cases sg a <;> cases sg b <;> simp <;> omega
  · rw [if_neg ia, if_neg ib, EReal.coe_lt_coe_iff]; exact value_key a b

theorem lt_iff (a b : BitVec 32) : lt a b = true ↔ FLt a b := by
  unfold lt FLt
  simp only [Bool.and_eq_true, Bool.not_eq_true', decide_eq_true_eq, Bool.eq_false_iff, ne_eq, isNaN_iff]
  constructor
  · rintro ⟨⟨h1, h2⟩, h3⟩; exact ⟨h1, h2, (evalue_key h1 h2).2 h3⟩
  · rintro ⟨h1, h2, h3⟩; exact ⟨⟨h1, h2⟩, (evalue_key h1 h2).1 h3⟩
theorem le_iff (a b : BitVec 32) : le a b = true ↔ FLe a b := by
  unfold le FLe
  simp only [Bool.and_eq_true, Bool.not_eq_true', decide_eq_true_eq, Bool.eq_false_iff, ne_eq, isNaN_iff]
  constructor
  · rintro ⟨⟨h1, h2⟩, h3⟩; exact ⟨h1, h2, not_lt.1 fun h => absurd ((evalue_key h2 h1).1 h) (by omega)⟩
  · rintro ⟨h1, h2, h3⟩; exact ⟨⟨h1, h2⟩, not_lt.1 fun h => absurd ((evalue_key h2 h1).2 h) (not_lt.2 h3)⟩
theorem eq_iff (a b : BitVec 32) : eq a b = true ↔ FEq a b := by
  unfold eq FEq
  simp only [Bool.and_eq_true, Bool.not_eq_true', decide_eq_true_eq, Bool.eq_false_iff, ne_eq, isNaN_iff]
  constructor
  · rintro ⟨⟨h1, h2⟩, h3⟩
    refine ⟨h1, h2, le_antisymm (not_lt.1 fun h => ?_) (not_lt.1 fun h => ?_)⟩
    · exact absurd ((evalue_key h2 h1).1 h) (by omega)
    · exact absurd ((evalue_key h1 h2).1 h) (by omega)
  · rintro ⟨h1, h2, h3⟩
    refine ⟨⟨h1, h2⟩, le_antisymm (not_lt.1 fun h => ?_) (not_lt.1 fun h => ?_)⟩
    · exact absurd ((evalue_key h2 h1).2 h) (by rw [h3]; exact lt_irrefl _)
    · exact absurd ((evalue_key h1 h2).2 h) (by rw [h3]; exact lt_irrefl _)

/-! Correct rounding -/

theorem overflow_eq : overflow = 33554431 * 2^252 * (2:ℝ)^(-149 : ℤ) := by
  unfold overflow; rw [show (-149 : ℤ) = -252 + 103 by norm_num, zpow_add₀ (by norm_num)]; norm_num

/-- If `n` is a nearest magnitude of the real `x` (in units of 2^-149), ties to even, then the pattern is `x` rounded. -/
theorem rounds_of (s : Bool) (x : ℝ) (n : ℕ) (hx : 0 ≤ x) (hnear : ∀ m, |(magN n : ℝ) - x| ≤ |(magN m : ℝ) - x|)
    (htie : ∀ m, m ≠ n → |(magN m : ℝ) - x| = |(magN n : ℝ) - x| → n % 2 = 0)
    (hfin : n < 0x7F800000 ↔ x < 33554431 * 2^252) :
    Rounds ((if s then -1 else 1) * (x * 2^(-149 : ℤ))) (mk s (min 0x7F800000 n)) := by
  have hu := u149
  have habs : |(if s then -1 else 1) * (x * (2:ℝ)^(-149 : ℤ))| = x * 2^(-149 : ℤ) := by
    rw [abs_mul, abs_of_nonneg (by positivity : 0 ≤ x * (2:ℝ)^(-149 : ℤ))]; cases s <;> simp
  have hov : |(if s then -1 else 1) * (x * (2:ℝ)^(-149 : ℤ))| < overflow ↔ n < 0x7F800000 := by
    rw [habs, overflow_eq, mul_lt_mul_iff_left₀ hu, hfin]
  have hdr : n < 0x7F800000 → |value (mk s (min 0x7F800000 n)) - (if s then -1 else 1) * (x * (2:ℝ)^(-149 : ℤ))| = |(magN n : ℝ) - x| * 2^(-149 : ℤ) := by
    intro h
    rw [min_eq_right (by omega), value_mk _ _ (by omega), ← mul_sub, ← sub_mul, abs_mul, abs_mul, abs_of_pos hu]
    cases s <;> simp
  have hdy : ∀ y, |(mag y : ℝ) - x| * 2^(-149 : ℤ) ≤ |value y - (if s then -1 else 1) * (x * (2:ℝ)^(-149 : ℤ))| := by
    intro y
    have := abs_abs_sub_abs_le_abs_sub (value y) ((if s then -1 else 1) * (x * (2:ℝ)^(-149 : ℤ)))
    rw [habs, value_abs, ← sub_mul, abs_mul, abs_of_pos hu] at this
    exact this
  refine ⟨fun h => ?_, fun h y hy => ?_, fun h y hy hne heq => ?_, fun h => ?_, fun h => ?_⟩
  · rw [hov] at h
    rw [min_eq_right (by omega), finite_iff, am_mk _ _ (by omega)]; exact h
  · rw [hov] at h
    rw [hdr h]
    exact (mul_le_mul_of_nonneg_right (hnear (am y)) hu.le).trans (hdy y)
  · rw [hov] at h
    rw [hdr h] at heq
    rw [even_iff, min_eq_right (by omega), am_mk _ _ (by omega)]
    have h1 := hdy y
    rw [heq] at h1
    have h2 : |(mag y : ℝ) - x| = |(magN n : ℝ) - x| := le_antisymm (le_of_mul_le_mul_right h1 hu) (hnear (am y))
    by_cases hn : am y = n
    · exfalso
      apply hne
      rw [min_eq_right (by omega), value_mk _ _ (by omega), value_sign y]
      have hm : mag y = magN n := by unfold mag; rw [hn]
      rw [hm]
      by_cases hs : sg y = s
      · rw [hs]
      · rcases Nat.eq_zero_or_pos n with h0 | h0
        · subst h0; simp [magN_zero]
        · exfalso
          have hp : (0 : ℝ) < magN n := by have := magN_strictMono h0; rw [magN_zero] at this; exact_mod_cast this
          have hv : |value y - (if s then -1 else 1) * (x * (2:ℝ)^(-149 : ℤ))| = |((magN n : ℝ) + x)| * 2^(-149 : ℤ) := by
            rw [value_sign y, hm, ← abs_of_pos hu, ← abs_mul, abs_of_pos hu]
            rcases hs1 : sg y with _ | _ <;> rcases s with _ | _
            · exact absurd hs1 hs
            · simp only [Bool.false_eq_true, if_true, if_false]; congr 1; ring
            · simp only [Bool.false_eq_true, if_true, if_false]; rw [← abs_neg]; congr 1; ring
            · exact absurd hs1 hs
          have e : |((magN n : ℝ) + x)| * 2^(-149 : ℤ) = |(magN n : ℝ) - x| * 2^(-149 : ℤ) := by rw [← hv, heq]
          have e2 := mul_right_cancel₀ hu.ne' e
          rw [abs_of_pos (by positivity)] at e2
          have hx0 : x = 0 := by
            rcases abs_cases ((magN n : ℝ) - x) with h6 | h6 <;> rw [h6.1] at e2 <;> linarith
          have := hnear 0
          rw [hx0, magN_zero] at this; simp at this
          exact hp.ne' (by exact_mod_cast this)
    · exact htie (am y) hn h2
  · rw [overflow_eq] at h
    have hs : s = false := by
      cases s
      · rfl
      · exfalso
        have : (0:ℝ) < 33554431 * 2^252 * (2:ℝ)^(-149 : ℤ) := by positivity
        have : 0 ≤ x * (2:ℝ)^(-149 : ℤ) := by positivity
        simp at h; linarith
    subst hs
    have hn : ¬ n < 0x7F800000 := by
      rw [hfin]; simp at h; linarith
    rw [min_eq_left (by omega)]; decide
  · rw [overflow_eq] at h
    have hs : s = true := by
      cases s
      · exfalso
        have : (0:ℝ) < 33554431 * 2^252 * (2:ℝ)^(-149 : ℤ) := by positivity
        have : 0 ≤ x * (2:ℝ)^(-149 : ℤ) := by positivity
        simp at h; linarith
      · rfl
    subst hs
    have hn : ¬ n < 0x7F800000 := by
      rw [hfin]; simp at h; linarith
    rw [min_eq_left (by omega)]; decide

/-- Rounding a quotient of naturals. -/
theorem rounds_div (s : Bool) (p q : ℕ) (hq : 0 < q) :
    Rounds ((if s then -1 else 1) * ((p / q : ℝ) * 2^(-149 : ℤ))) (mk s (roundN p q)) := by
  have hq' : (0 : ℝ) < q := by exact_mod_cast hq
  have e : ∀ m : ℕ, |(magN m : ℝ) - p / q| = ((|((magN m * q : ℕ) : ℤ) - p| : ℤ) : ℝ) / q := by
    intro m
    rw [eq_div_iff hq'.ne', ← abs_of_pos hq', ← abs_mul, abs_of_pos hq', sub_mul, div_mul_cancel₀ _ hq'.ne']
    push_cast; rfl
  rw [roundN_min]
  refine rounds_of s _ _ (by positivity) (fun m => ?_) (fun m hm h => ?_) ?_
  · rw [e, e, div_le_div_iff_of_pos_right hq']; exact_mod_cast roundU_nearest p q m hq
  · rw [e, e, div_left_inj' hq'.ne'] at h
    exact roundU_tie p q m hq hm (by exact_mod_cast h)
  · rw [roundU_finite p q hq, div_lt_iff₀ hq', show (2^253 : ℕ) = 2 * 2^252 by norm_num]
    constructor
    · intro h
      have h' : (2 * p : ℝ) < 33554431 * (2 * 2^252) * q := by exact_mod_cast h
      linarith
    · intro h
      have h' : (2 * p : ℝ) < 33554431 * (2 * 2^252) * q := by linarith
      exact_mod_cast h'

theorem roundN_zero (q : ℕ) (hq : 0 < q) : roundN 0 q = 0 := by
  rw [roundN_min]
  have := roundU_exact 0 q hq
  rw [magN_zero, zero_mul] at this
  rw [this]; rfl

theorem rounds_int (z : Bool) (n : ℤ) (q : ℕ) (hq : 0 < q) : Rounds ((n / q : ℝ) * 2^(-149 : ℤ)) (roundI z n q) := by
  unfold roundI
  by_cases h : n = 0
  · rw [if_pos h, h]
    have := rounds_div z 0 q hq
    rw [roundN_zero q hq] at this
    cases z <;> simpa using this
  · rw [if_neg h]
    have := rounds_div (decide (n < 0)) n.natAbs q hq
    have e : (if decide (n < 0) = true then (-1:ℝ) else 1) * (((n.natAbs : ℕ) : ℝ) / q * 2^(-149 : ℤ)) = (n / q : ℝ) * 2^(-149 : ℤ) := by
      by_cases hn : n < 0
      · have : ((n.natAbs : ℕ) : ℝ) = -n := by
          have : ((n.natAbs : ℕ) : ℤ) = -n := by omega
          rw [← Int.cast_natCast, this]; push_cast; rfl
        simp only [hn, decide_true, if_true, this]; ring
      · have : ((n.natAbs : ℕ) : ℝ) = n := by
          have : ((n.natAbs : ℕ) : ℤ) = n := by omega
          rw [← Int.cast_natCast, this]
        simp only [hn, decide_false, Bool.false_eq_true, if_false, this]; ring
    rwa [e] at this

theorem am_neg (a : BitVec 32) : am (neg a) = am a := by
  unfold am neg
  have : (2147483648#32 : BitVec 32).toNat = 2^31 := by decide
  rw [BitVec.toNat_xor, this, ← Nat.and_two_pow_sub_one_eq_mod, ← Nat.and_two_pow_sub_one_eq_mod, Nat.and_xor_distrib_right]
  simp
theorem sg_neg (a : BitVec 32) : sg (neg a) = !sg a := by
  unfold sg neg; rw [BitVec.msb_xor, show (2147483648#32 : BitVec 32).msb = true by decide]; simp
theorem neg_value (a : BitVec 32) : value (neg a) = - value a := by
  rw [value_sign, value_sign]; unfold mag; rw [sg_neg, am_neg]; cases sg a <;> simp
theorem u_inv : (2:ℝ)^(-149:ℤ) = (((2^149 : ℕ) : ℝ))⁻¹ := by rw [zpow_neg]; push_cast; norm_cast
theorem finite_neg {a : BitVec 32} : IsFinite (neg a) ↔ IsFinite a := by rw [finite_iff, finite_iff, am_neg]

variable (P : Env)

theorem addCore_rounds (op : ℕ) {a b : BitVec 32} (ha : IsFinite a) (hb : IsFinite b) : Rounds (value a + value b) (addCore P op a b) := by
  unfold addCore
  rw [finite_iff'] at ha hb
  rw [if_neg (by simp [ha]), if_neg (by simp [hb])]
  have := rounds_int (sg a && sg b) (ival a + ival b) 1 one_pos
  rw [value_eq, value_eq, ← add_mul]; push_cast at this; simpa using this
theorem add_rounds {a b : BitVec 32} (ha : IsFinite a) (hb : IsFinite b) : Rounds (value a + value b) (add P a b) := by
  unfold add; rw [if_neg (by simp [(finite_iff' a).1 ha, (finite_iff' b).1 hb])]; exact addCore_rounds P 0 ha hb
theorem sub_rounds {a b : BitVec 32} (ha : IsFinite a) (hb : IsFinite b) : Rounds (value a - value b) (sub P a b) := by
  unfold sub; rw [if_neg (by simp [(finite_iff' a).1 ha, (finite_iff' b).1 hb])]
  have := addCore_rounds P 1 ha (finite_neg.2 hb)
  rwa [neg_value, ← sub_eq_add_neg] at this
theorem sgn_mul_sgn (s t : Bool) : (if s then (-1:ℝ) else 1) * (if t then -1 else 1) = if (s != t) then -1 else 1 := by cases s <;> cases t <;> simp
theorem mul_rounds {a b : BitVec 32} (ha : IsFinite a) (hb : IsFinite b) : Rounds (value a * value b) (mul P a b) := by
  unfold mul
  have ha' := (finite_iff' a).1 ha
  have hb' := (finite_iff' b).1 hb
  rw [if_neg (by simp [ha', hb']), if_neg (by simp [ha', hb'])]
  have := rounds_div (sg a != sg b) (mag a * mag b) (2^149) (by positivity)
  convert this using 1
  rw [value_sign a, value_sign b, ← sgn_mul_sgn, u_inv]
  generalize 2^149 = U
  push_cast; ring
theorem div_rounds {a b : BitVec 32} (ha : IsFinite a) (hb : IsFinite b) (h0 : value b ≠ 0) : Rounds (value a / value b) (div P a b) := by
  unfold div
  have ha' := (finite_iff' a).1 ha
  have hb' := (finite_iff' b).1 hb
  have hm : mag b ≠ 0 := by intro h; apply h0; rw [value_sign, h]; simp
  rw [if_neg (by simp [ha', hb']), if_neg (by simp [ha']), if_neg (by simp [hb']), if_neg hm]
  have := rounds_div (sg a != sg b) (mag a * 2^149) (mag b) (by omega)
  convert this using 1
  have hm' : (mag b : ℝ) ≠ 0 := by exact_mod_cast hm
  have hU : ((2^149 : ℕ) : ℝ) ≠ 0 := by positivity
  rw [value_sign a, value_sign b, ← sgn_mul_sgn, u_inv]
  generalize 2^149 = U at *
  push_cast
  have hs : (if sg b = true then (-1:ℝ) else 1) = (if sg b = true then (-1:ℝ) else 1)⁻¹ := by split_ifs <;> norm_num
  conv_rhs => rw [hs]
  field_simp
theorem fmaCore_rounds (op : ℕ) {a b c : BitVec 32} (ha : IsFinite a) (hb : IsFinite b) (hc : IsFinite c) :
    Rounds (value a * value b + value c) (fmaCore P op a b c) := by
  unfold fmaCore
  have ha' := (finite_iff' a).1 ha
  have hb' := (finite_iff' b).1 hb
  have hc' := (finite_iff' c).1 hc
  rw [if_neg (by simp [ha', hb']), if_neg (by simp [hc'])]
  have := rounds_int ((sg a != sg b) && sg c) (ival a * ival b + ival c * 2^149) (2^149) (by positivity)
  convert this using 1
  have hU : ((2^149 : ℕ) : ℝ) ≠ 0 := by positivity
  have e2 : ((ival a * ival b + ival c * 2^149 : ℤ) : ℝ) = ival a * ival b + ival c * ((2^149 : ℕ) : ℝ) := by push_cast; rfl
  rw [value_eq a, value_eq b, value_eq c, e2, u_inv]
  generalize 2^149 = U at *
  field_simp
theorem fma_rounds {a b c : BitVec 32} (ha : IsFinite a) (hb : IsFinite b) (hc : IsFinite c) :
    Rounds (value a * value b + value c) (fma P a b c) := by
  unfold fma; rw [if_neg (by simp [(finite_iff' a).1 ha, (finite_iff' b).1 hb, (finite_iff' c).1 hc])]; exact fmaCore_rounds P 4 ha hb hc
theorem fnma_rounds {a b c : BitVec 32} (ha : IsFinite a) (hb : IsFinite b) (hc : IsFinite c) :
    Rounds (value c - value a * value b) (fnma P a b c) := by
  unfold fnma; rw [if_neg (by simp [(finite_iff' a).1 ha, (finite_iff' b).1 hb, (finite_iff' c).1 hc])]
  have := fmaCore_rounds P 5 (finite_neg.2 ha) hb hc
  rw [neg_value] at this
  rwa [show value c - value a * value b = -value a * value b + value c by ring]

/-- Every grid point 2^(23+k) is a number of the format. -/
theorem magN_pow (k : ℕ) : magN (k * 2^23 + 2^23) = 2^(23 + k) := by
  rw [magN_kq k (2^23) (by norm_num) (Or.inr le_rfl), pow_add]

/-- Rounding with a sticky half: `x` strictly between `r` and `r+1`, `r ≥ 2^24`. -/
theorem sticky_side (r : ℕ) (hr : 2^24 ≤ r) (m : ℕ) :
    (m < roundU (2 * r + 1) 2 → magN (roundU (2 * r + 1) 2) + magN m ≤ 2 * r) ∧
    (roundU (2 * r + 1) 2 < m → 2 * r + 2 ≤ magN (roundU (2 * r + 1) 2) + magN m) := by
  set p := 2 * r + 1 with hp
  have hd : p / 2 = r := by omega
  have hk1 : 1 ≤ ke p 2 := by
    unfold ke; rw [hd]
    have := (Nat.le_log2 (by omega)).2 hr
    omega
  have hk0 : ke p 2 ≠ 0 := by omega
  obtain ⟨k, hk⟩ := Nat.exists_eq_add_of_le' hk1
  have hN := magN_round p 2 (by norm_num)
  have hq := qe_lower p 2 (by norm_num) hk0
  have hNlow : 2^(23 + ke p 2) ≤ magN (roundU p 2) := by
    rw [roundU, hN, pow_add]; exact Nat.mul_le_mul_right _ hq
  have hNe : ∃ t, magN (roundU p 2) = 2 * t := ⟨qe p 2 * 2^k, by rw [roundU, hN, hk, pow_succ]; ring⟩
  have hpl := ke_lower p 2 (by norm_num) hk0
  have hbase : 2^(23 + ke p 2) ≤ r := by
    have : 2 * 2^(ke p 2) * 2^23 = 2 * 2^(23 + ke p 2) := by rw [pow_add]; ring
    omega
  obtain ⟨t, ht⟩ := hNe
  have hgrid : ∀ m, 2^(23 + ke p 2) ≤ magN m → ∃ u, magN m = 2 * u := by
    intro m hm
    obtain ⟨z, hz, -⟩ := magN_grid m _ hm
    exact ⟨z * 2^k, by rw [hz, hk, pow_succ]; ring⟩
  have near : ∀ m, |((magN (roundU p 2) * 2 : ℕ) : ℤ) - p| ≤ |((magN m * 2 : ℕ) : ℤ) - p| := fun m => roundU_nearest p 2 m (by norm_num)
  have case1 : ∀ m, 2^(23 + ke p 2) ≤ magN m → m < roundU p 2 → magN (roundU p 2) + magN m ≤ 2 * r := by
    intro m hm hlt
    have hlt' := magN_strictMono hlt
    obtain ⟨u, hu⟩ := hgrid m hm
    have h := near m
    rcases abs_cases (((magN (roundU p 2) * 2 : ℕ) : ℤ) - p) with h1 | h1 <;> rcases abs_cases (((magN m * 2 : ℕ) : ℤ) - p) with h2 | h2 <;>
      rw [h1.1, h2.1] at h <;> push_cast at * <;> omega
  constructor
  · intro hlt
    by_cases hm : 2^(23 + ke p 2) ≤ magN m
    · exact case1 m hm hlt
    · push Not at hm
      rcases eq_or_lt_of_le hNlow with h | h
      · omega
      · have hb := magN_pow (ke p 2)
        have hlt2 : ke p 2 * 2^23 + 2^23 < roundU p 2 := magN_strictMono.lt_iff_lt.1 (by rw [hb]; exact h)
        have := case1 _ (by rw [hb]) hlt2
        rw [hb] at this; omega
  · intro hlt
    have hlt' := magN_strictMono hlt
    obtain ⟨u, hu⟩ := hgrid m (by omega)
    have h := near m
    rcases abs_cases (((magN (roundU p 2) * 2 : ℕ) : ℤ) - p) with h1 | h1 <;> rcases abs_cases (((magN m * 2 : ℕ) : ℤ) - p) with h2 | h2 <;>
      rw [h1.1, h2.1] at h <;> push_cast at * <;> omega

theorem rounds_sticky (r : ℕ) (hr : 2^24 ≤ r) (hr2 : r < 2^213) (x : ℝ) (h1 : (r : ℝ) < x) (h2 : x < r + 1) :
    Rounds (x * 2^(-149 : ℤ)) (mk false (roundN (2 * r + 1) 2)) := by
  have := rounds_of false x (roundU (2 * r + 1) 2) (by have : (0:ℝ) ≤ r := by positivity
                                                       linarith) ?_ ?_ ?_
  · rw [roundN_min]; simpa using this
  · intro m
    obtain ⟨a, b⟩ := sticky_side r hr m
    rcases lt_trichotomy m (roundU (2 * r + 1) 2) with h | h | h
    · have a' : (magN (roundU (2 * r + 1) 2) + magN m : ℝ) ≤ 2 * r := by exact_mod_cast a h
      have hlt : (magN m : ℝ) < magN (roundU (2 * r + 1) 2) := by exact_mod_cast magN_strictMono h
      rcases abs_cases ((magN m : ℝ) - x) with h6 | h6 <;> rcases abs_cases ((magN (roundU (2 * r + 1) 2) : ℝ) - x) with h7 | h7 <;> rw [h6.1, h7.1] <;> linarith
    · rw [h]
    · have a' : (2 * r + 2 : ℝ) ≤ magN (roundU (2 * r + 1) 2) + magN m := by exact_mod_cast b h
      have hlt : (magN (roundU (2 * r + 1) 2) : ℝ) < magN m := by exact_mod_cast magN_strictMono h
      rcases abs_cases ((magN m : ℝ) - x) with h6 | h6 <;> rcases abs_cases ((magN (roundU (2 * r + 1) 2) : ℝ) - x) with h7 | h7 <;> rw [h6.1, h7.1] <;> linarith
  · intro m hm he
    exfalso
    obtain ⟨a, b⟩ := sticky_side r hr m
    rcases lt_or_gt_of_ne hm with h | h
    · have a' : (magN (roundU (2 * r + 1) 2) + magN m : ℝ) ≤ 2 * r := by exact_mod_cast a h
      have hlt : (magN m : ℝ) < magN (roundU (2 * r + 1) 2) := by exact_mod_cast magN_strictMono h
      rcases abs_cases ((magN m : ℝ) - x) with h6 | h6 <;> rcases abs_cases ((magN (roundU (2 * r + 1) 2) : ℝ) - x) with h7 | h7 <;> rw [h6.1, h7.1] at he <;> linarith
    · have a' : (2 * r + 2 : ℝ) ≤ magN (roundU (2 * r + 1) 2) + magN m := by exact_mod_cast b h
      have hlt : (magN (roundU (2 * r + 1) 2) : ℝ) < magN m := by exact_mod_cast magN_strictMono h
      rcases abs_cases ((magN m : ℝ) - x) with h6 | h6 <;> rcases abs_cases ((magN (roundU (2 * r + 1) 2) : ℝ) - x) with h7 | h7 <;> rw [h6.1, h7.1] at he <;> linarith
  · have hA : roundU (2 * r + 1) 2 < 0x7F800000 := by
      rw [roundU_finite _ _ (by norm_num)]
      calc 2 * (2 * r + 1) < 2 * (2 * 2^213 + 1) := by omega
        _ < _ := by norm_num
    have hB : x < 33554431 * 2^252 := by
      have : (r : ℝ) < 2^213 := by exact_mod_cast hr2
      have : (2:ℝ)^200 + 1 < 33554431 * 2^252 := by norm_num
      linarith
    exact ⟨fun _ => hB, fun _ => hA⟩

theorem sqrt_rounds {a : BitVec 32} (ha : IsFinite a) (h0 : 0 ≤ value a) : Rounds (Real.sqrt (value a)) (sqrt P a) := by
  unfold sqrt
  have ha' := (finite_iff' a).1 ha
  have ham := (finite_iff a).1 ha
  rw [if_neg (by simp [ha'])]
  by_cases hm : mag a = 0
  · rw [if_pos hm]
    have hv : value a = 0 := by rw [value_sign, hm]; simp
    rw [hv, Real.sqrt_zero]
    have := rounds_div (sg a) 0 1 one_pos
    rw [roundN_zero 1 one_pos] at this
    have e : mk (sg a) 0 = a := by
      conv_rhs => rw [← mk_am a]
      have : am a = 0 := magN_eq_zero.1 hm
      rw [this]
    rw [e] at this; simpa using this
  rw [if_neg hm]
  have hsg : sg a = false := by
    by_contra hc
    have hs : sg a = true := by simpa using hc
    rw [value_sign, hs] at h0
    have : (0:ℝ) < (mag a : ℝ) * 2^(-149 : ℤ) := by have : (0:ℝ) < mag a := by exact_mod_cast Nat.pos_of_ne_zero hm
                                                    positivity
    simp only [if_true] at h0; linarith
  rw [if_neg (by simp [hsg]), if_neg (by simp [ha'])]
  have hval : value a = (mag a : ℝ) * 2^(-149 : ℤ) := by rw [value_sign, hsg]; simp
  have hx : Real.sqrt (value a) = Real.sqrt ((mag a * 2^149 : ℕ) : ℝ) * 2^(-149 : ℤ) := by
    rw [hval, u_inv]
    have hU : (0:ℝ) < ((2^149 : ℕ) : ℝ) := by positivity
    generalize 2^149 = U at *
    rw [show (mag a : ℝ) * (U : ℝ)⁻¹ = ((mag a * U : ℕ) : ℝ) * ((U : ℝ)⁻¹)^2 by push_cast; field_simp]
    rw [Real.sqrt_mul (by positivity), Real.sqrt_sq (by positivity)]
  rw [hx]
  have hmag : mag a < 2^277 := by
    have e2 : magN 0x7F800000 = 2^277 := by decide +kernel
    rw [← e2]; exact magN_strictMono ham
  have hlo : (2^74)^2 ≤ mag a * 2^149 := by
    calc (2^74)^2 ≤ 1 * 2^149 := by norm_num
      _ ≤ _ := Nat.mul_le_mul_right _ (Nat.pos_of_ne_zero hm)
  have hhi : mag a * 2^149 < (2^213)^2 := by
    calc mag a * 2^149 < 2^277 * 2^149 := Nat.mul_lt_mul_of_pos_right hmag (by positivity)
      _ ≤ _ := by rw [← pow_add, ← pow_mul]
  simp only
  generalize mag a * 2^149 = n at *
  set r := Nat.sqrt n with hr
  have hr1 : 2^74 ≤ r := by rw [hr, Nat.le_sqrt']; exact hlo
  have hr2 : r < 2^213 := by rw [hr, Nat.sqrt_lt']; exact hhi
  have s1 : r * r ≤ n := Nat.sqrt_le n
  have s2 : n < (r + 1) * (r + 1) := Nat.lt_succ_sqrt n
  by_cases he : r * r = n
  · have e1 : Real.sqrt (n : ℝ) = r := by
      rw [← he]; push_cast; exact Real.sqrt_mul_self (by positivity)
    have := rounds_div false (2 * r) 2 (by norm_num)
    rw [if_pos he, e1, add_zero]
    push_cast at this
    rw [show (2 * r / 2 : ℝ) = r by ring] at this
    simpa using this
  · rw [if_neg he]
    refine rounds_sticky r (le_trans (by norm_num) hr1) hr2 _ ?_ ?_
    · rw [Real.lt_sqrt (by positivity)]
      have : r * r < n := lt_of_le_of_ne s1 he
      rw [pow_two]; exact_mod_cast this
    · rw [Real.sqrt_lt' (by positivity), pow_two]; exact_mod_cast s2

end DXM.IEEE
