import Verif.Lemmas.Half
import Verif.Lemmas.Conv

/-
packed_vector.rs: the software conversions against correct rounding.
-/

set_option linter.all false

namespace DXM.Half
open DXM.IEEE (rne rne_spec rne_cases rne_mul rne_nearest rne_tie)

theorem rne_scale (p q s : ℕ) (hs : 0 < s) : rne (p * s) (q * s) = rne p q := by
  unfold rne
  rw [Nat.mul_div_mul_right _ _ hs, Nat.mul_mod_mul_right]
  have h1 : (2 * (p % q * s) < q * s) ↔ 2 * (p % q) < q := by rw [← mul_assoc]; exact Nat.mul_lt_mul_right hs
  have h2 : (q * s < 2 * (p % q * s)) ↔ q < 2 * (p % q) := by rw [← mul_assoc]; exact Nat.mul_lt_mul_right hs
  simp only [h1, h2]

theorem rne_add (a p q : ℕ) (hq : 0 < q) (ha : a % 2 = 0) : rne (a * q + p) q = a + rne p q := by
  unfold rne
  have e1 : (a * q + p) / q = a + p / q := by rw [Nat.add_comm, Nat.add_mul_div_right _ _ hq, Nat.add_comm]
  have e2 : (a * q + p) % q = p % q := by rw [Nat.add_comm, Nat.add_mul_mod_self_right]
  rw [e1, e2]
  have e3 : (a + p / q) % 2 = p / q % 2 := by omega
  rw [e3]
  split_ifs <;> omega

/-- Case `n ≥ 0x47800000`: 65536 and beyond. -/
theorem round_big {n : ℕ} (h : 0x47800000 ≤ n) : roundH (IEEE.magN n) (2^125) = 0x7C00 := by
  rw [roundH_min]
  apply min_eq_left
  rw [← not_lt, roundU_finite _ _ (by positivity), not_lt]
  have h1 := IEEE.magN_strictMono.monotone h
  have h2 : IEEE.magN 0x47800000 = 2^165 := by decide +kernel
  rw [h2] at h1
  calc 4095 * 2^29 * 2^125 ≤ 2 * 2^165 := by norm_num
    _ ≤ _ := Nat.mul_le_mul_left 2 h1

/-- Case `n ≤ 0x33000000`: at most half of the smallest subnormal. -/
theorem round_small {n : ℕ} (h : n ≤ 0x33000000) : roundH (IEEE.magN n) (2^125) = 0 := by
  have h1 := IEEE.magN_strictMono.monotone h
  have h2 : IEEE.magN 0x33000000 = 2^124 := by decide +kernel
  rw [h2] at h1
  have hd : IEEE.magN n / 2^125 = 0 := Nat.div_eq_of_lt (lt_of_le_of_lt h1 (by norm_num))
  have hm : IEEE.magN n % 2^125 = IEEE.magN n := Nat.mod_eq_of_lt (lt_of_le_of_lt h1 (by norm_num))
  unfold roundH
  rw [hd]
  have : rne (IEEE.magN n) (2^125 * 2^(Nat.log2 0 - 10)) = 0 := by
    rw [show Nat.log2 0 - 10 = 0 by decide, pow_zero, mul_one]
    unfold rne
    rw [hd, hm]
    generalize IEEE.magN n = x at *
    split_ifs <;> omega
  simp only [this]; decide

theorem magN_split {e f : ℕ} (he : 1 ≤ e) (hf : f < 2^23) : IEEE.magN (e * 2^23 + f) = (2^23 + f) * 2^(e - 1) := by
  have := IEEE.magN_kq (e - 1) (2^23 + f) (by omega) (Or.inr (by omega))
  rw [show (e - 1) * 2^23 + (2^23 + f) = e * 2^23 + f by omega] at this; exact this

/-- Case of subnormal results. -/
theorem round_sub {e f : ℕ} (h1 : 102 ≤ e) (h2 : e ≤ 112) (hf : f < 2^23) :
    roundH (IEEE.magN (e * 2^23 + f)) (2^125) = rne (2^23 + f) (2^(126 - e)) := by
  rw [magN_split (by omega) hf]
  have hlt : (2^23 + f) * 2^(e-1) / 2^125 < 2^10 := by
    rw [Nat.div_lt_iff_lt_mul (by positivity)]
    calc (2^23 + f) * 2^(e-1) < 2^24 * 2^(e-1) := Nat.mul_lt_mul_of_pos_right (by omega) (by positivity)
      _ ≤ 2^24 * 2^111 := Nat.mul_le_mul_left _ (Nat.pow_le_pow_right (by norm_num) (by omega))
      _ = 2^10 * 2^125 := by norm_num
  have hk : Nat.log2 ((2^23 + f) * 2^(e-1) / 2^125) - 10 = 0 := by
    by_cases h0 : (2^23 + f) * 2^(e-1) / 2^125 = 0
    · rw [h0]; decide
    · have := (Nat.log2_lt h0).2 hlt; omega
  unfold roundH
  simp only [hk, pow_zero, mul_one, zero_mul, zero_add]
  have e1 : rne ((2^23 + f) * 2^(e-1)) (2^125) = rne (2^23 + f) (2^(126 - e)) := by
    have : (2^125 : ℕ) = 2^(126 - e) * 2^(e-1) := by rw [← pow_add]; congr 1; omega
    rw [this]; exact rne_scale _ _ _ (by positivity)
  rw [e1]
  apply min_eq_right
  have hs := (rne_spec (2^23 + f) (2^(126 - e)) (by positivity)).1
  have hp : 2^14 ≤ 2^(126 - e) := Nat.pow_le_pow_right (by norm_num) (by omega)
  generalize 2^(126 - e) = d at *
  by_contra hc
  have : 0x7C00 + 1 ≤ rne (2^23 + f) d := by omega
  have := Nat.mul_le_mul_right d this
  nlinarith

/-- Case of normal results. -/
theorem round_norm {e f : ℕ} (h1 : 113 ≤ e) (h2 : e ≤ 142) (hf : f < 2^23) :
    roundH (IEEE.magN (e * 2^23 + f)) (2^125) = rne ((e - 112) * 2^23 + f) (2^13) ∧ rne ((e - 112) * 2^23 + f) (2^13) ≤ 0x7C00 := by
  rw [magN_split (by omega) hf]
  have hlog : Nat.log2 ((2^23 + f) * 2^(e-1) / 2^125) = e - 103 := by
    have hne : (2^23 + f) * 2^(e-1) / 2^125 ≠ 0 := by
      apply Nat.ne_of_gt; apply Nat.div_pos _ (by positivity)
      calc 2^125 ≤ 2^23 * 2^112 := by norm_num
        _ ≤ (2^23 + f) * 2^(e-1) := Nat.mul_le_mul (by omega) (Nat.pow_le_pow_right (by norm_num) (by omega))
    apply Nat.le_antisymm
    · have : Nat.log2 ((2^23 + f) * 2^(e-1) / 2^125) < e - 102 := by
        rw [Nat.log2_lt hne, Nat.div_lt_iff_lt_mul (by positivity)]
        calc (2^23 + f) * 2^(e-1) < 2^24 * 2^(e-1) := Nat.mul_lt_mul_of_pos_right (by omega) (by positivity)
          _ = 2^(e-102) * 2^125 := by rw [← pow_add, ← pow_add]; congr 1; omega
      omega
    · rw [Nat.le_log2 hne, Nat.le_div_iff_mul_le (by positivity)]
      calc 2^(e-103) * 2^125 = 2^23 * 2^(e-1) := by rw [← pow_add, ← pow_add]; congr 1; omega
        _ ≤ _ := Nat.mul_le_mul_right _ (by omega)
  have e1 : rne ((2^23 + f) * 2^(e-1)) (2^125 * 2^(e - 103 - 10)) = rne (2^23 + f) (2^13) := by
    have : (2^125 * 2^(e - 103 - 10) : ℕ) = 2^13 * 2^(e-1) := by rw [← pow_add, ← pow_add]; congr 1; omega
    rw [this]; exact rne_scale _ _ _ (by positivity)
  have e2 : rne ((e - 112) * 2^23 + f) (2^13) = (e - 113) * 2^10 + rne (2^23 + f) (2^13) := by
    rw [← rne_add ((e - 113) * 2^10) (2^23 + f) (2^13) (by positivity) (by omega)]
    exact congrArg (fun y => rne y (2^13)) (by omega)
  have hle : rne (2^23 + f) (2^13) ≤ 2^11 := by
    have hs := (rne_spec (2^23 + f) (2^13) (by positivity)).1
    clear hlog e1 e2
    generalize rne (2^23 + f) (2^13) = r at *
    omega
  have hle2 : (e - 113) * 2^10 + rne (2^23 + f) (2^13) ≤ 0x7C00 := by omega
  rw [e2]
  refine ⟨?_, hle2⟩
  unfold roundH
  simp only [hlog, e1]
  rw [show e - 103 - 10 = e - 113 by omega]
  exact min_eq_right hle2

/-- The code's rounding in the normal range. -/
theorem code_norm (x : ℕ) : (x + 0xFFF + x / 2^13 % 2) / 2^13 = rne x (2^13) := by
  unfold rne
  have := Nat.div_add_mod x (2^13)
  split_ifs <;> omega

/-- The code's rounding in the subnormal range: `d = 2^(s+1)`. -/
theorem code_sub (x s : ℕ) : x / 2^(s+1) + (if (x / 2^(s+1) % 2 = 1 ∨ x % 2^s ≠ 0) ∧ x / 2^s % 2 = 1 then 1 else 0) = rne x (2^(s+1)) := by
  unfold rne
  have h2 : x / 2^(s+1) = x / 2^s / 2 := by rw [pow_succ, Nat.div_div_eq_div_mul]
  have h3 : x % 2^(s+1) = x % 2^s + 2^s * (x / 2^s % 2) := by rw [pow_succ, Nat.mod_mul]
  have h4 : (2:ℕ)^(s+1) = 2 * 2^s := by rw [pow_succ]; ring
  have h5 : x % 2^s < 2^s := Nat.mod_lt _ (by positivity)
  rw [h2, h3, h4]
  generalize x % 2^s = r at *
  generalize 2^s = d at *
  rcases Nat.mod_two_eq_zero_or_one (x / d) with h | h <;> rw [h] <;> split_ifs <;> simp_all <;> omega

/-- Assembling sign and magnitude. -/
theorem or_sign (R : BitVec 32) (s : Bool) (h : R.toNat < 2^15) : (R ||| (if s then 0x8000#32 else 0#32)).setWidth 16 = mk s R.toNat := by
  apply BitVec.eq_of_toNat_eq
  rw [BitVec.toNat_setWidth, BitVec.toNat_or]
  unfold mk
  rw [BitVec.toNat_ofNat]
  cases s
  · rw [show (if false = true then 0x8000#32 else 0#32 : BitVec 32).toNat = 0 by decide, Nat.or_zero]
    simp only [Bool.false_eq_true, if_false, Nat.add_zero]
  · have h1 := Nat.two_pow_add_eq_or_of_lt h 1
    rw [show (if true = true then 0x8000#32 else 0#32 : BitVec 32).toNat = 2^15 * 1 by decide, Nat.or_comm, ← h1]
    simp only [if_true]; omega

theorem sign_shift (a : BitVec 32) : (a &&& 0x80000000#32) >>> 16 = if IEEE.sg a then 0x8000#32 else 0#32 := by
  rw [IEEE.and_sign]; cases IEEE.sg a <;> decide

theorem and_abs (a : BitVec 32) : (a &&& 0x7FFFFFFF#32).toNat = IEEE.am a := by
  rw [BitVec.toNat_and, show (0x7FFFFFFF#32 : BitVec 32).toNat = 2^31 - 1 by decide, Nat.and_two_pow_sub_one_eq_mod]; rfl

/-- The software conversion computes the correctly rounded half (and treats NaN as the hardware does). -/
theorem soft_eq (a : BitVec 32) : floatToHalfSoft a = cvtps_ph a := by
  unfold floatToHalfSoft cvtps_ph
  simp only [sign_shift]
  have hI := and_abs a
  have hIlt := IEEE.am_lt a
  generalize a &&& 0x7FFFFFFF#32 = I at *
  have c1 : (0x47800000#32 ≤ I) ↔ 0x47800000 ≤ IEEE.am a := by rw [BitVec.le_def, hI]; rfl
  have c2 : (0x7F800000#32 < I) ↔ 0x7F800000 < IEEE.am a := by rw [BitVec.lt_def, hI]; rfl
  have c3 : (I ≤ 0x33000000#32) ↔ IEEE.am a ≤ 0x33000000 := by rw [BitVec.le_def, hI]; rfl
  have c4 : (I < 0x38800000#32) ↔ IEEE.am a < 0x38800000 := by rw [BitVec.lt_def, hI]; rfl
  simp only [c1, c2, c3, c4]
  have hnan : IEEE.isNaN a = decide (0x7F800000 < IEEE.am a) := rfl
  have hinf : IEEE.isInf a = decide (IEEE.am a = 0x7F800000) := rfl
  have fin : ∀ (R : BitVec 32) (n : ℕ), R.toNat = n → n < 2^15 →
      (R ||| (if IEEE.sg a = true then 0x8000#32 else 0#32)).setWidth 16 = BitVec.ofNat 16 (n + if IEEE.sg a = true then 2^15 else 0) := by
    intro R n h1 h2
    rw [or_sign R _ (by omega), h1]; rfl
  by_cases h1 : 0x47800000 ≤ IEEE.am a
  · rw [if_pos h1]
    by_cases h2 : 0x7F800000 < IEEE.am a
    · rw [if_pos h2, hnan]
      simp only [h2, decide_true, if_true]
      apply fin
      · have e1 : (I >>> 13 &&& 0x3FF#32).toNat = IEEE.am a / 2^13 % 2^10 := by
          rw [BitVec.toNat_and, BitVec.toNat_ushiftRight, hI, show (0x3FF#32 : BitVec 32).toNat = 2^10 - 1 by decide, Nat.and_two_pow_sub_one_eq_mod, Nat.shiftRight_eq_div_pow]
        rw [BitVec.toNat_or, BitVec.toNat_or, e1, ← Nat.or_assoc]; rfl
      · exact Nat.or_lt_two_pow (by norm_num) (by omega)
    · rw [if_neg h2, hnan, hinf]
      simp only [h2, decide_false, Bool.false_eq_true, if_false]
      apply fin
      · split_ifs with h3
        · decide
        · have : IEEE.mag a = IEEE.magN (IEEE.am a) := rfl
          rw [this, round_big h1]; decide
      · split_ifs with h3
        · norm_num
        · have : IEEE.mag a = IEEE.magN (IEEE.am a) := rfl
          rw [this, round_big h1]; norm_num
  · have n1 : ¬ 0x7F800000 < IEEE.am a := by omega
    have n2 : ¬ IEEE.am a = 0x7F800000 := by omega
    rw [if_neg h1, hnan, hinf]
    simp only [n1, n2, decide_false, Bool.false_eq_true, if_false]
    rw [show IEEE.mag a = IEEE.magN (IEEE.am a) from rfl]
    by_cases h3 : IEEE.am a ≤ 0x33000000
    · rw [if_pos h3, round_small h3]
      exact fin _ _ rfl (by norm_num)
    · rw [if_neg h3]
      have hsplit : IEEE.am a = IEEE.am a / 2^23 * 2^23 + IEEE.am a % 2^23 := by omega
      have hf : IEEE.am a % 2^23 < 2^23 := by omega
      by_cases h4 : IEEE.am a < 0x38800000
      · rw [if_pos h4]
        have hr := round_sub (e := IEEE.am a / 2^23) (f := IEEE.am a % 2^23) (by omega) (by omega) hf
        rw [← hsplit] at hr
        have hbound : rne (2^23 + IEEE.am a % 2^23) (2^(126 - IEEE.am a / 2^23)) < 2^15 := by
          rw [← hr, roundH_min]; exact lt_of_le_of_lt (min_le_left _ _) (by norm_num)
        rw [hr]
        refine fin _ _ ?_ hbound
        have hs : (125#32 - I >>> 23).toNat = 125 - IEEE.am a / 2^23 := by
          rw [BitVec.toNat_sub, BitVec.toNat_ushiftRight, hI, Nat.shiftRight_eq_div_pow, show (125#32 : BitVec 32).toNat = 125 by decide]; omega
        have hs1 : (125#32 - I >>> 23 + 1#32).toNat = 125 - IEEE.am a / 2^23 + 1 := by
          rw [BitVec.toNat_add, hs]; show (_ + 1) % _ = _; omega
        have hv : (0x800000#32 ||| (I &&& 0x7FFFFF#32)).toNat = 2^23 + IEEE.am a % 2^23 := by
          rw [BitVec.toNat_or, BitVec.toNat_and, hI, show (0x7FFFFF#32 : BitVec 32).toNat = 2^23 - 1 by decide, Nat.and_two_pow_sub_one_eq_mod,
            show (0x800000#32 : BitVec 32).toNat = 2^23 * 1 by decide, ← Nat.two_pow_add_eq_or_of_lt hf, mul_one]
        simp only [hs, hs1]
        generalize hs' : 125 - IEEE.am a / 2^23 = s at *
        have hs23 : s ≤ 23 := by omega
        have hs13 : 13 ≤ s := by omega
        rw [show 126 - IEEE.am a / 2^23 = s + 1 by omega]
        generalize 0x800000#32 ||| (I &&& 0x7FFFFF#32) = v at *
        generalize 2^23 + IEEE.am a % 2^23 = x at *
        rw [← code_sub]
        have hq : (v >>> (s+1)).toNat = x / 2^(s+1) := by rw [BitVec.toNat_ushiftRight, hv, Nat.shiftRight_eq_div_pow]
        have hb : ((v >>> s) &&& 1#32).toNat = x / 2^s % 2 := by
          rw [BitVec.toNat_and, BitVec.toNat_ushiftRight, hv, Nat.shiftRight_eq_div_pow, show (1#32 : BitVec 32).toNat = 2^1 - 1 by decide, Nat.and_two_pow_sub_one_eq_mod]
        have hm : (v &&& (1#32 <<< s - 1#32)).toNat = x % 2^s := by
          have : (1#32 <<< s - 1#32 : BitVec 32).toNat = 2^s - 1 := by
            clear hbound hq hb hv hr
            interval_cases s <;> decide
          rw [BitVec.toNat_and, hv, this, Nat.and_two_pow_sub_one_eq_mod]
        have hne : (v &&& (1#32 <<< s - 1#32) ≠ 0#32) ↔ x % 2^s ≠ 0 := by
          rw [← hm]; exact not_congr ⟨fun h => by rw [h]; rfl, fun h => BitVec.eq_of_toNat_eq (by rw [h]; rfl)⟩
        have hsbit : (if v &&& (1#32 <<< s - 1#32) ≠ 0#32 then (1#32 : BitVec 32) else 0#32) = if x % 2^s ≠ 0 then 1#32 else 0#32 := by
          by_cases h : x % 2^s ≠ 0
          · rw [if_pos h, if_pos (hne.2 h)]
          · rw [if_neg h, if_neg (fun h' => h (hne.1 h'))]
        rw [hsbit]
        -- the increment
        have hinc : ((v >>> (s+1) ||| (if x % 2^s ≠ 0 then 1#32 else 0#32)) &&& (v >>> s &&& 1#32)).toNat =
            if (x / 2^(s+1) % 2 = 1 ∨ x % 2^s ≠ 0) ∧ x / 2^s % 2 = 1 then 1 else 0 := by
          rw [BitVec.toNat_and, hb, BitVec.toNat_or, hq]
          rcases Nat.mod_two_eq_zero_or_one (x / 2^s) with h | h
          · rw [h, Nat.and_zero, if_neg (by simp)]
          · rw [h, show (1:ℕ) = 2^1 - 1 by norm_num, Nat.and_two_pow_sub_one_eq_mod, Nat.or_mod_two_pow]
            by_cases h' : x % 2^s ≠ 0
            · rw [if_pos h', if_pos ⟨Or.inr h', by norm_num⟩, pow_one, show (1#32 : BitVec 32).toNat % 2 = 1 by decide]
              rcases Nat.mod_two_eq_zero_or_one (x / 2^(s+1)) with h'' | h'' <;> rw [h''] <;> decide
            · rw [if_neg h', pow_one, show (0#32 : BitVec 32).toNat % 2 = 0 by decide, Nat.or_zero]
              rcases Nat.mod_two_eq_zero_or_one (x / 2^(s+1)) with h'' | h'' <;> rw [h'']
              · rw [if_neg (by rintro ⟨h1 | h1, _⟩ <;> [exact absurd h1 (by norm_num); exact h' h1])]
              · rw [if_pos ⟨Or.inl rfl, by norm_num⟩]
        rw [BitVec.toNat_add, hq, hinc]
        apply Nat.mod_eq_of_lt
        have := Nat.div_le_self x (2^(s+1))
        have hx := v.isLt
        rw [hv] at hx
        have hp2 : 2 ≤ 2^(s+1) := by
          have : 0 < 2^s := by positivity
          rw [pow_succ]; omega
        have : x / 2^(s+1) ≤ x / 2 := Nat.div_le_div_left hp2 (by norm_num)
        split_ifs <;> omega
      · rw [if_neg h4]
        obtain ⟨hr, hle⟩ := round_norm (e := IEEE.am a / 2^23) (f := IEEE.am a % 2^23) (by omega) (by omega) hf
        rw [← hsplit] at hr
        rw [hr]
        refine fin _ _ ?_ (by omega)
        have hv : (I + 0xC8000000#32).toNat = (IEEE.am a / 2^23 - 112) * 2^23 + IEEE.am a % 2^23 := by
          rw [BitVec.toNat_add, hI, show (0xC8000000#32 : BitVec 32).toNat = 0xC8000000 by decide]; omega
        generalize I + 0xC8000000#32 = v at *
        have hxb : (IEEE.am a / 2^23 - 112) * 2^23 + IEEE.am a % 2^23 < 2^28 := by omega
        obtain ⟨x, hx⟩ : ∃ x, x = (IEEE.am a / 2^23 - 112) * 2^23 + IEEE.am a % 2^23 := ⟨_, rfl⟩
        rw [← hx] at hv hle hxb ⊢
        rw [← code_norm] at hle ⊢
        have hb : (v >>> 13 &&& 1#32).toNat = x / 2^13 % 2 := by
          rw [BitVec.toNat_and, BitVec.toNat_ushiftRight, hv, Nat.shiftRight_eq_div_pow, show (1#32 : BitVec 32).toNat = 2^1 - 1 by decide, Nat.and_two_pow_sub_one_eq_mod]
        rw [BitVec.toNat_and, BitVec.toNat_ushiftRight, BitVec.toNat_add, BitVec.toNat_add, hv, hb, show (0xFFF#32 : BitVec 32).toNat = 0xFFF by decide,
          show (0x7FFF#32 : BitVec 32).toNat = 2^15 - 1 by decide, Nat.and_two_pow_sub_one_eq_mod, Nat.shiftRight_eq_div_pow]
        omega

/-! ### half to float -/

/-- The loop of packed_vector.rs:29-36 ends after at most 11 passes: more fuel changes nothing. -/
theorem halfLoop_stable : ∀ (fuel : ℕ) (e m : BitVec 32) (j : ℕ), 1 ≤ j → j ≤ fuel → (m <<< j) &&& 0x400#32 = 0#32 → halfLoop (fuel + 1) e m = halfLoop fuel e m := by
  intro fuel
  induction fuel with
  | zero => intro e m j h1 h2 _; omega
  | succ n ih =>
    intro e m j h1 h2 h3
    rw [halfLoop.eq_def (n + 1 + 1), halfLoop.eq_def (n + 1)]
    by_cases h : (m <<< 1) &&& 0x400#32 = 0#32
    · simp only [h, if_true]
    · simp only [h, if_false]
      have hj : j ≠ 1 := by rintro rfl; exact h h3
      refine ih (e - 1#32) (m <<< 1) (j - 1) (by omega) (by omega) ?_
      rw [← h3, ← BitVec.shiftLeft_add]
      rw [show 1 + (j - 1) = j by omega]
/-- The fuel used in the model is never used up. -/
theorem XMConvertHalfToFloat_fuel (fuel : ℕ) (e m : BitVec 32) (h : 11 ≤ fuel) : halfLoop fuel e m = halfLoop 11 e m := by
  induction fuel, h using Nat.le_induction with
  | base => rfl
  | succ n hn ih =>
    rw [halfLoop_stable n e m 11 (by norm_num) hn ?_, ih]
    refine BitVec.eq_of_getLsbD_eq fun i hi => ?_
    rw [BitVec.getLsbD_and, BitVec.getLsbD_shiftLeft, BitVec.getLsbD_zero]
    by_cases h11 : i < 11
    · simp [h11]
    · have : (0x400#32 : BitVec 32).getLsbD i = false := by interval_cases i <;> first | rfl | omega
      rw [this, Bool.and_false]


/-! ### the fields of a half, and assembling a float -/

theorem V_toNat (h : BitVec 16) : (h.setWidth 32).toNat = h.toNat := by
  rw [BitVec.toNat_setWidth]; have := h.isLt; omega
theorem and_man (h : BitVec 16) : (h.setWidth 32 &&& 0x03FF#32).toNat = am h % 2^10 := by
  rw [BitVec.toNat_and, V_toNat, show (0x3FF#32 : BitVec 32).toNat = 2^10 - 1 by decide, Nat.and_two_pow_sub_one_eq_mod]
  unfold am; omega
theorem and_exp5 (h : BitVec 16) : ((h.setWidth 32 >>> 10) &&& 0x1F#32).toNat = am h / 2^10 := by
  rw [BitVec.toNat_and, BitVec.toNat_ushiftRight, V_toNat, show (0x1F#32 : BitVec 32).toNat = 2^5 - 1 by decide, Nat.and_two_pow_sub_one_eq_mod, Nat.shiftRight_eq_div_pow]
  unfold am; have := h.isLt; omega
theorem and_exp (h : BitVec 16) : (h.setWidth 32 &&& 0x7C00#32) = ((h.setWidth 32 >>> 10) &&& 0x1F#32) <<< 10 := by
  refine BitVec.eq_of_getLsbD_eq fun i hi => ?_
  rw [BitVec.getLsbD_and, BitVec.getLsbD_shiftLeft, BitVec.getLsbD_and, BitVec.getLsbD_ushiftRight]
  by_cases h10 : i < 10
  · have : (0x7C00#32 : BitVec 32).getLsbD i = false := by interval_cases i <;> rfl
    simp [this, h10]
  · have : (0x7C00#32 : BitVec 32).getLsbD i = (0x1F#32 : BitVec 32).getLsbD (i - 10) := by interval_cases i <;> first | rfl | omega
    rw [this, show 10 + (i - 10) = i by omega]; simp [h10, hi]
theorem and_exp_toNat (h : BitVec 16) : (h.setWidth 32 &&& 0x7C00#32).toNat = am h / 2^10 * 2^10 := by
  rw [and_exp, BitVec.toNat_shiftLeft, and_exp5, Nat.shiftLeft_eq]
  have := am_lt h; omega
theorem sign32 (h : BitVec 16) : (h.setWidth 32 &&& 0x8000#32) <<< 16 = if sg h then 0x80000000#32 else 0#32 := by
  refine BitVec.eq_of_getLsbD_eq fun i hi => ?_
  rw [BitVec.getLsbD_shiftLeft, BitVec.getLsbD_and, BitVec.getLsbD_setWidth]
  by_cases h31 : i = 31
  · subst h31
    have : sg h = h.getLsbD 15 := by unfold sg; rw [BitVec.msb_eq_getLsbD_last]
    rw [this]; cases hb : h.getLsbD 15 <;> simp [hb]
  · have e : (if sg h then 0x80000000#32 else 0#32 : BitVec 32).getLsbD i = false := by
      cases sg h
      · simp
      · show (0x80000000#32 : BitVec 32).getLsbD i = false
        interval_cases i <;> first | rfl | omega
    rw [e]
    by_cases h16 : i < 16
    · simp [h16]
    · have : (0x8000#32 : BitVec 32).getLsbD (i - 16) = false := by interval_cases i <;> first | rfl | omega
      rw [this]; simp

/-- Sign, exponent and fraction put together. -/
theorem asm (h : BitVec 16) (E m : BitVec 32) (hE : E.toNat < 256) (hm : m.toNat < 2^10) :
    ((h.setWidth 32 &&& 0x8000#32) <<< 16) ||| (E <<< 23) ||| (m <<< 13) = IEEE.mk (sg h) (E.toNat * 2^23 + m.toNat * 2^13) := by
  rw [sign32]
  apply BitVec.eq_of_toNat_eq
  have e1 : (E <<< 23).toNat = 2^23 * E.toNat := by rw [BitVec.toNat_shiftLeft, Nat.shiftLeft_eq]; omega
  have e2 : (m <<< 13).toNat = m.toNat * 2^13 := by rw [BitVec.toNat_shiftLeft, Nat.shiftLeft_eq]; omega
  have h1 := Nat.two_pow_add_eq_or_of_lt (i := 23) (b := m.toNat * 2^13) (by omega) E.toNat
  rw [BitVec.or_assoc, BitVec.toNat_or, BitVec.toNat_or, e1, e2, ← h1]
  unfold IEEE.mk
  cases sg h
  · rw [show (if false = true then 0x80000000#32 else 0#32 : BitVec 32).toNat = 0 by decide, Nat.zero_or, BitVec.toNat_ofNat]
    have e0 : (if false = true then 2^31 else 0 : ℕ) = 0 := rfl
    rw [e0]; omega
  · have h2 := Nat.two_pow_add_eq_or_of_lt (i := 31) (b := 2^23 * E.toNat + m.toNat * 2^13) (by omega) 1
    rw [show (if true = true then 0x80000000#32 else 0#32 : BitVec 32).toNat = 2^31 * 1 by decide, ← h2, BitVec.toNat_ofNat]
    have e0 : (if true = true then 2^31 else 0 : ℕ) = 2^31 := rfl
    rw [e0]; omega

/-- The magnitude of a nonzero normal or zero half as a float pattern. -/
theorem magN_half {n : ℕ} (h1 : 2^10 ≤ n) (h2 : n < 0x7C00) : IEEE.magN ((n / 2^10 + 112) * 2^23 + n % 2^10 * 2^13) = magH n * 2^125 := by
  rw [magN_split (by omega) (by omega)]
  unfold magH
  rw [if_neg (by omega), show n / 2^10 + 112 - 1 = (n / 2^10 - 1) + 112 by omega, pow_add]
  rw [show 2^23 + n % 2^10 * 2^13 = (2^10 + n % 2^10) * 2^13 by omega]
  generalize 2^(n / 2^10 - 1) = w
  rw [show (2:ℕ)^125 = 2^13 * 2^112 by norm_num]; ring

theorem sub_table : ∀ n : Fin 1024, n.val ≠ 0 →
    ((halfLoop 32 1#32 (BitVec.ofNat 32 n.val)).1 + 112#32).toNat < 256 ∧
    IEEE.magN (((halfLoop 32 1#32 (BitVec.ofNat 32 n.val)).1 + 112#32).toNat * 2^23 + ((halfLoop 32 1#32 (BitVec.ofNat 32 n.val)).2 &&& 0x03FF#32).toNat * 2^13) ≠ n.val * 2^125 := by
  decide +kernel

/-- The software path by cases. -/
theorem soft_normal (h : BitVec 16) (h1 : 2^10 ≤ am h) (h2 : am h < 0x7C00) :
    halfToFloatSoft h = IEEE.mk (sg h) ((am h / 2^10 + 112) * 2^23 + am h % 2^10 * 2^13) := by
  unfold halfToFloatSoft
  have c1 : ¬ (h.setWidth 32 &&& 0x7C00#32 = 0x7C00#32) := by
    intro hc; have := congrArg BitVec.toNat hc; rw [and_exp_toNat] at this
    have : am h / 2^10 * 2^10 = 0x7C00 := this
    omega
  have c2 : (h.setWidth 32 &&& 0x7C00#32 ≠ 0#32) := by
    intro hc; have := congrArg BitVec.toNat hc; rw [and_exp_toNat] at this
    have : am h / 2^10 * 2^10 = 0 := this
    omega
  simp only [c1, if_false, c2, ne_eq, not_false_eq_true, if_true]
  have e : ((h.setWidth 32 >>> 10 &&& 0x1F#32) + 112#32).toNat = am h / 2^10 + 112 := by
    rw [BitVec.toNat_add, and_exp5]; show (_ + 112) % _ = _; omega
  rw [asm h _ _ (by rw [e]; omega) (by rw [and_man]; omega), e, and_man]
theorem soft_top (h : BitVec 16) (h1 : 0x7C00 ≤ am h) :
    halfToFloatSoft h = IEEE.mk (sg h) (255 * 2^23 + am h % 2^10 * 2^13) := by
  unfold halfToFloatSoft
  have c1 : (h.setWidth 32 &&& 0x7C00#32 = 0x7C00#32) := by
    apply BitVec.eq_of_toNat_eq; rw [and_exp_toNat]; show _ = 0x7C00
    have := am_lt h; omega
  simp only [c1, if_true]
  have e : (0x8f#32 + 112#32).toNat = 255 := by decide
  rw [asm h _ _ (by rw [e]; omega) (by rw [and_man]; omega), e, and_man]
theorem soft_zero (h : BitVec 16) (h1 : am h = 0) : halfToFloatSoft h = IEEE.mk (sg h) 0 := by
  unfold halfToFloatSoft
  have c0 : (h.setWidth 32 &&& 0x7C00#32) = 0#32 := by
    apply BitVec.eq_of_toNat_eq; rw [and_exp_toNat, h1]; rfl
  have c1 : (h.setWidth 32 &&& 0x03FF#32) = 0#32 := by
    apply BitVec.eq_of_toNat_eq; rw [and_man, h1]; rfl
  simp only [c0, c1, ne_eq, not_true, if_false, show ¬ (0#32 = 0x7C00#32) by decide]
  rw [asm h _ _ (by decide) (by decide)]; rfl
theorem soft_sub (h : BitVec 16) (h0 : am h ≠ 0) (h1 : am h < 2^10) :
    ∃ n, n < 2^31 ∧ halfToFloatSoft h = IEEE.mk (sg h) n ∧ IEEE.magN n ≠ magH (am h) * 2^125 := by
  have c0 : (h.setWidth 32 &&& 0x7C00#32) = 0#32 := by
    apply BitVec.eq_of_toNat_eq; rw [and_exp_toNat]; show _ = 0; omega
  have c1 : (h.setWidth 32 &&& 0x03FF#32) = BitVec.ofNat 32 (am h) := by
    apply BitVec.eq_of_toNat_eq; rw [and_man, BitVec.toNat_ofNat]; omega
  have c2 : ¬ BitVec.ofNat 32 (am h) = 0#32 := by
    intro hc; have := congrArg BitVec.toNat hc; rw [BitVec.toNat_ofNat] at this
    have : am h % 2^32 = 0 := this
    omega
  obtain ⟨t1, t2⟩ := sub_table ⟨am h, h1⟩ h0
  have hm : ((halfLoop 32 1#32 (BitVec.ofNat 32 (am h))).2 &&& 0x03FF#32).toNat < 2^10 := by
    rw [BitVec.toNat_and, show (0x3FF#32 : BitVec 32).toNat = 2^10 - 1 by decide, Nat.and_two_pow_sub_one_eq_mod]; omega
  refine ⟨((halfLoop 32 1#32 (BitVec.ofNat 32 (am h))).1 + 112#32).toNat * 2^23 + ((halfLoop 32 1#32 (BitVec.ofNat 32 (am h))).2 &&& 0x03FF#32).toNat * 2^13, ?_, ?_, ?_⟩
  rotate_left
  · unfold halfToFloatSoft
    simp only [c0, c1, c2, ne_eq, not_true, if_false, not_false_eq_true, if_true, show ¬ (0#32 = 0x7C00#32) by decide]
    rw [asm h _ _ t1 hm]
  · unfold magH; rw [if_pos h1]; exact t2
  · clear t2
    simp only at t1
    generalize ((halfLoop 32 1#32 (BitVec.ofNat 32 (am h))).1 + 112#32).toNat = x at *
    generalize ((halfLoop 32 1#32 (BitVec.ofNat 32 (am h))).2 &&& 0x03FF#32).toNat = y at *
    omega

/-- The hardware conversion of a finite half is exact. -/
theorem hard_finite (h : BitVec 16) (h1 : am h < 0x7C00) : ∃ n, n < 0x7F800000 ∧ cvtph_ps h = IEEE.mk (sg h) n ∧ IEEE.magN n = magH (am h) * 2^125 := by
  have hex : ∃ n, n < 0x7F800000 ∧ IEEE.magN n = magH (am h) * 2^125 := by
    by_cases hs : am h < 2^10
    · refine IEEE.exists_mag (k := 125) (by norm_num) (dvd_mul_left _ _) ?_
      unfold magH; rw [if_pos hs, pow_add]
      exact Nat.mul_le_mul_right _ (by omega)
    · exact ⟨_, by omega, magN_half (by omega) h1⟩
  obtain ⟨n, hn, hm⟩ := hex
  refine ⟨n, hn, ?_, hm⟩
  have e : h.toNat % 2^15 = am h := rfl
  unfold cvtph_ps
  simp only [e, show ¬ 0x7C00 < am h by omega, show ¬ am h = 0x7C00 by omega, if_false]
  rw [← hm, IEEE.roundN_magN (by omega)]; rfl

end DXM.Half
