import Verif.Lemmas.Integral
import Verif.Model.Convert

/-
Conversions between integers and floats: scaling by powers of two, saturating truncation.
-/

set_option linter.all false

namespace DXM.IEEE
open DXM.Spec
variable (P : Env)

/-- The pattern of 2^(e-127). -/
theorem value_pow2 {e : ℕ} (h1 : 1 ≤ e) (h2 : e ≤ 254) : IsFinite (mk false (e * 2^23)) ∧ value (mk false (e * 2^23)) = (2:ℝ)^((e:ℤ) - 127) ∧
    mag (mk false (e * 2^23)) = 2^(22 + e) ∧ am (mk false (e * 2^23)) = e * 2^23 := by
  have hlt : e * 2^23 < 2^31 := by omega
  have ha := am_mk false _ hlt
  have hm : magN (e * 2^23) = 2^(22+e) := by
    have := magN_pow (e - 1)
    rw [show (e-1) * 2^23 + 2^23 = e * 2^23 by omega, show 23 + (e - 1) = 22 + e by omega] at this; exact this
  refine ⟨?_, ?_, ?_, ha⟩
  · rw [finite_iff, ha]; omega
  · rw [value_mk _ _ hlt, hm]
    simp only [Bool.false_eq_true, if_false, one_mul]
    push_cast
    rw [← zpow_natCast, ← zpow_add₀ (by norm_num)]; congr 1; push_cast; ring
  · unfold mag; rw [ha, hm]

theorem scaleBits_eq {k : ℕ} (h : k < 32) : scaleBits k = mk false ((127 - k) * 2^23) := by
  interval_cases k <;> decide
theorem ofU_shl {k : ℕ} (h : k < 32) : ofU32 (shl1 k) = mk false ((127 + k) * 2^23) := by
  interval_cases k <;> decide +kernel

theorem div_shl {k : ℕ} (h : k < 32) : div P 0x3F800000#32 (ofU32 (shl1 k)) = scaleBits k := by
  have a1 : isNaN 0x3F800000#32 = false := by decide
  have a2 : isInf 0x3F800000#32 = false := by decide
  have a3 : sg 0x3F800000#32 = false := by decide
  have a4 : mag 0x3F800000#32 = 2^149 := by decide +kernel
  obtain ⟨f, _, m, am'⟩ := value_pow2 (e := 127 + k) (by omega) (by omega)
  rw [ofU_shl h, scaleBits_eq h]
  have b1 := isNaN_f (not_nan_of_finite f)
  have b2 := isInf_f (not_inf_of_finite f)
  have b3 : sg (mk false ((127 + k) * 2^23)) = false := sg_mk _ _ (by omega)
  unfold div
  rw [a1, a2, a3, a4, b1, b2, b3, m]
  have hne : (2:ℕ)^(22 + (127 + k)) ≠ 0 := by positivity
  simp only [Bool.or_false, Bool.false_eq_true, if_false, hne, bne_self_eq_false]
  congr 1
  rw [show 2^149 * 2^149 = 2^(149 - k) * 2^(22 + (127 + k)) by rw [← pow_add, ← pow_add]; congr 1; omega]
  have hm : magN ((127 - k) * 2^23) = 2^(149 - k) := by
    have := (value_pow2 (e := 127 - k) (by omega) (by omega)).2.2.1
    unfold mag at this; rw [am_mk _ _ (by omega)] at this; rw [this]; congr 1; omega
  rw [← hm, roundN_min, roundU_exact _ _ (by positivity)]
  apply min_eq_right; omega

/-- Multiplying by 2^-k lowers the exponent field by k when the result is normal. -/
theorem mul_scale {k : ℕ} (hk : k < 32) {r : BitVec 32} (hf : IsFinite r) (h : am r = 0 ∨ (k + 1) * 2^23 ≤ am r) :
    mul P r (scaleBits k) = mk (sg r) (am r - k * 2^23) := by
  obtain ⟨f, _, m, am'⟩ := value_pow2 (e := 127 - k) (by omega) (by omega)
  rw [scaleBits_eq hk]
  have b1 := isNaN_f (not_nan_of_finite f)
  have b2 := isInf_f (not_inf_of_finite f)
  have b3 : sg (mk false ((127 - k) * 2^23)) = false := sg_mk _ _ (by omega)
  unfold mul
  rw [isNaN_f (not_nan_of_finite hf), isInf_f (not_inf_of_finite hf), b1, b2, b3, m]
  simp only [Bool.or_false, Bool.false_eq_true, if_false, Bool.bne_false]
  congr 1
  have hlt := (finite_iff r).1 hf
  rcases h with h | h
  · have : mag r = 0 := by unfold mag; rw [h]; rfl
    rw [this, zero_mul, roundN_zero _ (by positivity), h]; omega
  · have e : mag r = magN (am r - k * 2^23) * 2^k := by
      obtain ⟨n, hn⟩ : ∃ n, am r = n + k * 2^23 := ⟨am r - k * 2^23, by omega⟩
      have hn2 : 2^23 ≤ n := by omega
      unfold mag; rw [hn, Nat.add_sub_cancel]
      unfold magN
      rw [if_neg (by omega), if_neg (by omega), mul_assoc, ← pow_add]
      congr 2 <;> omega
    rw [e, mul_assoc, ← pow_add, show k + (22 + (127 - k)) = 149 by omega, roundN_min, roundU_exact _ _ (by positivity)]
    apply min_eq_right; omega

theorem value_scale {k : ℕ} {r : BitVec 32} (hf : IsFinite r) (h : am r = 0 ∨ (k + 1) * 2^23 ≤ am r) :
    IsFinite (mk (sg r) (am r - k * 2^23)) ∧ value (mk (sg r) (am r - k * 2^23)) = value r / 2^k ∧
    fracField (mk (sg r) (am r - k * 2^23)) % 2 = fracField r % 2 := by
  have hlt := (finite_iff r).1 hf
  have ha := am_mk (sg r) (am r - k * 2^23) (by omega)
  refine ⟨by rw [finite_iff, ha]; omega, ?_, by rw [even_iff, even_iff, ha]; omega⟩
  rw [value_mk _ _ (by omega), value_sign r]
  rcases h with h | h
  · unfold mag; rw [h, Nat.zero_sub, magN_zero]; simp
  · have e : mag r = magN (am r - k * 2^23) * 2^k := by
      obtain ⟨n, hn⟩ : ∃ n, am r = n + k * 2^23 := ⟨am r - k * 2^23, by omega⟩
      have hn2 : 2^23 ≤ n := by omega
      unfold mag; rw [hn, Nat.add_sub_cancel]
      unfold magN
      rw [if_neg (by omega), if_neg (by omega), mul_assoc, ← pow_add]
      congr 2 <;> omega
    rw [e]; push_cast; field_simp

/-- A finite number of moderate size times 2^k is a number of the format. -/
theorem rep_scale {k : ℕ} (hk : k < 32) {y : BitVec 32} (h : am y ≤ 220 * 2^23) : Rep (value y * 2^k) := by
  have hz : ∃ j, j ≤ 220 ∧ 2^j ∣ mag y ∧ mag y ≤ 2^(24 + j) := by
    unfold mag magN
    by_cases h2 : am y < 2^23
    · exact ⟨0, by omega, by simp, by rw [if_pos h2]; omega⟩
    · refine ⟨am y / 2^23 - 1, by omega, by rw [if_neg h2]; exact Dvd.intro_left _ rfl, ?_⟩
      rw [if_neg h2, pow_add]; apply Nat.mul_le_mul_right; omega
  obtain ⟨j, hj, hd, hl⟩ := hz
  have := rep_of (ival y * 2^k) (j + k) (by omega) (by
    rw [pow_add]; apply mul_dvd_mul_right
    unfold ival; split_ifs
    · rw [dvd_neg]; exact_mod_cast hd
    · exact_mod_cast hd) (by
    rw [Int.natAbs_mul, show ((2:ℤ)^k).natAbs = 2^k by rw [Int.natAbs_pow]; rfl, ← add_assoc, pow_add]
    apply Nat.mul_le_mul_right
    unfold ival; split_ifs <;> simpa using hl)
  rw [value_eq]; push_cast at this ⊢
  convert this using 1; ring

theorem value_big {y : BitVec 32} (hf : IsFinite y) (h : ¬ am y ≤ 220 * 2^23) : 2^90 ≤ |value y| := by
  have h1 : magN (220 * 2^23) ≤ mag y := by unfold mag; exact magN_strictMono.monotone (by omega)
  have e : magN (220 * 2^23) = 2^242 := by
    have := (value_pow2 (e := 220) (by omega) (by omega)).2.2.1
    unfold mag at this; rw [am_mk _ _ (by omega)] at this; rw [this]
  rw [value_abs]
  rw [e] at h1
  have h2 : ((2:ℝ)^242) ≤ mag y := by exact_mod_cast h1
  calc (2:ℝ)^90 ≤ 2^93 := by norm_num
    _ = 2^242 * 2^(-149:ℤ) := by rw [← zpow_natCast, ← zpow_natCast, ← zpow_add₀ (by norm_num)]; norm_num
    _ ≤ _ := mul_le_mul_of_nonneg_right h2 u149.le

/-- Scaling a rounded number by 2^-k rounds the scaled number. -/
theorem rounds_scale {k : ℕ} (hk : k < 32) {x : ℝ} {r : BitVec 32} (hr : Rounds x r) (hx : |x| ≤ 2^33) (h : am r = 0 ∨ (k + 1) * 2^23 ≤ am r) :
    Rounds (x / 2^k) (mk (sg r) (am r - k * 2^23)) := by
  have hov : (2:ℝ)^34 < overflow := by unfold overflow; norm_num
  have hxo : |x| < overflow := by linarith [show (2:ℝ)^33 ≤ 2^34 by norm_num]
  have hf := hr.finite hxo
  obtain ⟨f', v', e'⟩ := value_scale hf h
  have hp : (0:ℝ) < 2^k := by positivity
  have hp1 : (1:ℝ) ≤ 2^k := one_le_pow₀ (by norm_num)
  have hxs : |x / 2^k| ≤ 2^33 := by
    rw [abs_div, abs_of_pos hp]; exact (div_le_self (abs_nonneg _) hp1).trans hx
  have hr0 : |value r - x| ≤ |x| := by
    have := hr.nearest hxo 0#32 (by decide)
    rwa [show value 0#32 = 0 by rw [value_eq]; simp [ival, mag, magN, am, sg], zero_sub, abs_neg] at this
  have hd : ∀ z : ℝ, |z - x| = 2^k * |z / 2^k - x / 2^k| := by
    intro z; rw [← abs_of_pos hp, ← abs_mul, abs_of_pos hp]; congr 1; field_simp
  have hbig : ∀ y, IsFinite y → ¬ am y ≤ 220 * 2^23 → |value r / 2^k - x / 2^k| < |value y - x / 2^k| := by
    intro y hy hb
    have h1 := value_big hy hb
    have h2 : |value y| - |x / 2^k| ≤ |value y - x / 2^k| := abs_sub_abs_le_abs_sub _ _
    have h3 : |value r / 2^k - x / 2^k| ≤ |x| := by
      have := hd (value r)
      have h4 : |value r / 2^k - x / 2^k| ≤ 2^k * |value r / 2^k - x / 2^k| := le_mul_of_one_le_left (abs_nonneg _) hp1
      linarith
    have : (2:ℝ)^33 + 2^33 < 2^90 := by norm_num
    linarith
  refine ⟨fun _ => f', fun _ y hy => ?_, fun _ y hy hne heq => ?_, fun ht => ?_, fun hb => ?_⟩
  · rw [v']
    by_cases hb : am y ≤ 220 * 2^23
    · obtain ⟨z, hz, hzv⟩ := rep_scale hk hb
      have := hr.nearest hxo z hz
      rw [hd, hd (value z), hzv, mul_div_cancel_right₀ _ hp.ne'] at this
      exact le_of_mul_le_mul_left this hp
    · exact (hbig y hy hb).le
  · rw [e']
    rw [v'] at hne heq
    by_cases hb : am y ≤ 220 * 2^23
    · obtain ⟨z, hz, hzv⟩ := rep_scale hk hb
      refine hr.even hxo z hz ?_ ?_
      · rw [hzv]; intro he; apply hne; rw [← he]; field_simp
      · rw [hd, hd (value r), hzv, mul_div_cancel_right₀ _ hp.ne', heq]
    · exact absurd heq (hbig y hy hb).ne'
  · exfalso; have := le_abs_self (x / 2^k); linarith [show (2:ℝ)^33 ≤ 2^34 by norm_num]
  · exfalso; have := neg_abs_le (x / 2^k); linarith [show (2:ℝ)^33 ≤ 2^34 by norm_num]

theorem ofI32_rounds (b : BitVec 32) : Rounds (b.toInt : ℝ) (ofI32 b) := by
  have := rounds_int false (b.toInt * 2^149) 1 (by norm_num)
  push_cast at this
  rwa [div_one, mul_assoc, two149', mul_one] at this
theorem ofU32_rounds (b : BitVec 32) : Rounds (b.toNat : ℝ) (ofU32 b) := by
  have := rounds_div false (b.toNat * 2^149) 1 (by norm_num)
  simp only [Bool.false_eq_true, if_false, one_mul] at this
  push_cast at this
  rwa [div_one, mul_assoc, two149', mul_one] at this

/-- A rounded integer is zero or at least 1 in magnitude. -/
theorem int_rounded {n : ℤ} (hn : n.natAbs < 2^33) {r : BitVec 32} (hr : Rounds (n:ℝ) r) {k : ℕ} (hk : k < 32) : am r = 0 ∨ (k + 1) * 2^23 ≤ am r := by
  have hov : (2:ℝ)^34 < overflow := by unfold overflow; norm_num
  have hx : |(n:ℝ)| < 2^33 := by
    rw [← Int.cast_abs, Int.abs_eq_natAbs]; exact_mod_cast hn
  have hxo : |(n:ℝ)| < overflow := by linarith [show (2:ℝ)^33 ≤ 2^34 by norm_num]
  by_cases h0 : n = 0
  · left
    have := (exact_of hr (rep_int n (by rw [h0]; norm_num))).2
    rw [h0, Int.cast_zero] at this
    exact magN_eq_zero.1 (value_zero_iff.1 this)
  · right
    have h1 : 1 ≤ |value r| := by
      have hf := hr.finite hxo
      have g1 := hr.nearest hxo 0x3F800000#32 (by decide)
      have g2 := hr.nearest hxo (neg 0x3F800000#32) (by decide)
      rw [neg_value] at g2
      rw [value_one] at g1 g2
      rcases lt_or_gt_of_ne h0 with h | h
      · have : (n:ℝ) ≤ -1 := by exact_mod_cast (by omega : n ≤ -1)
        rw [abs_of_nonneg (by linarith : (0:ℝ) ≤ -1 - n)] at g2
        have := (abs_le.1 g2).2
        rw [le_abs]; right; linarith
      · have : (1:ℝ) ≤ n := by exact_mod_cast (by omega : 1 ≤ n)
        rw [abs_of_nonpos (by linarith : (1:ℝ) - n ≤ 0)] at g1
        have := (abs_le.1 g1).1
        rw [le_abs]; left; linarith
    rw [value_abs] at h1
    by_contra hc
    have hc : am r < 0x3F800000 := by omega
    have h2 := magN_strictMono hc
    have h3 : magN 0x3F800000 = 2^149 := by decide +kernel
    rw [h3] at h2
    have h4 : (mag r : ℝ) < 2^149 := by exact_mod_cast h2
    have h5 : (mag r : ℝ) * 2^(-149:ℤ) < 2^149 * 2^(-149:ℤ) := mul_lt_mul_of_pos_right h4 u149
    rw [two149] at h5
    linarith

/-- convert, then scale by 2^-k: the correctly rounded quotient. -/
theorem int_scaled {n : ℤ} (hn : n.natAbs < 2^33) {r : BitVec 32} (hr : Rounds (n:ℝ) r) {k : ℕ} (hk : k < 32) :
    Rounds ((n:ℝ) / 2^k) (mul P r (scaleBits k)) := by
  have hx : |(n:ℝ)| ≤ 2^33 := by
    rw [← Int.cast_abs, Int.abs_eq_natAbs]; exact_mod_cast hn.le
  have hf := hr.finite (hx.trans_lt (by unfold overflow; norm_num))
  have h := int_rounded hn hr hk
  rw [mul_scale P hk hf h]
  exact rounds_scale hk hr hx h

/-! ### Saturating truncation -/

/-- Truncation toward zero, saturating at the ends of [lo, hi]. -/
noncomputable def satZ (lo hi : ℤ) (b : BitVec 32) : ℤ := if IsInf b then (if sg b then lo else hi) else max lo (min hi (truncZ (value b)))

theorem key_eq (b : BitVec 32) : key b = if sg b then -(am b : ℤ) else am b := rfl

theorem truncZ_le {x : ℝ} {n : ℤ} : x < n + 1 → 0 ≤ n → truncZ x ≤ n := by
  intro h hn; unfold truncZ
  split_ifs with h0
  · exact Int.lt_add_one_iff.1 (Int.floor_lt.2 (by push_cast; exact h))
  · push Not at h0; refine (Int.ceil_le.2 ?_).trans hn; exact_mod_cast h0.le
theorem le_truncZ {x : ℝ} {n : ℤ} : (n:ℝ) ≤ x → 0 ≤ n → n ≤ truncZ x := by
  intro h hn; unfold truncZ
  have : (0:ℝ) ≤ n := by exact_mod_cast hn
  rw [if_pos (this.trans h)]; exact Int.le_floor.2 h
theorem truncZ_neg_le {x : ℝ} {n : ℤ} : x ≤ n → n ≤ 0 → truncZ x ≤ n := by
  intro h hn; unfold truncZ
  have : (n:ℝ) ≤ 0 := by exact_mod_cast hn
  split_ifs with h0
  · have : x = 0 := le_antisymm (by linarith) h0
    subst this
    have : n = 0 := le_antisymm hn (by exact_mod_cast h)
    rw [this]; simp
  · exact Int.ceil_le.2 h
theorem le_truncZ_neg {x : ℝ} {n : ℤ} : (n:ℝ) - 1 < x → n ≤ 0 → n ≤ truncZ x := by
  intro h hn; unfold truncZ
  split_ifs with h0
  · exact hn.trans (Int.floor_nonneg.2 h0)
  · exact Int.sub_one_lt_iff.1 (Int.lt_ceil.2 (by push_cast; exact h))

/-- Comparison with a positive constant pattern. -/
theorem lt_const (c : ℕ) (hc : c < 0x7F800000) (r : BitVec 32) (hr : ¬ IsNaN r) : lt (mk false c) r = true ↔ sg r = false ∧ c < am r := by
  have f : IsFinite (mk false c) := by rw [finite_iff, am_mk _ _ (by omega)]; exact hc
  unfold lt
  rw [isNaN_f hr, isNaN_f (not_nan_of_finite f), key_eq, key_eq, sg_mk _ _ (by omega), am_mk _ _ (by omega)]
  cases sg r <;> simp <;> omega
theorem le_const (c : ℕ) (hc : c < 0x7F800000) (r : BitVec 32) (hr : ¬ IsNaN r) : le (mk false c) r = true ↔ (sg r = false ∧ c ≤ am r) ∨ (c = 0 ∧ am r = 0) := by
  have f : IsFinite (mk false c) := by rw [finite_iff, am_mk _ _ (by omega)]; exact hc
  unfold le
  rw [isNaN_f hr, isNaN_f (not_nan_of_finite f), key_eq, key_eq, sg_mk _ _ (by omega), am_mk _ _ (by omega)]
  cases sg r <;> simp <;> omega
theorem le_neg_const (c : ℕ) (h0 : 0 < c) (hc : c < 0x7F800000) (r : BitVec 32) (hr : ¬ IsNaN r) : le r (mk true c) = true ↔ sg r = true ∧ c ≤ am r := by
  have f : IsFinite (mk true c) := by rw [finite_iff, am_mk _ _ (by omega)]; exact hc
  unfold le
  rw [isNaN_f hr, isNaN_f (not_nan_of_finite f), key_eq, key_eq, sg_mk _ _ (by omega), am_mk _ _ (by omega)]
  cases sg r <;> simp <;> omega

theorem mag_lt {a : BitVec 32} {c : ℕ} (h : am a < c) : mag a < magN c := magN_strictMono h
theorem mag_ge {a : BitVec 32} {c : ℕ} (h : c ≤ am a) : magN c ≤ mag a := magN_strictMono.monotone h
theorem magN_2_31 : magN 0x4F000000 = 2^31 * 2^149 := by decide +kernel
theorem magN_2_32 : magN 0x4F800000 = 2^32 * 2^149 := by decide +kernel

theorem div_lt31 {a : BitVec 32} (h : am a < 0x4F000000) : mag a / 2^149 < 2^31 := by
  have := mag_lt h; rw [magN_2_31] at this; exact Nat.div_lt_of_lt_mul (by rwa [Nat.mul_comm] at this)
theorem div_ge31 {a : BitVec 32} (h : 0x4F000000 ≤ am a) : 2^31 ≤ mag a / 2^149 := by
  have := mag_ge h; rw [magN_2_31] at this; exact (Nat.le_div_iff_mul_le (by positivity)).2 this
theorem div_lt32 {a : BitVec 32} (h : am a < 0x4F800000) : mag a / 2^149 < 2^32 := by
  have := mag_lt h; rw [magN_2_32] at this; exact Nat.div_lt_of_lt_mul (by rwa [Nat.mul_comm] at this)
theorem div_ge32 {a : BitVec 32} (h : 0x4F800000 ≤ am a) : 2^32 ≤ mag a / 2^149 := by
  have := mag_ge h; rw [magN_2_32] at this; exact (Nat.le_div_iff_mul_le (by positivity)).2 this

theorem isInf_am' (b : BitVec 32) : IsInf b ↔ am b = 0x7F800000 := by rw [← isInf_iff]; unfold isInf; simp

/-- SSE: cvttps with positive overflow patched. -/
theorem sse_toInt (r : BitVec 32) (hr : ¬ IsNaN r) :
    (if lt 0x4EFFFFFF#32 r then 0x7FFFFFFF#32 else cvtt r).toInt = satZ (-2^31) (2^31 - 1) r := by
  have e : (0x4EFFFFFF#32 : BitVec 32) = mk false 0x4EFFFFFF := by decide
  unfold satZ
  simp only [e, lt_const 0x4EFFFFFF (by norm_num) r hr, isInf_am']
  have hn : isNaN r = false := isNaN_f hr
  have ham : am r ≤ 0x7F800000 := by unfold isNaN at hn; simpa using hn
  by_cases hi : am r = 0x7F800000
  · have hi' : isInf r = true := by unfold isInf; simpa using hi
    cases hs : sg r
    · rw [if_pos ⟨rfl, by omega⟩, if_pos hi]; decide
    · rw [if_neg (by simp), if_pos hi]
      unfold cvtt; simp only [hn, hi', Bool.or_true, if_true]; decide
  · have hi' : isInf r = false := by unfold isInf; simpa using hi
    rw [if_neg hi, truncZ_value]
    cases hs : sg r
    · by_cases hc : 0x4EFFFFFF < am r
      · rw [if_pos ⟨rfl, hc⟩]
        have := div_ge31 (a := r) (by omega)
        simp only [Bool.false_eq_true, if_false]
        generalize mag r / 2^149 = q at *
        rw [show (0x7FFFFFFF#32).toInt = 2147483647 by decide]; omega
      · rw [if_neg (by simp [hc])]
        have := div_lt31 (a := r) (by omega)
        unfold cvtt
        simp only [hn, hi', hs, Bool.or_false, Bool.false_eq_true, if_false]
        generalize mag r / 2^149 = q at *
        rw [if_pos this, toInt_ofNat _ this]; omega
    · rw [if_neg (by simp)]
      unfold cvtt
      simp only [hn, hi', hs, Bool.or_false, Bool.false_eq_true, if_false, if_true]
      generalize mag r / 2^149 = q at *
      split_ifs with hq
      · rw [toInt_neg _ hq]; omega
      · rw [show (0x80000000#32).toInt = -2147483648 by decide]; omega

/-- No intrinsics: explicit bounds, then a Rust cast. -/
theorem noi_toInt (r : BitVec 32) (hr : ¬ IsNaN r) :
    (if le r 0xCF000000#32 then 0x80000000#32 else if lt 0x4EFFFFFF#32 r then 0x7FFFFFFF#32 else castI32 r).toInt = satZ (-2^31) (2^31 - 1) r := by
  have e : (0x4EFFFFFF#32 : BitVec 32) = mk false 0x4EFFFFFF := by decide
  have e' : (0xCF000000#32 : BitVec 32) = mk true 0x4F000000 := by decide
  unfold satZ
  simp only [e, e', lt_const 0x4EFFFFFF (by norm_num) r hr, le_neg_const 0x4F000000 (by norm_num) (by norm_num) r hr, isInf_am']
  have hn : isNaN r = false := isNaN_f hr
  have ham : am r ≤ 0x7F800000 := by unfold isNaN at hn; simpa using hn
  by_cases hi : am r = 0x7F800000
  · cases hs : sg r
    · rw [if_neg (by simp), if_pos ⟨rfl, by omega⟩, if_pos hi]; decide
    · rw [if_pos ⟨rfl, by omega⟩, if_pos hi]; decide
  · rw [if_neg hi, truncZ_value]
    cases hs : sg r
    · rw [if_neg (by simp)]
      by_cases hc : 0x4EFFFFFF < am r
      · rw [if_pos ⟨rfl, hc⟩]
        have := div_ge31 (a := r) (by omega)
        simp only [Bool.false_eq_true, if_false]
        generalize mag r / 2^149 = q at *
        rw [show (0x7FFFFFFF#32).toInt = 2147483647 by decide]; omega
      · rw [if_neg (by simp [hc])]
        have := div_lt31 (a := r) (by omega)
        unfold castI32
        simp only [hn, hs, Bool.false_eq_true, if_false]
        generalize mag r / 2^149 = q at *
        rw [if_pos this, toInt_ofNat _ this]; omega
    · by_cases hc : 0x4F000000 ≤ am r
      · rw [if_pos ⟨rfl, hc⟩]
        have := div_ge31 (a := r) (by omega)
        simp only [if_true]
        generalize mag r / 2^149 = q at *
        rw [show (0x80000000#32).toInt = -2147483648 by decide]; omega
      · rw [if_neg (by simp [hc]), if_neg (by simp)]
        have := div_lt31 (a := r) (by omega)
        unfold castI32
        simp only [hn, hs, Bool.false_eq_true, if_false, if_true]
        generalize mag r / 2^149 = q at *
        rw [if_pos this.le, toInt_neg _ this.le]; omega

theorem noi_toUInt (r : BitVec 32) (hr : ¬ IsNaN r) :
    ((if le r 0#32 then 0#32 else if le 0x4F800000#32 r then 0xFFFFFFFF#32 else castU32 r).toNat : ℤ) = satZ 0 (2^32 - 1) r := by
  have e : (0x4F800000#32 : BitVec 32) = mk false 0x4F800000 := by decide
  have e' : le r 0#32 = true ↔ sg r = true ∨ am r = 0 := by
    unfold le
    rw [isNaN_f hr, show isNaN 0#32 = false by decide, key_eq, key_eq, show sg 0#32 = false by decide, show am 0#32 = 0 by decide]
    cases sg r <;> simp <;> omega
  unfold satZ
  simp only [e, e', le_const 0x4F800000 (by norm_num) r hr, isInf_am']
  have hn : isNaN r = false := isNaN_f hr
  have ham : am r ≤ 0x7F800000 := by unfold isNaN at hn; simpa using hn
  by_cases hi : am r = 0x7F800000
  · cases hs : sg r
    · rw [if_neg (by simp [hi]), if_pos (Or.inl ⟨rfl, by omega⟩), if_pos hi]; decide
    · rw [if_pos (Or.inl rfl), if_pos hi]; decide
  · rw [if_neg hi, truncZ_value]
    cases hs : sg r
    · by_cases hz : am r = 0
      · rw [if_pos (Or.inr hz)]
        have : mag r = 0 := by unfold mag; rw [hz]; rfl
        rw [this]; simp
      · rw [if_neg (by simp [hz])]
        by_cases hc : 0x4F800000 ≤ am r
        · rw [if_pos (Or.inl ⟨rfl, hc⟩)]
          have := div_ge32 (a := r) (by omega)
          simp only [Bool.false_eq_true, if_false]
          generalize mag r / 2^149 = q at *
          rw [show (0xFFFFFFFF#32).toNat = 4294967295 by decide]; omega
        · rw [if_neg (by simp [hc])]
          have := div_lt32 (a := r) (by omega)
          unfold castU32
          simp only [hn, hs, Bool.false_eq_true, if_false]
          generalize mag r / 2^149 = q at *
          rw [if_pos this, BitVec.toNat_ofNat, Nat.mod_eq_of_lt this]; omega
    · rw [if_pos (Or.inl rfl)]
      simp only [if_true]
      generalize mag r / 2^149 = q at *
      simp

/-- SSE: clamp at zero, move numbers from 2^31 on down by 2^31, truncate, flip the top bit back. -/
theorem sse_toUInt (r : BitVec 32) (hr : ¬ IsNaN r) :
    let r1 := if lt 0#32 r then r else 0#32
    let big := le 0x4F000000#32 r1
    let r2 := sub P r1 (if big then 0x4F000000#32 else 0#32)
    ((if lt 0x4F7FFFFF#32 r1 then 0xFFFFFFFF#32 else cvtt r2 ^^^ (if big then 0x80000000#32 else 0#32)).toNat : ℤ) = satZ 0 (2^32 - 1) r := by
  intro r1 big r2
  have e : (0x4F7FFFFF#32 : BitVec 32) = mk false 0x4F7FFFFF := by decide
  have e1 : (0x4F000000#32 : BitVec 32) = mk false 0x4F000000 := by decide
  have e0 : (0#32 : BitVec 32) = mk false 0 := by decide
  have hn : isNaN r = false := isNaN_f hr
  have ham : am r ≤ 0x7F800000 := by unfold isNaN at hn; simpa using hn
  have hpos : lt 0#32 r = true ↔ sg r = false ∧ 0 < am r := by rw [e0]; exact lt_const 0 (by norm_num) r hr
  by_cases hp : sg r = false ∧ 0 < am r
  · have hr1 : r1 = r := if_pos (hpos.2 hp)
    obtain ⟨hs, h0⟩ := hp
    have hb : big = decide (0x4F000000 ≤ am r) := by
      show le 0x4F000000#32 r1 = _
      rw [hr1, Bool.eq_iff_iff, e1, le_const _ (by norm_num) r hr, decide_eq_true_eq]
      constructor
      · rintro (h | h)
        · exact h.2
        · omega
      · intro h; exact Or.inl ⟨hs, h⟩
    have ho : (lt 0x4F7FFFFF#32 r1 = true) ↔ 0x4F7FFFFF < am r := by
      rw [hr1, e, lt_const _ (by norm_num) r hr]; simp [hs]
    simp only [ho]
    unfold satZ
    simp only [isInf_am']
    by_cases hc : 0x4F7FFFFF < am r
    · rw [if_pos hc]
      split_ifs with hi hs'
      · simp [hs] at hs'
      · decide
      · rw [truncZ_value, hs]
        have := div_ge32 (a := r) (by omega)
        simp only [Bool.false_eq_true, if_false]
        generalize mag r / 2^149 = q at *
        rw [show (0xFFFFFFFF#32).toNat = 4294967295 by decide]; omega
    · have hni : ¬ am r = 0x7F800000 := by omega
      rw [if_neg hc, if_neg hni]
      have hfin : IsFinite r := by rw [finite_iff]; omega
      by_cases hbig : 0x4F000000 ≤ am r
      · have hb' : big = true := by rw [hb]; simpa using hbig
        have hr2 : r2 = sub P r 0x4F000000#32 := by show sub P r1 _ = _; rw [hr1, if_pos hb']
        rw [if_pos hb', hr2]
        have fb : IsFinite 0x4F000000#32 := by decide
        have vb : value 0x4F000000#32 = 2^31 := by
          have := (value_pow2 (e := 158) (by norm_num) (by norm_num)).2.1
          rw [show mk false (158 * 2^23) = 0x4F000000#32 by decide] at this; rw [this]; norm_num
        -- r = 256 * j with 2^23 ≤ j < 2^24
        have h157 : (182687704666362864775460604089535377456991567872:ℝ) * 2^(-149:ℤ) = 256 := by
          rw [show (182687704666362864775460604089535377456991567872:ℝ) = 2^149 * 256 by norm_num, mul_right_comm, two149, one_mul]
        obtain ⟨j, hj1, hj2, hmag⟩ : ∃ j, 2^23 ≤ j ∧ j < 2^24 ∧ mag r = j * 2^157 := by
          refine ⟨2^23 + am r % 2^23, by omega, by omega, ?_⟩
          unfold mag magN
          rw [if_neg (by omega), show am r / 2^23 - 1 = 157 by omega]
        have hv : value r = j * 256 := by
          rw [value_sign, hs, hmag]; simp only [Bool.false_eq_true, if_false, one_mul]
          push_cast
          rw [mul_assoc, h157]
        have hrep : Rep (value r - value 0x4F000000#32) := by
          have := rep_of (((j:ℤ) - 2^23) * 2^157) 157 (by norm_num) (Dvd.intro_left _ rfl) (by
            rw [Int.natAbs_mul, Int.natAbs_pow, pow_add]
            have : ((j:ℤ) - 2^23).natAbs ≤ 2^24 := by omega
            exact Nat.mul_le_mul_right _ this)
          convert this using 1
          rw [hv, vb]; push_cast
          rw [mul_assoc, h157]; ring
        obtain ⟨f2, v2⟩ := exact_of (sub_rounds P hfin fb) hrep
        rw [vb, hv] at v2
        have ht : truncZ (value (sub P r 0x4F000000#32)) = (j:ℤ) * 256 - 2^31 := by
          rw [v2, show ((j:ℝ) * 256 - 2^31) = (((j:ℤ) * 256 - 2^31 : ℤ) : ℝ) by push_cast; ring, truncZ_int]
        have ht' : truncZ (value r) = (j:ℤ) * 256 := by
          rw [hv, show ((j:ℝ) * 256) = (((j:ℤ) * 256 : ℤ) : ℝ) by push_cast; ring, truncZ_int]
        rw [ht']
        generalize hw : sub P r 0x4F000000#32 = w at *
        have hwn : isNaN w = false := isNaN_f (not_nan_of_finite f2)
        have hwi : isInf w = false := isInf_f (not_inf_of_finite f2)
        have hcv : cvtt w = BitVec.ofNat 32 (j * 256 - 2^31) := by
          rw [truncZ_value] at ht
          unfold cvtt
          rw [hwn, hwi]
          simp only [Bool.or_false, Bool.false_eq_true, if_false]
          generalize mag w / 2^149 = q at *
          cases hsw : sg w
          · simp only [hsw, Bool.false_eq_true, if_false] at ht ⊢
            have h1 : q = j * 256 - 2^31 := by omega
            have h2 : j * 256 - 2^31 < 2^31 := by omega
            rw [h1, if_pos h2]
          · simp only [hsw, if_true] at ht ⊢
            have h1 : q = 0 := by omega
            have h2 : j * 256 - 2^31 = 0 := by omega
            rw [h1, h2]; decide
        rw [hcv]
        have hx : (BitVec.ofNat 32 (j * 256 - 2^31) ^^^ 0x80000000#32).toNat = j * 256 := by
          have h3 : BitVec.ofNat 32 (j * 256 - 2^31) ^^^ 0x80000000#32 = BitVec.ofNat 32 (j * 256 - 2^31) + 0x80000000#32 := by
            have h4 : (BitVec.ofNat 32 (j * 256 - 2^31)) &&& 0x80000000#32 = 0#32 := by
              rw [and_sign]
              have : sg (BitVec.ofNat 32 (j * 256 - 2^31)) = false := by
                rw [Bool.eq_false_iff, Ne, sg_iff, BitVec.toNat_ofNat, Nat.mod_eq_of_lt (by omega)]; omega
              rw [this]; rfl
            rw [BitVec.add_eq_or_of_and_eq_zero _ _ h4]
            refine BitVec.eq_of_getLsbD_eq fun i hi => ?_
            have := congrArg (fun b => b.getLsbD i) h4
            simp only [BitVec.getLsbD_and, BitVec.getLsbD_zero] at this
            rw [BitVec.getLsbD_xor, BitVec.getLsbD_or]
            revert this
            cases (BitVec.ofNat 32 (j * 256 - 2^31)).getLsbD i <;> cases (0x80000000#32).getLsbD i <;> simp
          rw [h3, BitVec.toNat_add, BitVec.toNat_ofNat, show (0x80000000#32).toNat = 2^31 by decide]; omega
        rw [hx]; omega
      · have hb' : big = false := by rw [hb]; simpa using hbig
        have hr2 : r2 = sub P r 0#32 := by show sub P r1 _ = _; rw [hr1, if_neg (by simp [hb'])]
        rw [if_neg (by simp [hb']), hr2, BitVec.xor_zero]
        have f0 : IsFinite 0#32 := by decide
        have hv0 : value 0#32 = 0 := by rw [value_eq]; simp [ival, mag, magN, am, sg]
        obtain ⟨f2, v2⟩ := exact_of (sub_rounds P hfin f0) ⟨r, hfin, by rw [hv0, sub_zero]⟩
        rw [hv0, sub_zero] at v2
        have ht : truncZ (value (sub P r 0#32)) = (mag r / 2^149 : ℕ) := by rw [v2, truncZ_value, hs]; simp
        have hq := div_lt31 (a := r) (by omega)
        generalize hw : sub P r 0#32 = w at *
        have hwn : isNaN w = false := isNaN_f (not_nan_of_finite f2)
        have hwi : isInf w = false := isInf_f (not_inf_of_finite f2)
        rw [truncZ_value r, hs]
        have hcv : cvtt w = BitVec.ofNat 32 (mag r / 2^149) := by
          rw [truncZ_value] at ht
          unfold cvtt
          rw [hwn, hwi]
          simp only [Bool.or_false, Bool.false_eq_true, if_false]
          generalize mag w / 2^149 = q at *
          generalize mag r / 2^149 = t at *
          cases hsw : sg w
          · simp only [hsw, Bool.false_eq_true, if_false] at ht ⊢
            rw [if_pos (by omega)]; congr 1; omega
          · simp only [hsw, if_true] at ht ⊢
            have h1 : q = 0 := by omega
            have h2 : t = 0 := by omega
            rw [h1, h2]; decide
        rw [hcv]
        simp only [Bool.false_eq_true, if_false]
        generalize mag r / 2^149 = q at *
        rw [BitVec.toNat_ofNat, Nat.mod_eq_of_lt (by omega)]; omega
  · have hr1 : r1 = 0#32 := if_neg (fun h => hp (hpos.1 h))
    have hb : big = false := by show le 0x4F000000#32 r1 = _; rw [hr1]; decide
    have ho : lt 0x4F7FFFFF#32 r1 = false := by rw [hr1]; decide
    have h00 : sub P 0#32 0#32 = 0#32 := by
      have z1 : isNaN 0#32 = false := by decide
      have z2 : isInf 0#32 = false := by decide
      have z3 : isInf (neg 0#32) = false := by decide
      unfold sub addCore
      simp only [z1, z2, z3, Bool.or_false, Bool.false_eq_true, if_false]
      decide
    have hr2 : r2 = 0#32 := by show sub P r1 _ = _; rw [hr1, if_neg (by simp [hb])]; exact h00
    rw [if_neg (by simp [ho]), if_neg (by simp [hb]), hr2]
    unfold satZ
    simp only [isInf_am']
    rw [show (cvtt 0#32 ^^^ 0#32).toNat = 0 by decide]
    have hq : sg r = false → am r = 0 := by intro h; by_contra hc; exact hp ⟨h, by omega⟩
    split_ifs with hi hs
    · rfl
    · exfalso; have := hq (by simpa using hs); omega
    · rw [truncZ_value]
      cases hs : sg r
      · have : mag r = 0 := by unfold mag; rw [hq hs]; rfl
        rw [this]; simp
      · simp only [if_true]
        generalize mag r / 2^149 = q
        simp

/-- The scaled number, saturated: multiplying by 2^k is exact or far out of range. -/
theorem satZ_scaled {lo hi : ℤ} (h1 : -2^40 ≤ lo) (h2 : lo ≤ 0) (h3 : 0 ≤ hi) (h4 : hi ≤ 2^40) {k : ℕ} (hk : k < 32) {a : BitVec 32} (ha : ¬ IsNaN a)
    {r : BitVec 32} (hr : r = mul P a (ofU32 (shl1 k)) ∨ r = mul P (ofU32 (shl1 k)) a) :
    ¬ IsNaN r ∧ (IsFinite a → satZ lo hi r = max lo (min hi (truncZ (value a * 2^k)))) ∧ (IsInf a → satZ lo hi r = if signBit a then lo else hi) := by
  have hr : r = mul P a (ofU32 (shl1 k)) := by
    rcases hr with h | h
    · exact h
    · rw [h]
      have f : IsFinite (ofU32 (shl1 k)) := by rw [ofU_shl hk]; exact (value_pow2 (e := 127 + k) (by omega) (by omega)).1
      unfold mul
      have hn := isNaN_f ha
      have hn' := isNaN_f (not_nan_of_finite f)
      have hi' := isInf_f (not_inf_of_finite f)
      have hm : mag (ofU32 (shl1 k)) ≠ 0 := by
        rw [ofU_shl hk, (value_pow2 (e := 127 + k) (by omega) (by omega)).2.2.1]; positivity
      rw [hn, hn', hi']
      have hs : (sg (ofU32 (shl1 k)) != sg a) = (sg a != sg (ofU32 (shl1 k))) := by cases sg a <;> cases sg (ofU32 (shl1 k)) <;> rfl
      rw [hs, Nat.mul_comm (mag (ofU32 (shl1 k)))]
      simp only [Bool.or_false, Bool.false_eq_true, if_false, Bool.false_or]
      by_cases hia : isInf a = true
      · have hm2 : mag a ≠ 0 := mag_inf ((isInf_iff a).1 hia)
        simp [hia, hm, hm2]
      · simp [hia]
  subst hr
  rw [ofU_shl hk]
  obtain ⟨f, v, m, am'⟩ := value_pow2 (e := 127 + k) (by omega) (by omega)
  have hv : value (mk false ((127 + k) * 2^23)) = 2^k := by
    rw [v, ← zpow_natCast]; congr 1; push_cast; ring
  have sgb : sg (mk false ((127 + k) * 2^23)) = false := sg_mk _ _ (by omega)
  generalize mk false ((127 + k) * 2^23) = b at *
  by_cases hi' : IsInf a
  · have hz : ¬ FEq b 0#32 := by
      rw [feq_finite f (by decide), show value 0#32 = 0 by rw [value_eq]; simp [ival, mag, magN, am, sg], hv]; positivity
    have hri : IsInf (mul P a b) := (mul_special P a b).2.2.2.1 hi' (not_nan_of_finite f) hz
    have hs := (mul_special P a b).2.2.2.2.2 (not_nan_of_inf hri)
    refine ⟨not_nan_of_inf hri, fun hf => absurd hi' (not_inf_of_finite hf), fun _ => ?_⟩
    unfold satZ
    rw [if_pos hri, sg_eq, hs, ← sg_eq b, sgb]; simp
  · have hf : IsFinite a := by
      rw [finite_iff']; exact ⟨isNaN_f ha, isInf_f hi'⟩
    have hR := mul_rounds P hf f
    rw [hv] at hR
    have hp : (0:ℝ) < 2^k := by positivity
    have hp1 : (1:ℝ) ≤ 2^k := one_le_pow₀ (by norm_num)
    by_cases hb : am a ≤ 220 * 2^23
    · obtain ⟨g1, g2⟩ := exact_of hR (rep_scale hk hb)
      refine ⟨not_nan_of_finite g1, fun _ => ?_, fun h => absurd h hi'⟩
      unfold satZ; rw [if_neg (not_inf_of_finite g1), g2]
    · have hbig := value_big hf hb
      have hbig' : 2^90 ≤ |value a * 2^k| := by
        rw [abs_mul, abs_of_pos hp]; exact hbig.trans (le_mul_of_one_le_right (abs_nonneg _) hp1)
      -- the pattern of 2^90
      obtain ⟨f9, v9, _, _⟩ := value_pow2 (e := 217) (by norm_num) (by norm_num)
      have v9 : value (mk false (217 * 2^23)) = 2^90 := by rw [v9]; norm_num
      have hsgn : ¬ IsNaN (mul P a b) → sg (mul P a b) = sg a := by
        intro h; have := (mul_special P a b).2.2.2.2.2 h
        rw [sg_eq, this, ← sg_eq b, sgb, ← sg_eq]; simp
      generalize mul P a b = r at *
      have hva : value a ≠ 0 := by intro h; rw [h] at hbig; norm_num at hbig
      have hneg : (value a < 0 ↔ sg a = true) := by
        rw [value_sign]
        have hm : 0 < (mag a : ℝ) * 2^(-149:ℤ) := by
          rcases (mul_nonneg (Nat.cast_nonneg (mag a)) u149.le).lt_or_eq with h | h
          · exact h
          · exfalso; apply hva; rw [value_sign, ← h, mul_zero]
        cases sg a
        · simp only [Bool.false_eq_true, if_false, one_mul, iff_false, not_lt]; exact hm.le
        · simp only [if_true, iff_true]; linarith
      -- target
      have htar : max lo (min hi (truncZ (value a * 2^k))) = if sg a then lo else hi := by
        by_cases hs : sg a = true
        · have hn : value a < 0 := hneg.2 hs
          rw [if_pos hs]
          have : value a * 2^k ≤ ((-2^90 : ℤ) : ℝ) := by
            have h5 : value a * 2^k < 0 := mul_neg_of_neg_of_pos hn hp
            rw [abs_of_neg h5] at hbig'; push_cast; linarith
          have := truncZ_neg_le this (by norm_num)
          generalize truncZ (value a * 2^k) = z at *
          norm_num at this h1 h4; omega
        · have hn : 0 < value a := lt_of_le_of_ne (not_lt.1 (fun h => hs (hneg.1 h))) (Ne.symm hva)
          rw [if_neg hs]
          have : ((2^90 : ℤ) : ℝ) ≤ value a * 2^k := by
            have h5 : 0 < value a * 2^k := mul_pos hn hp
            rw [abs_of_pos h5] at hbig'; push_cast; linarith
          have := le_truncZ this (by norm_num)
          generalize truncZ (value a * 2^k) = z at *
          norm_num at this h1 h4; omega
      by_cases hov : |value a * 2^k| < overflow
      · have hfr := hR.finite hov
        refine ⟨not_nan_of_finite hfr, fun _ => ?_, fun h => absurd h hi'⟩
        rw [htar]
        have hs := hsgn (not_nan_of_finite hfr)
        unfold satZ; rw [if_neg (not_inf_of_finite hfr)]
        by_cases hsa : sg a = true
        · have hn : value a < 0 := hneg.2 hsa
          rw [if_pos hsa]
          have h5 : value a * 2^k < 0 := mul_neg_of_neg_of_pos hn hp
          rw [abs_of_neg h5] at hbig'
          have g := hR.nearest hov (neg (mk false (217 * 2^23))) (finite_neg.2 f9)
          rw [neg_value, v9, abs_of_nonneg (by linarith : (0:ℝ) ≤ -2^90 - value a * 2^k)] at g
          have := (abs_le.1 g).2
          have : value r ≤ ((-2^90 : ℤ) : ℝ) := by push_cast; linarith
          have := truncZ_neg_le this (by norm_num)
          generalize truncZ (value r) = z at *
          norm_num at this h1 h4; omega
        · have hn : 0 < value a := lt_of_le_of_ne (not_lt.1 (fun h => hsa (hneg.1 h))) (Ne.symm hva)
          rw [if_neg hsa]
          have h5 : 0 < value a * 2^k := mul_pos hn hp
          rw [abs_of_pos h5] at hbig'
          have g := hR.nearest hov (mk false (217 * 2^23)) f9
          rw [v9, abs_of_nonpos (by linarith : (2:ℝ)^90 - value a * 2^k ≤ 0)] at g
          have := (abs_le.1 g).1
          have : ((2^90 : ℤ) : ℝ) ≤ value r := by push_cast; linarith
          have := le_truncZ this (by norm_num)
          generalize truncZ (value r) = z at *
          norm_num at this h1 h4; omega
      · push Not at hov
        rw [htar]
        rcases le_abs.1 hov with h | h
        · have := hR.top h
          subst this
          have hn : ¬ sg a = true := by
            intro hs; have := hneg.2 hs
            have h5 : value a * 2^k < 0 := mul_neg_of_neg_of_pos this hp
            have : (0:ℝ) < overflow := by unfold overflow; norm_num
            linarith
          refine ⟨by decide, fun _ => ?_, fun h => absurd h hi'⟩
          unfold satZ; rw [if_pos (by decide), if_neg (by decide), if_neg hn]
        · have := hR.bot (by linarith)
          subst this
          have hn : sg a = true := by
            apply hneg.1
            by_contra hc; push Not at hc
            have h5 : 0 ≤ value a * 2^k := mul_nonneg hc hp.le
            have : (0:ℝ) < overflow := by unfold overflow; norm_num
            linarith
          refine ⟨by decide, fun _ => ?_, fun h => absurd h hi'⟩
          unfold satZ; rw [if_pos (by decide), if_pos (by decide), if_pos hn]

end DXM.IEEE
