import Verif.Lemmas.F32Val
import Mathlib.Algebra.Order.Floor.Ring
import Mathlib.Algebra.Order.Round
import Mathlib.Algebra.Order.Archimedean.Real.Basic

/-
Rounding to integers on binary32.
-/

set_option linter.all false

namespace DXM.IEEE
open DXM.Spec
variable (P : Env)

/-- Every multiple of 2^k up to 2^(24+k) is the magnitude of a number of the format. -/
theorem exists_mag {d k : ℕ} (hk : k ≤ 252) (h1 : 2^k ∣ d) (h2 : d ≤ 2^(24+k)) : ∃ m, m < 0x7F800000 ∧ magN m = d := by
  obtain ⟨r, rfl⟩ := h1
  rw [Nat.mul_comm, pow_add] at h2
  have hr : r ≤ 2^24 := Nat.le_of_mul_le_mul_right h2 (by positivity)
  rcases Nat.eq_zero_or_pos r with h0 | h0
  · exact ⟨0, by norm_num, by rw [h0]; rfl⟩
  have hj := Nat.log2_self_le h0.ne'
  have hj' := @Nat.lt_log2_self r
  set j := Nat.log2 r with hjd
  by_cases hbig : 24 ≤ j
  · have : r = 2^24 := le_antisymm hr (le_trans (Nat.pow_le_pow_right (by norm_num) hbig) hj)
    refine ⟨k * 2^23 + 2^24, by omega, ?_⟩
    rw [magN_kq _ _ le_rfl (Or.inr (by norm_num)), this, Nat.mul_comm]
  have hj23 : j ≤ 23 := by omega
  by_cases hs : 23 - j ≤ k
  · have hlow : 2^23 ≤ r * 2^(23-j) := by
      calc 2^23 = 2^j * 2^(23-j) := by rw [← pow_add]; congr 1; omega
        _ ≤ _ := Nat.mul_le_mul_right _ hj
    have hup : r * 2^(23-j) ≤ 2^24 := by
      calc r * 2^(23-j) ≤ 2^(j+1) * 2^(23-j) := Nat.mul_le_mul_right _ hj'.le
        _ = 2^24 := by rw [← pow_add]; congr 1; omega
    refine ⟨(k - (23 - j)) * 2^23 + r * 2^(23-j), ?_, ?_⟩
    · have : k - (23 - j) ≤ 252 := by omega
      have := Nat.mul_le_mul_right (2^23) this
      omega
    · rw [magN_kq _ _ hup (Or.inr hlow), Nat.mul_assoc, ← pow_add, show 23 - j + (k - (23 - j)) = k by omega, Nat.mul_comm]
  · have hup : r * 2^k ≤ 2^24 := by
      calc r * 2^k ≤ 2^(j+1) * 2^k := Nat.mul_le_mul_right _ hj'.le
        _ ≤ 2^24 := by rw [← pow_add]; exact Nat.pow_le_pow_right (by norm_num) (by omega)
    refine ⟨0 * 2^23 + r * 2^k, by omega, ?_⟩
    rw [magN_kq _ _ hup (Or.inl rfl), pow_zero, mul_one, Nat.mul_comm]

/-- `x` is a number of the format. -/
def Rep (x : ℝ) : Prop := ∃ y, IsFinite y ∧ value y = x

theorem rep_of (z : ℤ) (k : ℕ) (hk : k ≤ 252) (h1 : (2^k : ℤ) ∣ z) (h2 : z.natAbs ≤ 2^(24+k)) : Rep ((z : ℝ) * 2^(-149:ℤ)) := by
  obtain ⟨m, hm, e⟩ := exists_mag (d := z.natAbs) hk (by exact_mod_cast Int.natCast_dvd.1 (by exact_mod_cast h1)) h2
  refine ⟨mk (decide (z < 0)) m, ?_, ?_⟩
  · rw [finite_iff, am_mk _ _ (by omega)]; exact hm
  · rw [value_eq]; unfold ival mag; rw [sg_mk _ _ (by omega), am_mk _ _ (by omega), e]
    congr 1
    by_cases h : z < 0
    · simp only [h, decide_true, if_true]; rw [Int.cast_inj]; omega
    · simp only [h, decide_false, Bool.false_eq_true, if_false]; rw [Int.cast_inj]; omega

theorem two149 : (2:ℝ)^(149:ℕ) * 2^(-149:ℤ) = 1 := by rw [← zpow_natCast, ← zpow_add₀ (by norm_num)]; norm_num

theorem two149' : (713623846352979940529142984724747568191373312:ℝ) * 2^(-149:ℤ) = 1 := by rw [← two149]; norm_num

theorem rep_int (n : ℤ) (h : n.natAbs ≤ 2^24) : Rep n := by
  have := rep_of (n * 2^149) 149 (by norm_num) (Dvd.intro_left n rfl) (by
    rw [Int.natAbs_mul, show ((2:ℤ)^149).natAbs = 2^149 by norm_num, pow_add]; exact Nat.mul_le_mul_right _ h)
  push_cast at this
  rwa [mul_assoc, two149', mul_one] at this

theorem exact_of {x : ℝ} {r : BitVec 32} (h : Rounds x r) (hx : Rep x) : IsFinite r ∧ value r = x := by
  obtain ⟨y, hy, rfl⟩ := hx; exact rounds_exact hy h

theorem roundN_magN {m : ℕ} (h : m ≤ 0x7F800000) : roundN (magN m) 1 = m := by
  have := roundU_exact m 1 (by norm_num)
  rw [mul_one] at this; rw [roundN_min, this]; exact min_eq_right h

/-- A rounding of magnitudes to integers. -/
structure IntRound (f : Bool → ℕ → ℕ) : Prop where
  fix : ∀ s z, f s (z * 2^149) = z
  le : ∀ s m, f s m ≤ m / 2^149 + 1

theorem toIntegral_finite (op : ℕ) (f : Bool → ℕ → ℕ) (hf : IntRound f) {a : BitVec 32} (ha : IsFinite a) :
    IsFinite (toIntegral P op f a) ∧ value (toIntegral P op f a) = (if sg a then -1 else 1) * (f (sg a) (mag a) : ℝ) ∧
      sg (toIntegral P op f a) = sg a := by
  have hm : ∃ m, m < 0x7F800000 ∧ magN m = f (sg a) (mag a) * 2^149 := by
    by_cases hb : 2^172 ≤ mag a
    · obtain ⟨z, hz, _⟩ := magN_grid (am a) 149 hb
      refine ⟨am a, (finite_iff a).1 ha, ?_⟩
      have : mag a = z * 2^149 := hz
      rw [this, hf.fix, hz]
    · refine exists_mag (k := 149) (by norm_num) (Dvd.intro_left _ rfl) ?_
      rw [pow_add]; apply Nat.mul_le_mul_right
      have h1 := hf.le (sg a) (mag a)
      have h2 : mag a / 2^149 < 2^23 := by rw [Nat.div_lt_iff_lt_mul (by positivity), ← pow_add]; omega
      omega
  obtain ⟨m, hm1, hm2⟩ := hm
  have e : toIntegral P op f a = mk (sg a) m := by
    unfold toIntegral
    rw [if_neg (by rw [((finite_iff' a).1 ha).1]; decide), if_neg (by rw [((finite_iff' a).1 ha).2]; decide), ← hm2, roundN_magN hm1.le]
  rw [e]
  refine ⟨by rw [finite_iff, am_mk _ _ (by omega)]; exact hm1, ?_, sg_mk _ _ (by omega)⟩
  rw [value_sign, sg_mk _ _ (by omega)]; unfold mag; rw [am_mk _ _ (by omega), hm2]
  push_cast; rw [mul_assoc (f _ _ : ℝ), two149', mul_one]; rfl

theorem toIntegral_nan (op : ℕ) (f : Bool → ℕ → ℕ) {a : BitVec 32} (ha : IsNaN a) : IsNaN (toIntegral P op f a) := by
  unfold toIntegral; rw [if_pos ((isNaN_iff a).2 ha)]; exact isNaN_qnan _ _ _ _ _
theorem toIntegral_inf (op : ℕ) (f : Bool → ℕ → ℕ) {a : BitVec 32} (ha : IsInf a) : toIntegral P op f a = a := by
  unfold toIntegral; rw [if_neg (by rw [isNaN_f (not_nan_of_inf ha)]; decide), if_pos ((isInf_iff a).2 ha)]

theorem ir_trunc : IntRound fun _ m => m / 2^149 := ⟨fun s z => Nat.mul_div_cancel z (by positivity), fun s m => Nat.le_succ _⟩
theorem up_eq (m : ℕ) : (m + (2^149 - 1)) / 2^149 = if m % 2^149 = 0 then m / 2^149 else m / 2^149 + 1 := by
  generalize hU : 2^149 = U
  have hp : 0 < U := by rw [← hU]; positivity
  have h1 := Nat.div_add_mod m U
  have h2 := Nat.mod_lt m hp
  generalize m / U = q at *; generalize m % U = r at *
  subst h1
  split_ifs with h
  · rw [Nat.div_eq_iff hp, Nat.mul_comm q U]; omega
  · rw [Nat.div_eq_iff hp]
    have : 1 ≤ r := Nat.one_le_iff_ne_zero.2 h
    rw [Nat.add_mul, Nat.mul_comm q U]; omega
theorem ir_floor : IntRound fun s m => if s then (m + (2^149 - 1)) / 2^149 else m / 2^149 := by
  refine ⟨fun s z => ?_, fun s m => ?_⟩
  · rw [up_eq, if_pos (Nat.mul_mod_left _ _), Nat.mul_div_cancel z (by positivity)]; split_ifs <;> rfl
  · rw [up_eq]; split_ifs <;> omega
theorem ir_ceil : IntRound fun s m => if s then m / 2^149 else (m + (2^149 - 1)) / 2^149 := by
  refine ⟨fun s z => ?_, fun s m => ?_⟩
  · rw [up_eq, if_pos (Nat.mul_mod_left _ _), Nat.mul_div_cancel z (by positivity)]; split_ifs <;> rfl
  · rw [up_eq]; split_ifs <;> omega
theorem ir_rint : IntRound fun _ m => rne m (2^149) := by
  refine ⟨fun s z => rne_mul z _ (by positivity), fun s m => ?_⟩
  rcases rne_cases m (2^149) with h | h
  · rw [h]; omega
  · rw [h.1]

/-- The value in integer and fractional part of the magnitude. -/
theorem mag_split (a : BitVec 32) : (mag a : ℝ) * 2^(-149:ℤ) = (mag a / 2^149 : ℕ) + (mag a % 2^149 : ℕ) * 2^(-149:ℤ) := by
  have h := Nat.div_add_mod (mag a) (2^149)
  have : (mag a : ℝ) = 2^(149:ℕ) * (mag a / 2^149 : ℕ) + (mag a % 2^149 : ℕ) := by exact_mod_cast h.symm
  rw [this, add_mul, mul_comm ((2:ℝ)^(149:ℕ)), mul_assoc, two149, mul_one]
theorem frac_lt (m : ℕ) : ((m % 2^149 : ℕ) : ℝ) * 2^(-149:ℤ) < 1 := by
  have h : m % 2^149 < 2^149 := Nat.mod_lt m (by positivity)
  have : ((m % 2^149 : ℕ) : ℝ) < (2:ℝ)^(149:ℕ) := by exact_mod_cast h
  rw [← two149]; exact mul_lt_mul_of_pos_right this u149


theorem floor_sign (s : Bool) (q : ℕ) (f : ℝ) (h0 : 0 ≤ f) (h1 : f < 1) :
    ⌊(if s then (-1:ℝ) else 1) * (q + f)⌋ = if s then (if f = 0 then -(q:ℤ) else -(q + 1 : ℤ)) else q := by
  cases s
  · simp only [Bool.false_eq_true, if_false, one_mul]
    rw [Int.floor_eq_iff]; push_cast; constructor <;> linarith
  · simp only [if_true]
    split_ifs with h
    · rw [Int.floor_eq_iff]; push_cast; rw [h]; constructor <;> linarith
    · have : 0 < f := lt_of_le_of_ne h0 (Ne.symm h)
      rw [Int.floor_eq_iff]; push_cast; constructor <;> linarith

theorem frac_zero (m : ℕ) : ((m % 2^149 : ℕ) : ℝ) * 2^(-149:ℤ) = 0 ↔ m % 2^149 = 0 := by
  constructor
  · intro h
    rcases mul_eq_zero.1 h with g | g
    · exact_mod_cast g
    · exact absurd g u149.ne'
  · intro h; rw [h]; simp

theorem floor_value {a : BitVec 32} (ha : IsFinite a) : IsFinite (floor P a) ∧ value (floor P a) = ⌊value a⌋ := by
  obtain ⟨h1, h2, _⟩ := toIntegral_finite P 9 _ ir_floor ha
  refine ⟨h1, h2.trans ?_⟩
  rw [value_sign, mag_split, floor_sign _ _ _ (by positivity) (frac_lt _), up_eq]; simp only [frac_zero]
  generalize mag a / 2^149 = q; generalize mag a % 2^149 = r
  cases sg a
  · simp
  · simp only [if_true]; split_ifs <;> push_cast <;> ring
theorem ceil_value {a : BitVec 32} (ha : IsFinite a) : IsFinite (ceil P a) ∧ value (ceil P a) = ⌈value a⌉ := by
  obtain ⟨h1, h2, _⟩ := toIntegral_finite P 10 _ ir_ceil ha
  refine ⟨h1, h2.trans ?_⟩
  have : ⌈value a⌉ = -⌊-value a⌋ := by rw [Int.floor_neg]; ring
  rw [this, ← neg_value, value_sign, sg_neg]
  have hm : mag (neg a) = mag a := by unfold mag; rw [am_neg]
  rw [hm, mag_split, floor_sign _ _ _ (by positivity) (frac_lt _), up_eq]; simp only [frac_zero]
  generalize mag a / 2^149 = q; generalize mag a % 2^149 = r
  cases sg a
  · simp only [Bool.not_false, if_true, Bool.false_eq_true, if_false]; split_ifs <;> push_cast <;> ring
  · simp
theorem truncZ_sign (s : Bool) (q : ℕ) (f : ℝ) (h0 : 0 ≤ f) (h1 : f < 1) :
    truncZ ((if s then (-1:ℝ) else 1) * (q + f)) = if s then -(q:ℤ) else q := by
  have hq : (0:ℝ) ≤ q := by positivity
  unfold truncZ
  cases s
  · simp only [Bool.false_eq_true, if_false, one_mul]
    rw [if_pos (by linarith), Int.floor_eq_iff]; push_cast; constructor <;> linarith
  · simp only [if_true, neg_mul, one_mul]
    split_ifs with h
    · have : (q:ℝ) = 0 := by linarith
      have h2 : f = 0 := by linarith
      rw [Int.floor_eq_iff]; push_cast; rw [this, h2]; constructor <;> norm_num
    · rw [Int.ceil_eq_iff]; push_cast; constructor <;> linarith
theorem truncZ_value (a : BitVec 32) : truncZ (value a) = if sg a then -((mag a / 2^149 : ℕ):ℤ) else (mag a / 2^149 : ℕ) := by
  rw [value_sign, mag_split, truncZ_sign _ _ _ (by positivity) (frac_lt _)]
theorem trunc_value {a : BitVec 32} (ha : IsFinite a) : IsFinite (trunc P a) ∧ value (trunc P a) = truncZ (value a) := by
  obtain ⟨h1, h2, _⟩ := toIntegral_finite P 8 _ ir_trunc ha
  refine ⟨h1, h2.trans ?_⟩
  rw [truncZ_value]; generalize mag a / 2^149 = q; cases sg a <;> simp

theorem rne_near (s : Bool) (m : ℕ) : NearestEven ((if s then (-1:ℝ) else 1) * ((m:ℝ) * 2^(-149:ℤ))) (if s then -(rne m (2^149) : ℤ) else rne m (2^149)) := by
  have hm : (m : ℝ) * 2^(-149:ℤ) = (m / 2^149 : ℕ) + (m % 2^149 : ℕ) * 2^(-149:ℤ) := by
    have h := Nat.div_add_mod m (2^149)
    have : (m : ℝ) = 2^(149:ℕ) * (m / 2^149 : ℕ) + (m % 2^149 : ℕ) := by exact_mod_cast h.symm
    rw [this, add_mul, mul_comm ((2:ℝ)^(149:ℕ)), mul_assoc, two149, mul_one]
  have key : |(m : ℝ) * 2^(-149:ℤ) - rne m (2^149)| ≤ 1/2 ∧ (|(m : ℝ) * 2^(-149:ℤ) - rne m (2^149)| = 1/2 → Even (rne m (2^149))) := by
    have hr := Nat.mod_lt m (show 0 < 2^149 by positivity)
    have h2r : ∀ r : ℕ, (2 * (r : ℝ) * 2^(-149:ℤ) < 1 ↔ 2 * r < 2^149) ∧ (1 < 2 * (r : ℝ) * 2^(-149:ℤ) ↔ 2^149 < 2 * r) := by
      intro r
      rw [← two149]; constructor
      · rw [mul_lt_mul_iff_left₀ u149]; norm_cast
      · rw [mul_lt_mul_iff_left₀ u149]; norm_cast
    have h0 := (h2r (m % 2^149)).1
    have h1 := (h2r (m % 2^149)).2
    have hlt := frac_lt m
    have hnn : (0:ℝ) ≤ ((m % 2^149 : ℕ) : ℝ) * 2^(-149:ℤ) := by positivity
    rw [hm]; rw [mul_assoc] at h0 h1
    unfold rne
    generalize m / 2^149 = q at *
    generalize m % 2^149 = r at *
    generalize (r:ℝ) * 2^(-149:ℤ) = f at *
    split_ifs with g1 g2 g3
    · have := h0.2 g1
      rw [show (q:ℝ) + f - q = f by ring, abs_of_nonneg hnn]
      exact ⟨by linarith, fun h => by linarith⟩
    · have := h1.2 g2
      push_cast
      rw [show (q:ℝ) + f - (q + 1) = f - 1 by ring, abs_of_nonpos (by linarith)]
      exact ⟨by linarith, fun h => by linarith⟩
    · have e : f = 1/2 := by
        have a1 := mt h0.1 g1; have a2 := mt h1.1 g2; linarith
      rw [show (q:ℝ) + f - q = f by ring, e]
      refine ⟨by norm_num [abs_of_pos], fun _ => Nat.even_iff.2 g3⟩
    · have e : f = 1/2 := by
        have a1 := mt h0.1 g1; have a2 := mt h1.1 g2; linarith
      push_cast
      rw [show (q:ℝ) + f - (q + 1) = f - 1 by ring, e]
      refine ⟨by rw [abs_of_neg] <;> norm_num, fun _ => Nat.even_iff.2 (by omega)⟩
  cases s
  · simp only [Bool.false_eq_true, if_false, one_mul]
    exact ⟨by exact_mod_cast key.1, fun h => by exact_mod_cast key.2 (by exact_mod_cast h)⟩
  · simp only [if_true, neg_mul, one_mul]
    have e : |-((m:ℝ) * 2^(-149:ℤ)) - ((-(rne m (2^149) : ℤ) : ℤ) : ℝ)| = |(m:ℝ) * 2^(-149:ℤ) - rne m (2^149)| := by
      push_cast; rw [← abs_neg]; congr 1; ring
    refine ⟨e ▸ key.1, fun h => ?_⟩
    rw [e] at h; exact (by exact_mod_cast key.2 h : Even (rne m (2^149) : ℤ)).neg
theorem rint_value {a : BitVec 32} (ha : IsFinite a) : IsFinite (rint P a) ∧ ∃ n : ℤ, NearestEven (value a) n ∧ value (rint P a) = n := by
  obtain ⟨h1, h2, _⟩ := toIntegral_finite P 7 _ ir_rint ha
  refine ⟨h1, (if sg a then -(rne (mag a) (2^149) : ℤ) else rne (mag a) (2^149)), ?_, h2.trans ?_⟩
  · rw [value_sign]; exact rne_near _ _
  · cases sg a <;> simp

/-- Large numbers are integers. -/
theorem big_int {a : BitVec 32} (h : 0x4B000000 ≤ am a) (hf : IsFinite a) : ∃ n : ℤ, value a = n := by
  have hb : 2^(23+149) ≤ magN (am a) := by
    have : magN 0x4B000000 ≤ magN (am a) := magN_strictMono.monotone h
    have e : magN 0x4B000000 = 2^(23+149) := by decide +kernel
    rwa [e] at this
  obtain ⟨z, hz, _⟩ := magN_grid (am a) 149 hb
  have hz' : (mag a : ℝ) * 2^(-149:ℤ) = z := by
    unfold mag; rw [hz]; push_cast; rw [mul_assoc, two149', mul_one]
  refine ⟨if sg a then -z else z, ?_⟩
  rw [value_sign, hz']; cases sg a <;> simp
/-- Small numbers are below 2^23. -/
theorem small_mag {a : BitVec 32} (h : am a < 0x4B000000) : mag a < 2^172 := by
  have : magN (am a) < magN 0x4B000000 := magN_strictMono h
  have e : magN 0x4B000000 = 2^172 := by decide +kernel
  rwa [e] at this

/-- The conversion to an integer and back truncates small numbers exactly. -/
theorem ofI32_small (n : ℤ) (h : n.natAbs ≤ 2^24) (b : BitVec 32) (hb : b.toInt = n) : IsFinite (ofI32 b) ∧ value (ofI32 b) = n := by
  have hr : Rounds ((n : ℝ)) (ofI32 b) := by
    unfold ofI32; rw [hb]
    have := rounds_int false (n * 2^149) 1 (by norm_num)
    push_cast at this
    rwa [div_one, mul_assoc, two149', mul_one] at this
  exact exact_of hr (rep_int n h)


theorem toInt_ofNat (n : ℕ) (h : n < 2^31) : (BitVec.ofNat 32 n).toInt = n := by
  rw [BitVec.toInt_eq_toNat_cond, BitVec.toNat_ofNat, Nat.mod_eq_of_lt (by omega), if_pos (by omega)]
theorem toInt_neg (n : ℕ) (h : n ≤ 2^31) : (BitVec.ofInt 32 (-(n:ℤ))).toInt = -(n:ℤ) := by
  rw [BitVec.toInt_ofInt, Int.bmod_def]; norm_num; omega

theorem finite_of_small {a : BitVec 32} (h : am a < 0x4B000000) : IsFinite a := by rw [finite_iff]; omega

theorem cvtt_toInt {a : BitVec 32} (h : am a < 0x4B000000) : (cvtt a).toInt = truncZ (value a) := by
  have hf := (finite_iff' a).1 (finite_of_small h)
  have hm := small_mag h
  have hq : mag a / 2^149 < 2^23 := by rw [Nat.div_lt_iff_lt_mul (by positivity), ← pow_add]; exact hm
  rw [truncZ_value]; unfold cvtt; simp only [hf.1, hf.2, Bool.or_self, Bool.false_eq_true, if_false]
  cases sg a
  · simp only [Bool.false_eq_true, if_false]; rw [if_pos (by omega), toInt_ofNat _ (by omega)]
  · simp only [if_true]; rw [if_pos (by omega), toInt_neg _ (by omega)]
theorem castI_toInt {a : BitVec 32} (h : am a < 0x4B000000) : (castI32 a).toInt = truncZ (value a) := by
  have hf := (finite_iff' a).1 (finite_of_small h)
  have hm := small_mag h
  have hq : mag a / 2^149 < 2^23 := by rw [Nat.div_lt_iff_lt_mul (by positivity), ← pow_add]; exact hm
  rw [truncZ_value]; unfold castI32; simp only [hf.1, Bool.false_eq_true, if_false]
  cases sg a
  · simp only [Bool.false_eq_true, if_false]; rw [if_pos (by omega), toInt_ofNat _ (by omega)]
  · simp only [if_true]; rw [if_pos (by omega), toInt_neg _ (by omega)]
theorem truncZ_small {a : BitVec 32} (h : am a < 0x4B000000) : (truncZ (value a)).natAbs < 2^23 := by
  have hm := small_mag h
  have hq : mag a / 2^149 < 2^23 := by rw [Nat.div_lt_iff_lt_mul (by positivity), ← pow_add]; exact hm
  rw [truncZ_value]; split_ifs <;> omega
theorem cvttI_value {a : BitVec 32} (h : am a < 0x4B000000) : IsFinite (ofI32 (cvtt a)) ∧ value (ofI32 (cvtt a)) = truncZ (value a) :=
  ofI32_small _ (by have := truncZ_small h; omega) _ (cvtt_toInt h)
theorem castI_value {a : BitVec 32} (h : am a < 0x4B000000) : IsFinite (ofI32 (castI32 a)) ∧ value (ofI32 (castI32 a)) = truncZ (value a) :=
  ofI32_small _ (by have := truncZ_small h; omega) _ (castI_toInt h)
theorem truncZ_int (n : ℤ) : truncZ n = n := by unfold truncZ; simp

/-- The signed integer test of the code on `v & 0x7FFFFFFF` is a test on the magnitude pattern. -/
theorem abs_toInt (a : BitVec 32) : (abs a).toInt = am a := by
  have h1 := sg_abs a; have h2 := am_abs a
  rw [BitVec.toInt_eq_toNat_of_msb h1]
  unfold am at *; rw [Nat.mod_eq_of_lt] at h2
  · rw [h2]
  · have : (abs a).toNat < 2^31 := by
      have := BitVec.msb_eq_false_iff_two_mul_lt.1 h1; omega
    exact this
theorem slt_abs (a : BitVec 32) : BitVec.slt (abs a) 0x4B000000#32 = decide (am a < 0x4B000000) := by
  unfold BitVec.slt; rw [abs_toInt, show (0x4B000000#32 : BitVec 32).toInt = 0x4B000000 by decide]; congr 1; simp

theorem floor_trunc (x : ℝ) : ⌊x⌋ = truncZ x - (if x < truncZ x then 1 else 0) := by
  unfold truncZ
  by_cases h : 0 ≤ x
  · rw [if_pos h, if_neg (not_lt.2 (Int.floor_le x)), sub_zero]
  · rw [if_neg h]
    split_ifs with g
    · have h1 := Int.ceil_lt_add_one x
      rw [Int.floor_eq_iff]; push_cast; constructor
      · linarith
      · linarith
    · have h1 := Int.le_ceil x
      rw [sub_zero, Int.floor_eq_iff]; constructor <;> linarith
theorem ceil_trunc (x : ℝ) : ⌈x⌉ = truncZ x + (if truncZ x < x then 1 else 0) := by
  unfold truncZ
  by_cases h : 0 ≤ x
  · rw [if_pos h]
    split_ifs with g
    · have h1 := Int.lt_floor_add_one x
      rw [Int.ceil_eq_iff]; push_cast; constructor <;> linarith
    · have h1 := Int.floor_le x
      rw [add_zero, Int.ceil_eq_iff]; constructor <;> linarith
  · rw [if_neg h, if_neg (not_lt.2 (Int.le_ceil x)), add_zero]

theorem flt_finite {a b : BitVec 32} (ha : IsFinite a) (hb : IsFinite b) : FLt a b ↔ value a < value b := by
  unfold FLt; rw [evalue_finite ha, evalue_finite hb, EReal.coe_lt_coe_iff]
  exact ⟨fun h => h.2.2, fun h => ⟨not_nan_of_finite ha, not_nan_of_finite hb, h⟩⟩
theorem fle_finite {a b : BitVec 32} (ha : IsFinite a) (hb : IsFinite b) : FLe a b ↔ value a ≤ value b := by
  unfold FLe; rw [evalue_finite ha, evalue_finite hb, EReal.coe_le_coe_iff]
  exact ⟨fun h => h.2.2, fun h => ⟨not_nan_of_finite ha, not_nan_of_finite hb, h⟩⟩
theorem feq_finite {a b : BitVec 32} (ha : IsFinite a) (hb : IsFinite b) : FEq a b ↔ value a = value b := by
  unfold FEq; rw [evalue_finite ha, evalue_finite hb, EReal.coe_eq_coe_iff]
  exact ⟨fun h => h.2.2, fun h => ⟨not_nan_of_finite ha, not_nan_of_finite hb, h⟩⟩

/-- SSE2 floor on a small number: truncate, subtract one if that is larger. -/
theorem floor_sse2 {a : BitVec 32} (h : am a < 0x4B000000) :
    let t := ofI32 (cvtt a)
    let r := add P t (ofI32 (if lt a t then 0xFFFFFFFF#32 else 0#32))
    IsFinite r ∧ value r = ⌊value a⌋ := by
  intro t r
  have ht := cvttI_value h
  have hs := truncZ_small h
  have hlt : lt a t = true ↔ value a < truncZ (value a) := by
    rw [lt_iff, flt_finite (finite_of_small h) ht.1, ht.2]
  have hone : IsFinite (ofI32 (if lt a t then 0xFFFFFFFF#32 else 0#32)) ∧
      value (ofI32 (if lt a t then 0xFFFFFFFF#32 else 0#32)) = -(if value a < truncZ (value a) then 1 else 0) := by
    by_cases g : lt a t = true
    · rw [if_pos g, if_pos (hlt.1 g)]
      have := ofI32_small (-1) (by norm_num) 0xFFFFFFFF#32 (by decide)
      exact ⟨this.1, by rw [this.2]; norm_num⟩
    · rw [if_neg g, if_neg (fun k => g (hlt.2 k))]
      have := ofI32_small 0 (by norm_num) 0#32 (by decide)
      exact ⟨this.1, by rw [this.2]; norm_num⟩
  have hr := add_rounds P ht.1 hone.1
  rw [ht.2, hone.2] at hr
  have e : (truncZ (value a) : ℝ) + -(if value a < truncZ (value a) then 1 else 0) = (⌊value a⌋ : ℤ) := by
    rw [floor_trunc]; push_cast; split_ifs <;> ring
  rw [e] at hr
  refine exact_of hr (rep_int _ ?_)
  rw [floor_trunc]; split_ifs <;> omega
theorem ceil_sse2 {a : BitVec 32} (h : am a < 0x4B000000) :
    let t := ofI32 (cvtt a)
    let r := sub P t (ofI32 (if lt t a then 0xFFFFFFFF#32 else 0#32))
    IsFinite r ∧ value r = ⌈value a⌉ := by
  intro t r
  have ht := cvttI_value h
  have hs := truncZ_small h
  have hlt : lt t a = true ↔ truncZ (value a) < value a := by
    rw [lt_iff, flt_finite ht.1 (finite_of_small h), ht.2]
  have hone : IsFinite (ofI32 (if lt t a then 0xFFFFFFFF#32 else 0#32)) ∧
      value (ofI32 (if lt t a then 0xFFFFFFFF#32 else 0#32)) = -(if truncZ (value a) < value a then 1 else 0) := by
    by_cases g : lt t a = true
    · rw [if_pos g, if_pos (hlt.1 g)]
      have := ofI32_small (-1) (by norm_num) 0xFFFFFFFF#32 (by decide)
      exact ⟨this.1, by rw [this.2]; norm_num⟩
    · rw [if_neg g, if_neg (fun k => g (hlt.2 k))]
      have := ofI32_small 0 (by norm_num) 0#32 (by decide)
      exact ⟨this.1, by rw [this.2]; norm_num⟩
  have hr := sub_rounds P ht.1 hone.1
  rw [ht.2, hone.2] at hr
  have e : (truncZ (value a) : ℝ) - -(if truncZ (value a) < value a then 1 else 0) = (⌈value a⌉ : ℤ) := by
    rw [ceil_trunc]; push_cast; split_ifs <;> ring
  rw [e] at hr
  refine exact_of hr (rep_int _ ?_)
  rw [ceil_trunc]; split_ifs <;> omega


theorem rne_add (m c q : ℕ) (hq : 0 < q) (hc : c % 2 = 0) : rne (m + c * q) q = rne m q + c := by
  unfold rne; rw [Nat.add_mul_mod_self_right, Nat.add_mul_div_right _ _ hq]
  split_ifs <;> omega
theorem rne_le (m q : ℕ) : rne m q ≤ m / q + 1 := by
  rcases rne_cases m q with h | h
  · rw [h]; omega
  · rw [h.1]
theorem rne_ge (m q : ℕ) : m / q ≤ rne m q := by
  rcases rne_cases m q with h | h
  · rw [h]
  · rw [h.1]; omega

theorem roundN_172 {p : ℕ} (h1 : 2^172 ≤ p) (h2 : p ≤ 2^173) : ∃ m, roundN p 1 = m ∧ m < 0x7F800000 ∧ magN m = rne p (2^149) * 2^149 := by
  rcases Nat.lt_or_ge p (2^173) with h3 | h3
  · have hl : Nat.log2 (p / 1) = 172 := by
      rw [Nat.div_one, Nat.log2_eq_iff (by omega)]; exact ⟨h1, h3⟩
    have hN1 : rne p (2^149) ≤ 2^24 := by
      refine (rne_le _ _).trans ?_
      have : p / 2^149 < 2^24 := by rw [Nat.div_lt_iff_lt_mul (by positivity), ← pow_add]; exact h3
      omega
    have hN2 : 2^23 ≤ rne p (2^149) := by
      refine le_trans ?_ (rne_ge _ _)
      rw [Nat.le_div_iff_mul_le (by positivity), ← pow_add]; exact h1
    refine ⟨149 * 2^23 + rne p (2^149), ?_, by omega, magN_kq _ _ hN1 (Or.inr hN2)⟩
    unfold roundN; rw [hl]; show min 0x7F800000 (149 * 2^23 + rne p (1 * 2^149)) = _; rw [one_mul]; exact min_eq_right (by omega)
  · have : p = 2^173 := le_antisymm h2 h3
    subst this
    refine ⟨_, rfl, by decide +kernel, by decide +kernel⟩

/-- The magic-number rounding: adding and subtracting 2^23 with the sign of the argument rounds to the nearest even integer. -/
theorem magic_round {a : BitVec 32} (h : am a ≤ 0x4B000000) :
    let g := mk (sg a) 0x4B000000
    let r := sub P (add P a g) g
    IsFinite r ∧ ∃ n : ℤ, NearestEven (value a) n ∧ value r = n := by
  intro g r
  have hfa : IsFinite a := by rw [finite_iff]; omega
  have hg : IsFinite g := by rw [finite_iff]; show am (mk _ _) < _; rw [am_mk _ _ (by norm_num)]; norm_num
  have hmg : mag g = 2^172 := by show magN (am (mk _ _)) = _; rw [am_mk _ _ (by norm_num)]; decide +kernel
  have hsg : sg g = sg a := sg_mk _ _ (by norm_num)
  have hma : mag a ≤ 2^172 := by
    have : magN (am a) ≤ magN 0x4B000000 := magN_strictMono.monotone h
    have e : magN 0x4B000000 = 2^172 := by decide +kernel
    rwa [e] at this
  obtain ⟨m, hm1, hm2, hm3⟩ := roundN_172 (p := mag a + 2^172) (by omega) (by rw [show (2:ℕ)^173 = 2^172 + 2^172 by norm_num]; omega)
  have hna : (ival a + ival g).natAbs = mag a + 2^172 := by
    unfold ival; rw [hsg, hmg]; split_ifs
    · rw [← neg_add, Int.natAbs_neg]; norm_cast
    · norm_cast
  have hlt : decide (ival a + ival g < 0) = sg a := by
    unfold ival; rw [hsg, hmg]
    have : (0:ℤ) < 2^172 := by positivity
    cases hs : sg a
    · simp only [Bool.false_eq_true, if_false, decide_eq_false_iff_not]; push_cast; omega
    · simp only [if_true, decide_eq_true_eq]; push_cast; omega
  have e1 : add P a g = mk (sg a) m := by
    unfold add addCore roundI
    have f1 := (finite_iff' a).1 hfa; have f2 := (finite_iff' g).1 hg
    simp only [f1.1, f1.2, f2.1, f2.2, Bool.or_self, Bool.false_eq_true, if_false]
    rw [if_neg, hlt, hna, hm1]
    intro h0; rw [h0] at hna; simp at hna
  have f3 : IsFinite (add P a g) := by rw [e1, finite_iff, am_mk _ _ (by omega)]; exact hm2
  have hr := sub_rounds P f3 hg
  have hN : rne (mag a + 2^172) (2^149) = rne (mag a) (2^149) + 2^23 := by
    have := rne_add (mag a) (2^23) (2^149) (by positivity) (by norm_num)
    rw [← pow_add] at this; exact this
  have v1 : value (add P a g) = (if sg a then -1 else 1) * ((rne (mag a) (2^149) : ℝ) + 2^23) := by
    have hmm : mag (mk (sg a) m) = (rne (mag a) (2^149) + 2^23) * 2^149 := by rw [← hN, ← hm3]; unfold mag; rw [am_mk _ _ (by omega)]
    rw [e1, value_sign, sg_mk _ _ (by omega), hmm]
    generalize rne (mag a) (2^149) = N
    push_cast; rw [mul_assoc ((N:ℝ) + _), two149', mul_one]; norm_num
  have v2 : value g = (if sg a then -1 else 1) * 2^23 := by
    rw [value_sign, hsg, hmg]; push_cast
    have : (5986310706507378352962293074805895248510699696029696:ℝ) * 2^(-149:ℤ) = 8388608 := by
      rw [show (5986310706507378352962293074805895248510699696029696:ℝ) = 8388608 * 713623846352979940529142984724747568191373312 by norm_num, mul_assoc, two149', mul_one]
    rw [this]; norm_num
  have hx := rne_near (sg a) (mag a)
  rw [← value_sign] at hx
  have e : value (add P a g) - value g = ((if sg a then -(rne (mag a) (2^149) : ℤ) else rne (mag a) (2^149) : ℤ) : ℝ) := by
    rw [v1, v2]; generalize rne (mag a) (2^149) = N; cases sg a <;> simp <;> ring
  rw [e] at hr
  have hb : rne (mag a) (2^149) ≤ 2^24 := by
    refine (rne_le _ _).trans ?_
    have : mag a / 2^149 ≤ 2^23 := by
      refine (Nat.div_le_div_right hma).trans ?_
      decide +kernel
    omega
  have hex := exact_of hr (rep_int _ (by generalize rne (mag a) (2^149) = N at *; split_ifs <;> omega))
  exact ⟨hex.1, _, hx, hex.2⟩

theorem half_value : value 0x3F000000#32 = 1/2 := by
  have e1 : signBit 0x3F000000#32 = false := by decide
  have e2 : expField 0x3F000000#32 = 126 := by decide
  have e3 : fracField 0x3F000000#32 = 0 := by decide
  unfold value; rw [e1, e2, e3]; norm_num
theorem two_value : value 0x40000000#32 = 2 := by
  have e1 : signBit 0x40000000#32 = false := by decide
  have e2 : expField 0x40000000#32 = 128 := by decide
  have e3 : fracField 0x40000000#32 = 0 := by decide
  unfold value; rw [e1, e2, e3]; norm_num

/-- `x - floor x` is a number of the format except for x in (-1/2, 0). -/
theorem rep_fract {a : BitVec 32} (h : am a < 0x4B000000) (hx : 0 ≤ value a ∨ value a ≤ -1/2) : Rep (value a - ⌊value a⌋) := by
  have hf := finite_of_small h
  have hm := small_mag h
  have hu := u149
  have hval := value_eq a
  have hiv : (ival a).natAbs = mag a := by unfold ival; split_ifs <;> simp
  have hd : value a - ⌊value a⌋ = ((ival a - ⌊value a⌋ * 2^149 : ℤ) : ℝ) * 2^(-149:ℤ) := by
    push_cast; rw [sub_mul, mul_assoc (⌊value a⌋ : ℝ), two149', mul_one, ← hval]
  have hfr0 := Int.fract_nonneg (value a)
  have hfr1 := Int.fract_lt_one (value a)
  have hlo : 0 ≤ ival a - ⌊value a⌋ * 2^149 := by
    have : (0:ℝ) ≤ ((ival a - ⌊value a⌋ * 2^149 : ℤ) : ℝ) * 2^(-149:ℤ) := by rw [← hd]; exact hfr0
    have := nonneg_of_mul_nonneg_left this hu; exact_mod_cast this
  have hhi : ival a - ⌊value a⌋ * 2^149 < 2^149 := by
    have : ((ival a - ⌊value a⌋ * 2^149 : ℤ) : ℝ) * 2^(-149:ℤ) < ((2^149 : ℤ) : ℝ) * 2^(-149:ℤ) := by
      rw [← hd]; push_cast; rw [two149']; exact hfr1
    rw [mul_lt_mul_iff_left₀ hu] at this; exact_mod_cast this
  rcases Nat.lt_or_ge (mag a) (2^149) with h1 | h1
  · rcases hx with hx | hx
    · have hlt : value a < 1 := by
        have := value_abs a; rw [abs_of_nonneg hx] at this; rw [this, ← two149, mul_lt_mul_iff_left₀ hu]; exact_mod_cast h1
      have : ⌊value a⌋ = 0 := by rw [Int.floor_eq_iff]; push_cast; constructor <;> linarith
      rw [this]; exact ⟨a, hf, by simp⟩
    · have h2 : 2^148 ≤ mag a := by
        have := value_abs a; rw [abs_of_nonpos (by linarith)] at this
        have h3 : (1:ℝ)/2 ≤ (mag a : ℝ) * 2^(-149:ℤ) := by rw [← this]; linarith
        have h4 : ((2^148:ℕ) : ℝ) * 2^(-149:ℤ) ≤ (mag a : ℝ) * 2^(-149:ℤ) := by
          refine le_trans (le_of_eq ?_) h3
          rw [← two149]; push_cast; norm_num
        rw [mul_le_mul_iff_left₀ hu] at h4; exact_mod_cast h4
      have hgt : -1 < value a := by
        have := value_abs a; rw [abs_of_nonpos (by linarith)] at this
        have : -value a < 1 := by rw [this, ← two149, mul_lt_mul_iff_left₀ hu]; exact_mod_cast h1
        linarith
      have hF : ⌊value a⌋ = -1 := by rw [Int.floor_eq_iff]; push_cast; constructor <;> linarith
      obtain ⟨w, hw, _⟩ := magN_grid (am a) 125 h2
      have hneg : ival a = -(mag a : ℤ) := by
        have : ival a < 0 := by
          by_contra hc
          have : (0:ℝ) ≤ ival a := by exact_mod_cast not_lt.1 hc
          have : 0 ≤ value a := by rw [hval]; positivity
          linarith
        omega
      rw [hd, hF]
      refine rep_of _ 125 (by norm_num) ?_ ?_
      · rw [hneg]; show (2^125 : ℤ) ∣ -((magN (am a) : ℕ) : ℤ) - -1 * 2^149
        rw [hw]; refine ⟨-(w:ℤ) + 2^24, ?_⟩; push_cast; ring
      · rw [hF] at hlo hhi; zify; rw [abs_of_nonneg hlo]; exact hhi.le
  · have h0 : mag a ≠ 0 := by have : 0 < 2^149 := by positivity
                              omega
    set e := Nat.log2 (mag a) with he
    have e1 : 2^e ≤ mag a := Nat.log2_self_le h0
    have e2 : mag a < 2^(e+1) := Nat.lt_log2_self
    have e3 : 149 ≤ e := by
      by_contra hc
      have : 2^(e+1) ≤ 2^149 := Nat.pow_le_pow_right (by norm_num) (by omega)
      omega
    have e4 : e < 172 := by
      by_contra hc
      have : 2^172 ≤ 2^e := Nat.pow_le_pow_right (by norm_num) (by omega)
      omega
    obtain ⟨w, hw, _⟩ := magN_grid (am a) (e - 23) (by rw [show 23 + (e - 23) = e by omega]; exact e1)
    rw [hd]
    refine rep_of _ (e - 23) (by omega) ?_ ?_
    · refine dvd_sub ?_ ?_
      · rw [← Int.dvd_natAbs, hiv]; unfold mag; rw [hw]; push_cast; exact Dvd.intro_left _ rfl
      · exact Dvd.dvd.mul_left (pow_dvd_pow 2 (by omega)) _
    · zify; rw [abs_of_nonneg hlo]
      have : (2:ℤ)^149 ≤ 2^(24 + (e - 23)) := pow_le_pow_right₀ (by norm_num) (by omega)
      omega


/-- The scalar rounding of the no-intrinsics build on bit patterns (`round_to_nearest`). -/
def rtn (a : BitVec 32) : BitVec 32 :=
  let i := floor P a
  let x := sub P a i
  if lt x 0x3F000000#32 then i
  else if lt 0x3F000000#32 x then add P i 0x3F800000#32
  else
    let t := trunc P (div P i 0x40000000#32)
    if eq (mul P 0x40000000#32 t) i then i else add P i 0x3F800000#32

theorem add_one_exact {i : BitVec 32} (n : ℤ) (hi : IsFinite i) (hv : value i = n) (hn : (n+1).natAbs ≤ 2^24) :
    IsFinite (add P i 0x3F800000#32) ∧ value (add P i 0x3F800000#32) = (n + 1 : ℤ) := by
  have h := add_rounds P hi (show IsFinite 0x3F800000#32 by decide)
  rw [hv, value_one] at h
  have e : (n:ℝ) + 1 = ((n+1 : ℤ) : ℝ) := by push_cast; ring
  rw [e] at h
  exact exact_of h (rep_int _ hn)

/-- The parity test of the no-intrinsics build. -/
theorem parity_exact {i : BitVec 32} (n : ℤ) (hi : IsFinite i) (hv : value i = n) (hn : n.natAbs ≤ 2^24) :
    eq (mul P 0x40000000#32 (trunc P (div P i 0x40000000#32))) i = true ↔ Even n := by
  have h2 : IsFinite 0x40000000#32 := by decide
  have hd := div_rounds P hi h2 (by rw [two_value]; norm_num)
  rw [hv, two_value] at hd
  have hrep : Rep ((n:ℝ)/2) := by
    have := rep_of (n * 2^148) 148 (by norm_num) (Dvd.intro_left n rfl) (by
      rw [Int.natAbs_mul, show ((2:ℤ)^148).natAbs = 2^148 by norm_num, pow_add]; exact Nat.mul_le_mul_right _ hn)
    convert this using 1
    push_cast
    have : (356811923176489970264571492362373784095686656:ℝ) * 2^(-149:ℤ) = 1/2 := by
      rw [show (356811923176489970264571492362373784095686656:ℝ) = 1/2 * 713623846352979940529142984724747568191373312 by norm_num, mul_assoc, two149', mul_one]
    rw [mul_assoc, this]; ring
  obtain ⟨d1, d2⟩ := exact_of hd hrep
  obtain ⟨t1, t2⟩ := trunc_value P d1
  rw [d2] at t2
  have hm := mul_rounds P h2 t1
  rw [t2, two_value] at hm
  have hb : (truncZ ((n:ℝ)/2)).natAbs ≤ 2^23 := by
    unfold truncZ
    split_ifs with g
    · have hn0 : 0 ≤ n := by have : (0:ℝ) ≤ n := by linarith
                             exact_mod_cast this
      have h1 : 0 ≤ ⌊(n:ℝ)/2⌋ := Int.floor_nonneg.2 g
      have h3 := Int.floor_le ((n:ℝ)/2)
      have : (2 * ⌊(n:ℝ)/2⌋ : ℤ) ≤ n := by have : (2 * (⌊(n:ℝ)/2⌋:ℝ)) ≤ n := by linarith
                                           exact_mod_cast this
      omega
    · have hn0 : n < 0 := by have : (n:ℝ) < 0 := by linarith
                             exact_mod_cast this
      have h1 : ⌈(n:ℝ)/2⌉ ≤ 0 := Int.ceil_le.2 (by push_cast; linarith)
      have h3 := Int.le_ceil ((n:ℝ)/2)
      have : n ≤ (2 * ⌈(n:ℝ)/2⌉ : ℤ) := by have : (n:ℝ) ≤ (2 * (⌈(n:ℝ)/2⌉:ℝ)) := by linarith
                                           exact_mod_cast this
      omega
  have e : (2:ℝ) * (truncZ ((n:ℝ)/2) : ℝ) = ((2 * truncZ ((n:ℝ)/2) : ℤ) : ℝ) := by push_cast; ring
  rw [e] at hm
  obtain ⟨m1, m2⟩ := exact_of hm (rep_int _ (by omega))
  rw [eq_iff, feq_finite m1 hi, m2, hv]
  constructor
  · intro h
    have : 2 * truncZ ((n:ℝ)/2) = n := by exact_mod_cast h
    rw [← this]; exact even_two_mul _
  · rintro ⟨k, rfl⟩
    have : (((k + k : ℤ) : ℝ)/2) = (k:ℝ) := by push_cast; ring
    rw [this, truncZ_int]; push_cast; ring

theorem rtn_finite {a : BitVec 32} (ha : IsFinite a) : IsFinite (rtn P a) ∧ ∃ n : ℤ, NearestEven (value a) n ∧ value (rtn P a) = n := by
  have hh : IsFinite 0x3F000000#32 := by decide
  obtain ⟨f1, f2⟩ := floor_value P ha
  have hd := sub_rounds P ha f1
  rw [f2] at hd
  have hfr0 := Int.fract_nonneg (value a)
  have hfr1 := Int.fract_lt_one (value a)
  have hfr : Int.fract (value a) = value a - ⌊value a⌋ := rfl
  unfold rtn; dsimp only
  rcases Nat.lt_or_ge (am a) 0x4B000000 with hs | hs
  · have hF : (⌊value a⌋).natAbs ≤ 2^23 := by
      have := truncZ_small hs; rw [floor_trunc]; split_ifs <;> omega
    by_cases hx : 0 ≤ value a ∨ value a ≤ -1/2
    · obtain ⟨d1, d2⟩ := exact_of hd (rep_fract hs hx)
      have c1 : lt (sub P a (floor P a)) 0x3F000000#32 = true ↔ value a - ⌊value a⌋ < 1/2 := by
        rw [lt_iff, flt_finite d1 hh, d2, half_value]
      have c2 : lt 0x3F000000#32 (sub P a (floor P a)) = true ↔ 1/2 < value a - ⌊value a⌋ := by
        rw [lt_iff, flt_finite hh d1, d2, half_value]
      rw [← hfr] at c1 c2
      by_cases g1 : Int.fract (value a) < 1/2
      · rw [if_pos (c1.2 g1)]
        refine ⟨f1, ⌊value a⌋, ⟨?_, ?_⟩, f2⟩
        · rw [← hfr, abs_of_nonneg hfr0]; exact g1.le
        · rw [← hfr, abs_of_nonneg hfr0]; intro h; linarith
      · rw [if_neg (fun k => g1 (c1.1 k))]
        have hadd := add_one_exact P ⌊value a⌋ f1 f2 (by omega)
        have habs : |value a - ((⌊value a⌋ + 1 : ℤ) : ℝ)| = 1 - Int.fract (value a) := by
          push_cast; rw [show value a - (⌊value a⌋ + 1) = -(1 - Int.fract (value a)) by rw [hfr]; ring, abs_neg, abs_of_pos (by linarith)]
        by_cases g2 : 1/2 < Int.fract (value a)
        · rw [if_pos (c2.2 g2)]
          refine ⟨hadd.1, ⌊value a⌋ + 1, ⟨?_, ?_⟩, hadd.2⟩
          · rw [habs]; linarith
          · rw [habs]; intro h; linarith
        · rw [if_neg (fun k => g2 (c2.1 k))]
          have hhalf : Int.fract (value a) = 1/2 := by linarith
          have hp := parity_exact P ⌊value a⌋ f1 f2 (by omega)
          by_cases g3 : Even ⌊value a⌋
          · rw [if_pos (hp.2 g3)]
            refine ⟨f1, ⌊value a⌋, ⟨?_, fun _ => g3⟩, f2⟩
            rw [← hfr, abs_of_nonneg hfr0]; linarith
          · rw [if_neg (fun k => g3 (hp.1 k))]
            refine ⟨hadd.1, ⌊value a⌋ + 1, ⟨?_, fun _ => ?_⟩, hadd.2⟩
            · rw [habs]; linarith
            · exact Int.even_add_one.2 g3
    · have hx1 : value a < 0 := by by_contra h; exact hx (Or.inl (not_lt.1 h))
      have hx2 : -1/2 < value a := by by_contra h; exact hx (Or.inr (not_lt.1 h))
      have hfl : ⌊value a⌋ = -1 := by rw [Int.floor_eq_iff]; push_cast; constructor <;> linarith
      rw [hfl] at f2 hd
      have hov : |value a - ((-1 : ℤ) : ℝ)| < overflow := by
        push_cast; rw [abs_of_pos (by linarith)]; unfold overflow; norm_num; linarith
      have d1 := hd.finite hov
      have d2 := hd.nearest hov 0x3F000000#32 hh
      rw [half_value] at d2; push_cast at d2
      rw [abs_of_neg (by linarith : (1:ℝ)/2 - (value a - -1) < 0)] at d2
      have d3 : 1/2 ≤ value (sub P a (floor P a)) := by have := abs_le.1 d2; linarith
      rw [if_neg (by rw [lt_iff, flt_finite d1 hh, half_value]; linarith)]
      have hadd := add_one_exact P (-1) f1 f2 (by norm_num)
      have hne : NearestEven (value a) ((-1 : ℤ) + 1) := by
        refine ⟨?_, ?_⟩ <;> norm_num <;> rw [abs_of_neg hx1]
        · linarith
      have hp := parity_exact P (-1) f1 f2 (by norm_num)
      rw [if_neg (c := eq _ _ = true) (fun k => absurd (hp.1 k) (by decide))]
      split_ifs
      · exact ⟨hadd.1, _, hne, hadd.2⟩
      · exact ⟨hadd.1, _, hne, hadd.2⟩
  · obtain ⟨n, hn⟩ := big_int hs ha
    have hfl : ⌊value a⌋ = n := by rw [hn, Int.floor_intCast]
    rw [hfl] at f2 hd
    rw [hn, sub_self] at hd
    have := exact_of hd (by simpa using rep_int 0 (by norm_num))
    rw [if_pos (by rw [lt_iff, flt_finite this.1 hh, this.2, half_value]; norm_num)]
    refine ⟨f1, n, ⟨by rw [hn]; norm_num, by rw [hn]; norm_num⟩, f2⟩

theorem add_nan {a b : BitVec 32} (h : IsNaN a ∨ IsNaN b) : IsNaN (add P a b) := ((add_special P a b).1 h).1
theorem rtn_nan {a : BitVec 32} (ha : IsNaN a) : IsNaN (rtn P a) := by
  have h1 : IsNaN (floor P a) := toIntegral_nan P 9 _ ha
  have h2 : IsNaN (sub P a (floor P a)) := sub_nan P (Or.inl ha)
  have h3 : ∀ b, lt (sub P a (floor P a)) b = false := fun b => by
    unfold lt; rw [(isNaN_iff _).2 h2]; rfl
  have h4 : ∀ b, lt b (sub P a (floor P a)) = false := fun b => by
    unfold lt; rw [(isNaN_iff _).2 h2]; simp
  have h5 : ∀ b, eq b (floor P a) = false := fun b => by
    unfold eq; rw [(isNaN_iff _).2 h1]; simp
  unfold rtn; simp only [h3, h4, h5, Bool.false_eq_true, if_false]
  exact add_nan P (Or.inl h1)
theorem rtn_inf {a : BitVec 32} (ha : IsInf a) : rtn P a = a := by
  have h1 : floor P a = a := toIntegral_inf P 9 _ ha
  have h2 : IsNaN (sub P a a) := ((add_special P a a).2.2.2.1 ha ha).1 rfl |>.2
  have h3 : ∀ b, lt (sub P a a) b = false := fun b => by
    unfold lt; rw [(isNaN_iff _).2 h2]; rfl
  have h4 : ∀ b, lt b (sub P a a) = false := fun b => by
    unfold lt; rw [(isNaN_iff _).2 h2]; simp
  have am1 : am a = 0x7F800000 := by have := (isInf_iff a).2 ha; unfold isInf at this; simpa using this
  have eqinf : ∀ x, IsInf x → sg x = sg a → x = a := fun x hx hs => by
    refine ext_am hs ?_
    have := (isInf_iff x).2 hx; unfold isInf at this; rw [am1]; simpa using this
  have d1 : div P a 0x40000000#32 = a := by
    have := div_special P a 0x40000000#32
    refine eqinf _ (this.2.2.2.2.1 ha (by decide)) ?_
    rw [sg_eq, this.2.2.2.2.2.2 (not_nan_of_inf (this.2.2.2.2.1 ha (by decide))), sg_eq]
    rw [show signBit 0x40000000#32 = false by decide]; simp
  have t1 : trunc P a = a := toIntegral_inf P 8 _ ha
  have m1 : mul P 0x40000000#32 a = a := by
    have := mul_special P 0x40000000#32 a
    have hi : IsInf (mul P 0x40000000#32 a) := this.2.2.2.2.1 ha (by decide) (by
      rw [feq_finite (by decide) (by decide), two_value]
      have : value 0#32 = 0 := by rw [value_eq]; simp [ival, mag, magN, am, sg]
      rw [this]; norm_num)
    refine eqinf _ hi ?_
    rw [sg_eq, this.2.2.2.2.2 (not_nan_of_inf hi), sg_eq, show signBit 0x40000000#32 = false by decide]; simp
  have e1 : eq a a = true := by unfold eq; rw [isNaN_f (not_nan_of_inf ha)]; simp
  unfold rtn; simp only [h1, h3, h4, d1, t1, m1, e1, Bool.false_eq_true, if_false, if_true]

theorem and_sign (a : BitVec 32) : a &&& 0x80000000#32 = if sg a then 0x80000000#32 else 0#32 := by
  refine BitVec.eq_of_getLsbD_eq fun i hi => ?_
  rw [BitVec.getLsbD_and]
  by_cases h : i = 31
  · subst h
    have : a.getLsbD 31 = sg a := by unfold sg; rw [BitVec.msb_eq_getLsbD_last]
    rw [this]; cases sg a <;> decide
  · have h1 : (0x80000000#32 : BitVec 32).getLsbD i = false := by interval_cases i <;> first | decide | exact absurd rfl h
    rw [h1]; split_ifs
    · rw [h1]; simp
    · simp

end DXM.IEEE
