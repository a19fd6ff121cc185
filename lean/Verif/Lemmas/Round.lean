import Mathlib.Tactic.Linarith
import Mathlib.Tactic.Ring
import Mathlib.Tactic.Positivity
import Mathlib.Tactic.NormNum
import Mathlib.Algebra.Order.Ring.Abs
import Mathlib.Data.Nat.Log
import Verif.F32

/-
The rounding function of F32.lean, on natural numbers.
-/

set_option linter.all false

namespace DXM.IEEE

/-- `rne p q` is a nearest integer: twice the error is at most `q`; in case of a tie it is even. -/
theorem rne_spec (p q : ℕ) (hq : 0 < q) :
    2 * (rne p q * q) ≤ 2 * p + q ∧ 2 * p ≤ 2 * (rne p q * q) + q ∧
    (2 * (rne p q * q) = 2 * p + q → rne p q % 2 = 0) ∧ (2 * p = 2 * (rne p q * q) + q → rne p q % 2 = 0) := by
  have h := Nat.div_add_mod p q
  have hl := Nat.mod_lt p hq
  have hc : q * (p / q) = p / q * q := Nat.mul_comm _ _
  unfold rne
  split_ifs with h1 h2 h3
  · refine ⟨by omega, by omega, by omega, by omega⟩
  · have : (p / q + 1) * q = p / q * q + q := by ring
    refine ⟨by omega, by omega, by omega, by omega⟩
  · refine ⟨by omega, by omega, by omega, by omega⟩
  · have : (p / q + 1) * q = p / q * q + q := by ring
    refine ⟨by omega, by omega, by omega, by omega⟩

theorem rne_cases (p q : ℕ) : rne p q = p / q ∨ (rne p q = p / q + 1 ∧ q ≤ 2 * (p % q)) := by
  unfold rne; split_ifs <;> first | (left; rfl) | (right; exact ⟨rfl, by omega⟩)

theorem rne_mul (n q : ℕ) (hq : 0 < q) : rne (n * q) q = n := by
  unfold rne; simp [hq.ne', hq]

/-- Twice the distance from `p` to `z q`. -/
theorem rne_nearest (p q z : ℕ) (hq : 0 < q) : |((rne p q * q : ℕ) : ℤ) - p| ≤ |((z * q : ℕ) : ℤ) - p| := by
  obtain ⟨h1, h2, -, -⟩ := rne_spec p q hq
  rcases lt_trichotomy z (rne p q) with h | h | h
  · obtain ⟨d, hd⟩ := Nat.exists_eq_add_of_lt h
    have : rne p q * q = z * q + d * q + q := by rw [hd]; ring
    rw [abs_le]; constructor <;> rw [abs_of_nonpos (by push_cast at *; nlinarith [Nat.zero_le (d*q)])] <;> push_cast at * <;> nlinarith [Nat.zero_le (d*q)]
  · rw [h]
  · obtain ⟨d, hd⟩ := Nat.exists_eq_add_of_lt h
    have : z * q = rne p q * q + d * q + q := by rw [hd]; ring
    rw [abs_le]; constructor <;> rw [abs_of_nonneg (by push_cast at *; nlinarith [Nat.zero_le (d*q)])] <;> push_cast at * <;> nlinarith [Nat.zero_le (d*q)]

/-- A second nearest integer exists only in a tie, and then `rne` is the even one. -/
theorem rne_tie (p q z : ℕ) (hq : 0 < q) (hz : z ≠ rne p q) (h : |((z * q : ℕ) : ℤ) - p| = |((rne p q * q : ℕ) : ℤ) - p|) : rne p q % 2 = 0 := by
  obtain ⟨h1, h2, h3, h4⟩ := rne_spec p q hq
  rcases lt_or_gt_of_ne hz with hh | hh
  · obtain ⟨d, hd⟩ := Nat.exists_eq_add_of_lt hh
    have e : rne p q * q = z * q + d * q + q := by rw [hd]; ring
    apply h3
    have h5 : z * q ≤ p := by nlinarith [Nat.zero_le (d*q)]
    rw [abs_of_nonpos (by push_cast at *; linarith)] at h
    rcases abs_cases (((rne p q * q : ℕ) : ℤ) - p) with h6 | h6 <;> rw [h6.1] at h <;> push_cast at * <;> nlinarith [Nat.zero_le (d*q)]
  · obtain ⟨d, hd⟩ := Nat.exists_eq_add_of_lt hh
    have e : z * q = rne p q * q + d * q + q := by rw [hd]; ring
    apply h4
    have h5 : p ≤ z * q := by nlinarith [Nat.zero_le (d*q)]
    rw [abs_of_nonneg (by push_cast at *; linarith)] at h
    rcases abs_cases (((rne p q * q : ℕ) : ℤ) - p) with h6 | h6 <;> rw [h6.1] at h <;> push_cast at * <;> nlinarith [Nat.zero_le (d*q)]

/-- The exponent chosen by `roundN`. -/
def ke (p q : ℕ) : ℕ := Nat.log2 (p / q) - 23

theorem ke_upper (p q : ℕ) (hq : 0 < q) : p < q * 2 ^ (ke p q) * 2^24 := by
  have h : p / q < 2 ^ (Nat.log2 (p/q) + 1) := Nat.lt_log2_self
  have h2 : 2 ^ (Nat.log2 (p/q) + 1) ≤ 2 ^ (ke p q + 24) := Nat.pow_le_pow_right (by norm_num) (by unfold ke; omega)
  have h3 : p / q < 2 ^ (ke p q + 24) := by omega
  rw [Nat.div_lt_iff_lt_mul hq] at h3
  calc p < 2 ^ (ke p q + 24) * q := h3
    _ = _ := by rw [pow_add]; ring
theorem ke_lower (p q : ℕ) (hq : 0 < q) (h0 : ke p q ≠ 0) : q * 2 ^ (ke p q) * 2^23 ≤ p := by
  have hl : ke p q + 23 = Nat.log2 (p/q) := by unfold ke at *; omega
  have hne : p / q ≠ 0 := by intro h; unfold ke at h0; rw [h] at h0; simp at h0
  have h := Nat.log2_self_le hne
  rw [← hl, Nat.le_div_iff_mul_le hq] at h
  calc _ = 2 ^ (ke p q + 23) * q := by rw [pow_add]; ring
    _ ≤ p := h

/-- The significand chosen by `roundN`. -/
def qe (p q : ℕ) : ℕ := rne p (q * 2^(ke p q))

theorem qe_upper (p q : ℕ) (hq : 0 < q) : qe p q ≤ 2^24 := by
  have h := ke_upper p q hq
  have hs := (rne_spec p (q * 2^(ke p q)) (by positivity)).1
  have h0 : 0 < q * 2^(ke p q) := by positivity
  unfold qe
  generalize q * 2^(ke p q) = d at *
  by_contra hc
  have : 2^24 + 1 ≤ rne p d := by omega
  have := Nat.mul_le_mul_right d this
  nlinarith
theorem qe_lower (p q : ℕ) (hq : 0 < q) (hk : ke p q ≠ 0) : 2^23 ≤ qe p q := by
  have h := ke_lower p q hq hk
  have hs := (rne_spec p (q * 2^(ke p q)) (by positivity)).2.1
  have h0 : 0 < q * 2^(ke p q) := by positivity
  unfold qe
  generalize q * 2^(ke p q) = d at *
  by_contra hc
  have : rne p d + 1 ≤ 2^23 := by omega
  have := Nat.mul_le_mul_right d this
  nlinarith

/-- The number with exponent `k` and significand `r`. -/
theorem magN_kq (k r : ℕ) (h1 : r ≤ 2^24) (h2 : k = 0 ∨ 2^23 ≤ r) : magN (k * 2^23 + r) = r * 2^k := by
  unfold magN
  by_cases hr : r < 2^23
  · have : k = 0 := by omega
    subst this; simp; intro; omega
  · rw [if_neg (by omega)]
    by_cases h3 : r = 2^24
    · subst h3
      have e1 : (k * 2^23 + 2^24) % 2^23 = 0 := by omega
      have e2 : (k * 2^23 + 2^24) / 2^23 - 1 = k + 1 := by omega
      rw [e1, e2, pow_succ]; ring
    · have e1 : (k * 2^23 + r) % 2^23 = r - 2^23 := by omega
      have e2 : (k * 2^23 + r) / 2^23 - 1 = k := by omega
      rw [e1, e2, show 2^23 + (r - 2^23) = r by omega]

theorem roundN_eq (p q : ℕ) : roundN p q = min 0x7F800000 (ke p q * 2^23 + qe p q) := by
  simp only [roundN, ke, qe]

theorem magN_round (p q : ℕ) (hq : 0 < q) : magN (ke p q * 2^23 + qe p q) = qe p q * 2^(ke p q) :=
  magN_kq _ _ (qe_upper p q hq) (by by_cases h : ke p q = 0; exact Or.inl h; exact Or.inr (qe_lower p q hq h))

theorem magN_succ (n : ℕ) : magN n < magN (n + 1) := by
  by_cases h : n < 2^23
  · have := magN_kq 0 n (by omega) (Or.inl rfl)
    have h2 := magN_kq 0 (n+1) (by omega) (Or.inl rfl)
    simp at this h2; omega
  · have e1 := magN_kq (n / 2^23 - 1) (2^23 + n % 2^23) (by omega) (Or.inr (by omega))
    have e2 := magN_kq (n / 2^23 - 1) (2^23 + n % 2^23 + 1) (by omega) (Or.inr (by omega))
    rw [show (n / 2^23 - 1) * 2^23 + (2^23 + n % 2^23) = n by omega] at e1
    rw [show (n / 2^23 - 1) * 2^23 + (2^23 + n % 2^23 + 1) = n + 1 by omega] at e2
    rw [e1, e2]
    exact Nat.mul_lt_mul_of_pos_right (by omega) (by positivity)
theorem magN_strictMono : StrictMono magN := strictMono_nat_of_lt_succ magN_succ
theorem magN_inj {a b : ℕ} (h : magN a = magN b) : a = b := magN_strictMono.injective h
theorem magN_zero : magN 0 = 0 := rfl
theorem magN_eq_zero {n : ℕ} : magN n = 0 ↔ n = 0 := ⟨fun h => magN_inj (by rw [h, magN_zero]), fun h => by rw [h]; rfl⟩

/-- Numbers at least 2^(23+k) are multiples of 2^k. -/
theorem magN_grid (m k : ℕ) (h : 2^(23 + k) ≤ magN m) : ∃ z, magN m = z * 2^k ∧ (z % 2 = 1 → k * 2^23 + 2^23 ≤ m ∧ m % 2 = 1) := by
  by_cases hm : m < 2^23
  · have e : magN m = m := by unfold magN; rw [if_pos hm]
    rw [e] at h
    have : 2^23 ≤ 2^(23 + k) := Nat.pow_le_pow_right (by norm_num) (by omega)
    omega
  · have e : magN m = (2^23 + m % 2^23) * 2^(m / 2^23 - 1) := by unfold magN; rw [if_neg hm]
    have hk : k ≤ m / 2^23 - 1 := by
      by_contra hc
      have h2 : (2^23 + m % 2^23) * 2^(m / 2^23 - 1) < 2^(23+k) := by
        calc (2^23 + m % 2^23) * 2^(m / 2^23 - 1) < 2^24 * 2^(m / 2^23 - 1) := Nat.mul_lt_mul_of_pos_right (by omega) (by positivity)
          _ = 2^(24 + (m / 2^23 - 1)) := by rw [pow_add]
          _ ≤ 2^(23 + k) := Nat.pow_le_pow_right (by norm_num) (by omega)
      omega
    obtain ⟨d, hd⟩ := Nat.exists_eq_add_of_le hk
    refine ⟨(2^23 + m % 2^23) * 2^d, ?_, ?_⟩
    · rw [e, hd, pow_add]; ring
    · intro ho
      have hd0 : d = 0 := by
        by_contra hc
        obtain ⟨d', rfl⟩ := Nat.exists_eq_succ_of_ne_zero hc
        rw [pow_succ (n := d'), ← mul_assoc] at ho; omega
      subst hd0
      simp at ho
      have : k * 2^23 + 2^23 ≤ m := by
        have : (k + 1) ≤ m / 2^23 := by omega
        have := Nat.mul_le_mul_right (2^23) this
        omega
      exact ⟨this, by omega⟩

/-- The rounded pattern (without the overflow cap). -/
def roundU (p q : ℕ) : ℕ := ke p q * 2^23 + qe p q

/-- `roundU` is a nearest pattern of the number `p / q` (in units of 2^-149). -/
theorem roundU_nearest (p q m : ℕ) (hq : 0 < q) : |((magN (roundU p q) * q : ℕ) : ℤ) - p| ≤ |((magN m * q : ℕ) : ℤ) - p| := by
  rw [roundU, magN_round p q hq]
  have hd : 0 < q * 2^(ke p q) := by positivity
  have e : ∀ z, z * 2^(ke p q) * q = z * (q * 2^(ke p q)) := by intro z; ring
  rw [e]
  by_cases h : 2^(23 + ke p q) ≤ magN m
  · obtain ⟨z, hz, -⟩ := magN_grid m _ h
    rw [hz, e]
    exact rne_nearest _ _ _ hd
  · by_cases hk : ke p q = 0
    · have : magN m = magN m * 2^(ke p q) := by rw [hk]; ring
      rw [this, e]; exact rne_nearest _ _ _ hd
    · refine (rne_nearest p _ (2^23) hd).trans ?_
      have hl := ke_lower p q hq hk
      have h1 : magN m * q ≤ 2^23 * (q * 2^(ke p q)) := by
        calc magN m * q ≤ 2^(23 + ke p q) * q := Nat.mul_le_mul_right _ (by omega)
          _ = _ := by rw [pow_add]; ring
      have h2 : 2^23 * (q * 2^(ke p q)) ≤ p := by rw [mul_comm]; exact hl
      rw [abs_of_nonpos (by push_cast at *; linarith [(by exact_mod_cast h2 : (2^23 * (q * 2^(ke p q)) : ℤ) ≤ p)]), abs_of_nonpos (by have : magN m * q ≤ p := h1.trans h2; push_cast; linarith [(by exact_mod_cast this : (magN m * q : ℤ) ≤ p)])]
      have : ((magN m * q : ℕ) : ℤ) ≤ ((2^23 * (q * 2^(ke p q)) : ℕ) : ℤ) := by exact_mod_cast h1
      linarith

/-- In a tie the rounded pattern is even. -/
theorem roundU_tie (p q m : ℕ) (hq : 0 < q) (hm : m ≠ roundU p q) (h : |((magN m * q : ℕ) : ℤ) - p| = |((magN (roundU p q) * q : ℕ) : ℤ) - p|) : roundU p q % 2 = 0 := by
  rw [roundU, magN_round p q hq] at h
  have hd : 0 < q * 2^(ke p q) := by positivity
  have e : ∀ z, z * 2^(ke p q) * q = z * (q * 2^(ke p q)) := by intro z; ring
  rw [e] at h
  have key : ∀ z, magN m = z * 2^(ke p q) → roundU p q % 2 = 0 := by
    intro z hz
    rw [hz, e] at h
    have hne : z ≠ rne p (q * 2^(ke p q)) := by
      intro hc
      apply hm; apply magN_inj
      rw [roundU, magN_round p q hq, hz, hc]; rfl
    have := rne_tie _ _ _ hd hne h
    unfold roundU qe; omega
  by_cases hg : 2^(23 + ke p q) ≤ magN m
  · obtain ⟨z, hz, -⟩ := magN_grid m _ hg
    exact key z hz
  · by_cases hk : ke p q = 0
    · exact key (magN m) (by rw [hk]; ring)
    · exfalso
      have hn := rne_nearest p _ (2^23) hd
      have hl := ke_lower p q hq hk
      have h1 : magN m * q < 2^23 * (q * 2^(ke p q)) := by
        calc magN m * q < 2^(23 + ke p q) * q := Nat.mul_lt_mul_of_pos_right (by omega) hq
          _ = _ := by rw [pow_add]; ring
      have h2 : 2^23 * (q * 2^(ke p q)) ≤ p := by rw [mul_comm]; exact hl
      have h3 : ((2^23 * (q * 2^(ke p q)) : ℕ) : ℤ) ≤ p := by exact_mod_cast h2
      have h4 : ((magN m * q : ℕ) : ℤ) < ((2^23 * (q * 2^(ke p q)) : ℕ) : ℤ) := by exact_mod_cast h1
      rw [abs_of_nonpos (a := ((2^23 * (q * 2^(ke p q)) : ℕ) : ℤ) - p) (by linarith)] at hn
      rw [abs_of_nonpos (a := ((magN m * q : ℕ) : ℤ) - p) (by linarith)] at h
      unfold qe at h
      linarith

/-- Numbers of the format are fixed. -/
theorem roundU_exact (m q : ℕ) (hq : 0 < q) : roundU (magN m * q) q = m := by
  have h := roundU_nearest (magN m * q) q m hq
  simp only [sub_self, abs_zero] at h
  have h2 : ((magN (roundU (magN m * q) q) * q : ℕ) : ℤ) - ((magN m * q : ℕ) : ℤ) = 0 := abs_nonpos_iff.mp h
  have h3 : magN (roundU (magN m * q) q) * q = magN m * q := by omega
  exact magN_inj (Nat.eq_of_mul_eq_mul_right hq h3)

/-- The error is at most half a unit in the last place. -/
theorem roundU_error (p q : ℕ) (hq : 0 < q) :
    2 * |((magN (roundU p q) * q : ℕ) : ℤ) - p| ≤ q * 2^(ke p q) := by
  rw [roundU, magN_round p q hq]
  obtain ⟨h1, h2, -, -⟩ := rne_spec p (q * 2^(ke p q)) (by positivity)
  have e : qe p q * 2^(ke p q) * q = rne p (q * 2^(ke p q)) * (q * 2^(ke p q)) := by unfold qe; ring
  rw [e]
  generalize rne p (q * 2^(ke p q)) * (q * 2^(ke p q)) = x at *
  have h1' : (2 * x : ℤ) ≤ 2 * p + q * 2^(ke p q) := by exact_mod_cast h1
  have h2' : (2 * p : ℤ) ≤ 2 * x + q * 2^(ke p q) := by exact_mod_cast h2
  rcases abs_cases ((x : ℤ) - p) with h | h <;> rw [h.1] <;> linarith

/-- Relative error 2^-24, or absolute error half a unit. -/
theorem roundU_rel (p q : ℕ) (hq : 0 < q) :
    2 * |((magN (roundU p q) * q : ℕ) : ℤ) - p| ≤ q ∨ 2^24 * |((magN (roundU p q) * q : ℕ) : ℤ) - p| ≤ p := by
  have h := roundU_error p q hq
  by_cases hk : ke p q = 0
  · left; rw [hk] at h; simpa using h
  · right
    have hl := ke_lower p q hq hk
    have hl' : (q * 2^(ke p q) * 2^23 : ℤ) ≤ p := by exact_mod_cast hl
    linarith

/-- Monotone in the exact value. -/
theorem roundU_mono (p q p' q' : ℕ) (hq : 0 < q) (hq' : 0 < q') (h : p * q' < p' * q) : roundU p q ≤ roundU p' q' := by
  by_contra hc
  have hm := magN_strictMono (not_le.mp hc)
  have h1 := roundU_nearest p q (roundU p' q') hq
  have h2 := roundU_nearest p' q' (roundU p q) hq'
  set a := magN (roundU p q)
  set b := magN (roundU p' q')
  have hab : (b : ℤ) < a := by exact_mod_cast hm
  have hqz : (0 : ℤ) < q := by exact_mod_cast hq
  have hqz' : (0 : ℤ) < q' := by exact_mod_cast hq'
  -- p/q ≥ (a+b)/2 and p'/q' ≤ (a+b)/2
  have k1 : ((a : ℤ) + b) * q ≤ 2 * p := by
    by_contra hn
    push Not at hn
    have : (b : ℤ) * q < a * q := by nlinarith
    rw [abs_le] at h1
    push_cast at h1
    rcases abs_cases ((b : ℤ) * q - p) with h6 | h6 <;> rw [h6.1] at h1 <;> nlinarith
  have k2 : 2 * (p' : ℤ) ≤ ((a : ℤ) + b) * q' := by
    by_contra hn
    push Not at hn
    have : (b : ℤ) * q' < a * q' := by nlinarith
    rw [abs_le] at h2
    push_cast at h2
    rcases abs_cases ((a : ℤ) * q' - p') with h6 | h6 <;> rw [h6.1] at h2 <;> nlinarith
  have hz : (p * q' : ℤ) < p' * q := by exact_mod_cast h
  nlinarith [mul_le_mul_of_nonneg_right k1 hqz'.le, mul_le_mul_of_nonneg_right k2 hqz.le]

/-- The overflow threshold: half way between the largest finite number and the next power of two. -/
theorem roundU_finite (p q : ℕ) (hq : 0 < q) : roundU p q < 0x7F800000 ↔ 2 * p < 33554431 * 2^253 * q := by
  have e1 : magN 0x7F7FFFFF = 16777215 * 2^253 := by decide +kernel
  have e2 : magN 0x7F800000 = 16777216 * 2^253 := by decide +kernel
  have hD : 0 < 2^253 := by positivity
  generalize 2^253 = D at *
  constructor
  · intro h
    by_contra hc
    push Not at hc
    have hle : magN (roundU p q) ≤ 16777215*D := by rw [← e1]; exact magN_strictMono.monotone (by omega)
    have hn := roundU_nearest p q 0x7F800000 hq
    rw [e2] at hn
    by_cases ht : magN (roundU p q) = 16777215*D ∧ 2 * p = 33554431 * D * q
    · have ho := roundU_tie p q 0x7F800000 hq (by omega) (by
        rw [e2, ht.1]
        have : 2 * (p : ℤ) = 33554431 * D * q := by exact_mod_cast ht.2
        have hqz : (0 : ℤ) < q := by exact_mod_cast hq
        push_cast
        rw [abs_of_nonneg (by linarith), abs_of_nonpos (by linarith)]; linarith)
      have := magN_inj (ht.1.trans e1.symm)
      omega
    · have hqz : (0 : ℤ) < q := by exact_mod_cast hq
      have hc' : (33554431 * D * q : ℤ) ≤ 2 * p := by exact_mod_cast hc
      have hle' : (magN (roundU p q) : ℤ) ≤ 16777215*D := by exact_mod_cast hle
      have hleq := mul_le_mul_of_nonneg_right hle' hqz.le
      push_cast at hn
      have hbig : (magN (roundU p q) : ℤ) * q - p ≤ 0 := by nlinarith
      rw [abs_of_nonpos hbig] at hn
      rcases abs_cases ((16777216 * D * q : ℤ) - p) with h6 | h6 <;> rw [h6.1] at hn
      · apply ht
        have a1 : (magN (roundU p q) : ℤ) * q = 16777215*D * q := by linarith
        have a2 : 2 * (p : ℤ) = 33554431 * D * q := by linarith
        constructor
        · have := mul_right_cancel₀ hqz.ne' a1
          exact_mod_cast this
        · exact_mod_cast a2
      · nlinarith
  · intro h
    by_contra hc
    push Not at hc
    have hle : 16777216*D ≤ magN (roundU p q) := by rw [← e2]; exact magN_strictMono.monotone hc
    have hn := roundU_nearest p q 0x7F7FFFFF hq
    rw [e1] at hn
    have hqz : (0 : ℤ) < q := by exact_mod_cast hq
    have h' : 2 * (p : ℤ) < 33554431 * D * q := by exact_mod_cast h
    have hle' : ((16777216 * D : ℕ) : ℤ) ≤ magN (roundU p q) := by exact_mod_cast hle
    have hleq := mul_le_mul_of_nonneg_right hle' hqz.le
    push_cast at hn
    rw [abs_of_nonneg (a := (magN (roundU p q) : ℤ) * q - p) (by nlinarith)] at hn
    rcases abs_cases ((16777215 * D * q : ℤ) - p) with h6 | h6 <;> rw [h6.1] at hn <;> nlinarith

theorem roundN_min (p q : ℕ) : roundN p q = min 0x7F800000 (roundU p q) := roundN_eq p q

end DXM.IEEE
