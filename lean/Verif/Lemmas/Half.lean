import Mathlib.Tactic.FieldSimp
import Verif.Lemmas.IEEE
import Verif.Spec.Half
import Verif.Model.Convert

/-
Half precision: correct rounding.  The development of Lemmas/Round.lean and Lemmas/IEEE.lean with 10 fraction bits, 5 exponent bits and
unit 2^-24 instead of 23, 8 and 2^-149.
-/

set_option linter.all false

namespace DXM.Half
open DXM.Spec.Half
open DXM.IEEE (rne rne_spec rne_cases rne_mul rne_nearest rne_tie)

def am (b : BitVec 16) : Nat := b.toNat % 2^15
def sg (b : BitVec 16) : Bool := b.msb
def isNaN (b : BitVec 16) : Bool := 0x7C00 < am b
def isInf (b : BitVec 16) : Bool := am b = 0x7C00
def mag (b : BitVec 16) : Nat := magH (am b)
def ival (b : BitVec 16) : Int := if sg b then -(mag b : Int) else mag b
def mk (s : Bool) (n : Nat) : BitVec 16 := BitVec.ofNat 16 (n + if s then 2^15 else 0)

/-- The exponent chosen by `roundH`. -/
def ke (p q : ℕ) : ℕ := Nat.log2 (p / q) - 10

theorem ke_upper (p q : ℕ) (hq : 0 < q) : p < q * 2 ^ (ke p q) * 2^11 := by
  have h : p / q < 2 ^ (Nat.log2 (p/q) + 1) := Nat.lt_log2_self
  have h2 : 2 ^ (Nat.log2 (p/q) + 1) ≤ 2 ^ (ke p q + 11) := Nat.pow_le_pow_right (by norm_num) (by unfold ke; omega)
  have h3 : p / q < 2 ^ (ke p q + 11) := by omega
  rw [Nat.div_lt_iff_lt_mul hq] at h3
  calc p < 2 ^ (ke p q + 11) * q := h3
    _ = _ := by rw [pow_add]; ring
theorem ke_lower (p q : ℕ) (hq : 0 < q) (h0 : ke p q ≠ 0) : q * 2 ^ (ke p q) * 2^10 ≤ p := by
  have hl : ke p q + 10 = Nat.log2 (p/q) := by unfold ke at *; omega
  have hne : p / q ≠ 0 := by intro h; unfold ke at h0; rw [h] at h0; simp at h0
  have h := Nat.log2_self_le hne
  rw [← hl, Nat.le_div_iff_mul_le hq] at h
  calc _ = 2 ^ (ke p q + 10) * q := by rw [pow_add]; ring
    _ ≤ p := h

/-- The significand chosen by `roundH`. -/
def qe (p q : ℕ) : ℕ := rne p (q * 2^(ke p q))

theorem qe_upper (p q : ℕ) (hq : 0 < q) : qe p q ≤ 2^11 := by
  have h := ke_upper p q hq
  have hs := (rne_spec p (q * 2^(ke p q)) (by positivity)).1
  have h0 : 0 < q * 2^(ke p q) := by positivity
  unfold qe
  generalize q * 2^(ke p q) = d at *
  by_contra hc
  have : 2^11 + 1 ≤ rne p d := by omega
  have := Nat.mul_le_mul_right d this
  nlinarith
theorem qe_lower (p q : ℕ) (hq : 0 < q) (hk : ke p q ≠ 0) : 2^10 ≤ qe p q := by
  have h := ke_lower p q hq hk
  have hs := (rne_spec p (q * 2^(ke p q)) (by positivity)).2.1
  have h0 : 0 < q * 2^(ke p q) := by positivity
  unfold qe
  generalize q * 2^(ke p q) = d at *
  by_contra hc
  have : rne p d + 1 ≤ 2^10 := by omega
  have := Nat.mul_le_mul_right d this
  nlinarith

/-- The number with exponent `k` and significand `r`. -/
theorem magH_kq (k r : ℕ) (h1 : r ≤ 2^11) (h2 : k = 0 ∨ 2^10 ≤ r) : magH (k * 2^10 + r) = r * 2^k := by
  unfold magH
  by_cases hr : r < 2^10
  · have : k = 0 := by omega
    subst this; simp; intro; omega
  · rw [if_neg (by omega)]
    by_cases h3 : r = 2^11
    · subst h3
      have e1 : (k * 2^10 + 2^11) % 2^10 = 0 := by omega
      have e2 : (k * 2^10 + 2^11) / 2^10 - 1 = k + 1 := by omega
      rw [e1, e2, pow_succ]; ring
    · have e1 : (k * 2^10 + r) % 2^10 = r - 2^10 := by omega
      have e2 : (k * 2^10 + r) / 2^10 - 1 = k := by omega
      rw [e1, e2, show 2^10 + (r - 2^10) = r by omega]

theorem roundH_eq (p q : ℕ) : roundH p q = min 0x7C00 (ke p q * 2^10 + qe p q) := by
  simp only [roundH, ke, qe]

theorem magH_round (p q : ℕ) (hq : 0 < q) : magH (ke p q * 2^10 + qe p q) = qe p q * 2^(ke p q) :=
  magH_kq _ _ (qe_upper p q hq) (by by_cases h : ke p q = 0; exact Or.inl h; exact Or.inr (qe_lower p q hq h))

theorem magH_succ (n : ℕ) : magH n < magH (n + 1) := by
  by_cases h : n < 2^10
  · have := magH_kq 0 n (by omega) (Or.inl rfl)
    have h2 := magH_kq 0 (n+1) (by omega) (Or.inl rfl)
    simp at this h2; omega
  · have e1 := magH_kq (n / 2^10 - 1) (2^10 + n % 2^10) (by omega) (Or.inr (by omega))
    have e2 := magH_kq (n / 2^10 - 1) (2^10 + n % 2^10 + 1) (by omega) (Or.inr (by omega))
    rw [show (n / 2^10 - 1) * 2^10 + (2^10 + n % 2^10) = n by omega] at e1
    rw [show (n / 2^10 - 1) * 2^10 + (2^10 + n % 2^10 + 1) = n + 1 by omega] at e2
    rw [e1, e2]
    exact Nat.mul_lt_mul_of_pos_right (by omega) (by positivity)
theorem magH_strictMono : StrictMono magH := strictMono_nat_of_lt_succ magH_succ
theorem magH_inj {a b : ℕ} (h : magH a = magH b) : a = b := magH_strictMono.injective h
theorem magH_zero : magH 0 = 0 := rfl
theorem magH_eq_zero {n : ℕ} : magH n = 0 ↔ n = 0 := ⟨fun h => magH_inj (by rw [h, magH_zero]), fun h => by rw [h]; rfl⟩

/-- Numbers at least 2^(10+k) are multiples of 2^k. -/
theorem magH_grid (m k : ℕ) (h : 2^(10 + k) ≤ magH m) : ∃ z, magH m = z * 2^k ∧ (z % 2 = 1 → k * 2^10 + 2^10 ≤ m ∧ m % 2 = 1) := by
  by_cases hm : m < 2^10
  · have e : magH m = m := by unfold magH; rw [if_pos hm]
    rw [e] at h
    have : 2^10 ≤ 2^(10 + k) := Nat.pow_le_pow_right (by norm_num) (by omega)
    omega
  · have e : magH m = (2^10 + m % 2^10) * 2^(m / 2^10 - 1) := by unfold magH; rw [if_neg hm]
    have hk : k ≤ m / 2^10 - 1 := by
      by_contra hc
      have h2 : (2^10 + m % 2^10) * 2^(m / 2^10 - 1) < 2^(10+k) := by
        calc (2^10 + m % 2^10) * 2^(m / 2^10 - 1) < 2^11 * 2^(m / 2^10 - 1) := Nat.mul_lt_mul_of_pos_right (by omega) (by positivity)
          _ = 2^(11 + (m / 2^10 - 1)) := by rw [pow_add]
          _ ≤ 2^(10 + k) := Nat.pow_le_pow_right (by norm_num) (by omega)
      omega
    obtain ⟨d, hd⟩ := Nat.exists_eq_add_of_le hk
    refine ⟨(2^10 + m % 2^10) * 2^d, ?_, ?_⟩
    · rw [e, hd, pow_add]; ring
    · intro ho
      have hd0 : d = 0 := by
        by_contra hc
        obtain ⟨d', rfl⟩ := Nat.exists_eq_succ_of_ne_zero hc
        rw [pow_succ (n := d'), ← mul_assoc] at ho; omega
      subst hd0
      simp at ho
      have : k * 2^10 + 2^10 ≤ m := by
        have : (k + 1) ≤ m / 2^10 := by omega
        have := Nat.mul_le_mul_right (2^10) this
        omega
      exact ⟨this, by omega⟩

/-- The rounded pattern (without the overflow cap). -/
def roundU (p q : ℕ) : ℕ := ke p q * 2^10 + qe p q

/-- `roundU` is a nearest pattern of the number `p / q` (in units of 2^-24). -/
theorem roundU_nearest (p q m : ℕ) (hq : 0 < q) : |((magH (roundU p q) * q : ℕ) : ℤ) - p| ≤ |((magH m * q : ℕ) : ℤ) - p| := by
  rw [roundU, magH_round p q hq]
  have hd : 0 < q * 2^(ke p q) := by positivity
  have e : ∀ z, z * 2^(ke p q) * q = z * (q * 2^(ke p q)) := by intro z; ring
  rw [e]
  by_cases h : 2^(10 + ke p q) ≤ magH m
  · obtain ⟨z, hz, -⟩ := magH_grid m _ h
    rw [hz, e]
    exact rne_nearest _ _ _ hd
  · by_cases hk : ke p q = 0
    · have : magH m = magH m * 2^(ke p q) := by rw [hk]; ring
      rw [this, e]; exact rne_nearest _ _ _ hd
    · refine (rne_nearest p _ (2^10) hd).trans ?_
      have hl := ke_lower p q hq hk
      have h1 : magH m * q ≤ 2^10 * (q * 2^(ke p q)) := by
        calc magH m * q ≤ 2^(10 + ke p q) * q := Nat.mul_le_mul_right _ (by omega)
          _ = _ := by rw [pow_add]; ring
      have h2 : 2^10 * (q * 2^(ke p q)) ≤ p := by rw [mul_comm]; exact hl
      rw [abs_of_nonpos (by push_cast at *; linarith [(by exact_mod_cast h2 : (2^10 * (q * 2^(ke p q)) : ℤ) ≤ p)]), abs_of_nonpos (by have : magH m * q ≤ p := h1.trans h2; push_cast; linarith [(by exact_mod_cast this : (magH m * q : ℤ) ≤ p)])]
      have : ((magH m * q : ℕ) : ℤ) ≤ ((2^10 * (q * 2^(ke p q)) : ℕ) : ℤ) := by exact_mod_cast h1
      linarith

/-- In a tie the rounded pattern is even. -/
theorem roundU_tie (p q m : ℕ) (hq : 0 < q) (hm : m ≠ roundU p q) (h : |((magH m * q : ℕ) : ℤ) - p| = |((magH (roundU p q) * q : ℕ) : ℤ) - p|) : roundU p q % 2 = 0 := by
  rw [roundU, magH_round p q hq] at h
  have hd : 0 < q * 2^(ke p q) := by positivity
  have e : ∀ z, z * 2^(ke p q) * q = z * (q * 2^(ke p q)) := by intro z; ring
  rw [e] at h
  have key : ∀ z, magH m = z * 2^(ke p q) → roundU p q % 2 = 0 := by
    intro z hz
    rw [hz, e] at h
    have hne : z ≠ rne p (q * 2^(ke p q)) := by
      intro hc
      apply hm; apply magH_inj
      rw [roundU, magH_round p q hq, hz, hc]; rfl
    have := rne_tie _ _ _ hd hne h
    unfold roundU qe; omega
  by_cases hg : 2^(10 + ke p q) ≤ magH m
  · obtain ⟨z, hz, -⟩ := magH_grid m _ hg
    exact key z hz
  · by_cases hk : ke p q = 0
    · exact key (magH m) (by rw [hk]; ring)
    · exfalso
      have hn := rne_nearest p _ (2^10) hd
      have hl := ke_lower p q hq hk
      have h1 : magH m * q < 2^10 * (q * 2^(ke p q)) := by
        calc magH m * q < 2^(10 + ke p q) * q := Nat.mul_lt_mul_of_pos_right (by omega) hq
          _ = _ := by rw [pow_add]; ring
      have h2 : 2^10 * (q * 2^(ke p q)) ≤ p := by rw [mul_comm]; exact hl
      have h3 : ((2^10 * (q * 2^(ke p q)) : ℕ) : ℤ) ≤ p := by exact_mod_cast h2
      have h4 : ((magH m * q : ℕ) : ℤ) < ((2^10 * (q * 2^(ke p q)) : ℕ) : ℤ) := by exact_mod_cast h1
      rw [abs_of_nonpos (a := ((2^10 * (q * 2^(ke p q)) : ℕ) : ℤ) - p) (by linarith)] at hn
      rw [abs_of_nonpos (a := ((magH m * q : ℕ) : ℤ) - p) (by linarith)] at h
      unfold qe at h
      linarith

/-- Numbers of the format are fixed. -/
theorem roundU_exact (m q : ℕ) (hq : 0 < q) : roundU (magH m * q) q = m := by
  have h := roundU_nearest (magH m * q) q m hq
  simp only [sub_self, abs_zero] at h
  have h2 : ((magH (roundU (magH m * q) q) * q : ℕ) : ℤ) - ((magH m * q : ℕ) : ℤ) = 0 := abs_nonpos_iff.mp h
  have h3 : magH (roundU (magH m * q) q) * q = magH m * q := by omega
  exact magH_inj (Nat.eq_of_mul_eq_mul_right hq h3)

/-- The error is at most half a unit in the last place. -/
theorem roundU_error (p q : ℕ) (hq : 0 < q) :
    2 * |((magH (roundU p q) * q : ℕ) : ℤ) - p| ≤ q * 2^(ke p q) := by
  rw [roundU, magH_round p q hq]
  obtain ⟨h1, h2, -, -⟩ := rne_spec p (q * 2^(ke p q)) (by positivity)
  have e : qe p q * 2^(ke p q) * q = rne p (q * 2^(ke p q)) * (q * 2^(ke p q)) := by unfold qe; ring
  rw [e]
  generalize rne p (q * 2^(ke p q)) * (q * 2^(ke p q)) = x at *
  have h1' : (2 * x : ℤ) ≤ 2 * p + q * 2^(ke p q) := by exact_mod_cast h1
  have h2' : (2 * p : ℤ) ≤ 2 * x + q * 2^(ke p q) := by exact_mod_cast h2
  rcases abs_cases ((x : ℤ) - p) with h | h <;> rw [h.1] <;> linarith

/-- Relative error 2^-11, or absolute error half a unit. -/
theorem roundU_rel (p q : ℕ) (hq : 0 < q) :
    2 * |((magH (roundU p q) * q : ℕ) : ℤ) - p| ≤ q ∨ 2^11 * |((magH (roundU p q) * q : ℕ) : ℤ) - p| ≤ p := by
  have h := roundU_error p q hq
  by_cases hk : ke p q = 0
  · left; rw [hk] at h; simpa using h
  · right
    have hl := ke_lower p q hq hk
    have hl' : (q * 2^(ke p q) * 2^10 : ℤ) ≤ p := by exact_mod_cast hl
    linarith

/-- Monotone in the exact value. -/
theorem roundU_mono (p q p' q' : ℕ) (hq : 0 < q) (hq' : 0 < q') (h : p * q' < p' * q) : roundU p q ≤ roundU p' q' := by
  by_contra hc
  have hm := magH_strictMono (not_le.mp hc)
  have h1 := roundU_nearest p q (roundU p' q') hq
  have h2 := roundU_nearest p' q' (roundU p q) hq'
  set a := magH (roundU p q)
  set b := magH (roundU p' q')
  have hab : (b : ℤ) < a := by exact_mod_cast hm
  have hqz : (0 : ℤ) < q := by exact_mod_cast hq
  have hqz' : (0 : ℤ) < q' := by exact_mod_cast hq'
  -- p/q ≥ (a+b)/2 and p'/q' ≤ (a+b)/2
  have k1 : ((a : ℤ) + b) * q ≤ 2 * p := by
    by_contra hn
    push Not at hn
    have : (b : ℤ) * q < a * q := by nlinarith
    rw [abs_le] at h1
    push_cast at h1
    rcases abs_cases ((b : ℤ) * q - p) with h6 | h6 <;> rw [h6.1] at h1 <;> nlinarith
  have k2 : 2 * (p' : ℤ) ≤ ((a : ℤ) + b) * q' := by
    by_contra hn
    push Not at hn
    have : (b : ℤ) * q' < a * q' := by nlinarith
    rw [abs_le] at h2
    push_cast at h2
    rcases abs_cases ((a : ℤ) * q' - p') with h6 | h6 <;> rw [h6.1] at h2 <;> nlinarith
  have hz : (p * q' : ℤ) < p' * q := by exact_mod_cast h
  nlinarith [mul_le_mul_of_nonneg_right k1 hqz'.le, mul_le_mul_of_nonneg_right k2 hqz.le]

/-- The overflow threshold: half way between the largest finite number and the next power of two. -/
theorem roundU_finite (p q : ℕ) (hq : 0 < q) : roundU p q < 0x7C00 ↔ 2 * p < 4095 * 2^29 * q := by
  have e1 : magH 0x7BFF = 2047 * 2^29 := by decide +kernel
  have e2 : magH 0x7C00 = 2048 * 2^29 := by decide +kernel
  have hD : 0 < 2^29 := by positivity
  generalize 2^29 = D at *
  constructor
  · intro h
    by_contra hc
    push Not at hc
    have hle : magH (roundU p q) ≤ 2047*D := by rw [← e1]; exact magH_strictMono.monotone (by omega)
    have hn := roundU_nearest p q 0x7C00 hq
    rw [e2] at hn
    by_cases ht : magH (roundU p q) = 2047*D ∧ 2 * p = 4095 * D * q
    · have ho := roundU_tie p q 0x7C00 hq (by omega) (by
        rw [e2, ht.1]
        have : 2 * (p : ℤ) = 4095 * D * q := by exact_mod_cast ht.2
        have hqz : (0 : ℤ) < q := by exact_mod_cast hq
        push_cast
        rw [abs_of_nonneg (by linarith), abs_of_nonpos (by linarith)]; linarith)
      have := magH_inj (ht.1.trans e1.symm)
      omega
    · have hqz : (0 : ℤ) < q := by exact_mod_cast hq
      have hc' : (4095 * D * q : ℤ) ≤ 2 * p := by exact_mod_cast hc
      have hle' : (magH (roundU p q) : ℤ) ≤ 2047*D := by exact_mod_cast hle
      have hleq := mul_le_mul_of_nonneg_right hle' hqz.le
      push_cast at hn
      have hbig : (magH (roundU p q) : ℤ) * q - p ≤ 0 := by nlinarith
      rw [abs_of_nonpos hbig] at hn
      rcases abs_cases ((2048 * D * q : ℤ) - p) with h6 | h6 <;> rw [h6.1] at hn
      · apply ht
        have a1 : (magH (roundU p q) : ℤ) * q = 2047*D * q := by linarith
        have a2 : 2 * (p : ℤ) = 4095 * D * q := by linarith
        constructor
        · have := mul_right_cancel₀ hqz.ne' a1
          exact_mod_cast this
        · exact_mod_cast a2
      · nlinarith
  · intro h
    by_contra hc
    push Not at hc
    have hle : 2048*D ≤ magH (roundU p q) := by rw [← e2]; exact magH_strictMono.monotone hc
    have hn := roundU_nearest p q 0x7BFF hq
    rw [e1] at hn
    have hqz : (0 : ℤ) < q := by exact_mod_cast hq
    have h' : 2 * (p : ℤ) < 4095 * D * q := by exact_mod_cast h
    have hle' : ((2048 * D : ℕ) : ℤ) ≤ magH (roundU p q) := by exact_mod_cast hle
    have hleq := mul_le_mul_of_nonneg_right hle' hqz.le
    push_cast at hn
    rw [abs_of_nonneg (a := (magH (roundU p q) : ℤ) * q - p) (by nlinarith)] at hn
    rcases abs_cases ((2047 * D * q : ℤ) - p) with h6 | h6 <;> rw [h6.1] at hn <;> nlinarith

theorem roundH_min (p q : ℕ) : roundH p q = min 0x7C00 (roundU p q) := roundH_eq p q

theorem sg_eq (b : BitVec 16) : sg b = signBit b := rfl
theorem sg_iff (b : BitVec 16) : sg b = true ↔ 2^15 ≤ b.toNat := by
  unfold sg; rw [BitVec.msb_eq_decide]; simp
theorem am_fields (b : BitVec 16) : am b = expField b * 2^10 + fracField b := by
  unfold am expField fracField; have := b.isLt; omega
theorem am_lt (b : BitVec 16) : am b < 2^15 := by unfold am; omega
theorem toNat_eq (b : BitVec 16) : b.toNat = am b + if sg b then 2^15 else 0 := by
  have := sg_iff b; unfold am; have := b.isLt; split_ifs with h
  · have := (sg_iff b).1 h; omega
  · have : ¬ 2^15 ≤ b.toNat := fun h' => h ((sg_iff b).2 h'); omega
theorem ext_am {a b : BitVec 16} (h1 : sg a = sg b) (h2 : am a = am b) : a = b := by
  apply BitVec.eq_of_toNat_eq; rw [toNat_eq, toNat_eq, h1, h2]
theorem fracField_lt (b : BitVec 16) : fracField b < 2^10 := by unfold fracField; omega
theorem expField_lt (b : BitVec 16) : expField b < 32 := by unfold expField; omega
theorem isNaN_iff (b : BitVec 16) : isNaN b = true ↔ IsNaN b := by
  unfold isNaN IsNaN; have := am_fields b; have := fracField_lt b; have := expField_lt b; simp; omega
theorem isInf_iff (b : BitVec 16) : isInf b = true ↔ IsInf b := by
  unfold isInf IsInf; have := am_fields b; have := fracField_lt b; have := expField_lt b; simp; omega
theorem finite_iff (b : BitVec 16) : IsFinite b ↔ am b < 0x7C00 := by
  unfold IsFinite; have := am_fields b; have := fracField_lt b; have := expField_lt b; omega
theorem finite_iff' (b : BitVec 16) : IsFinite b ↔ isNaN b = false ∧ isInf b = false := by
  rw [finite_iff]; unfold isNaN isInf; simp; omega
theorem even_iff (b : BitVec 16) : fracField b % 2 = am b % 2 := by have := am_fields b; omega

theorem sg_mk (s : Bool) (n : ℕ) (h : n < 2^15) : sg (mk s n) = s := by
  rw [Bool.eq_iff_iff, sg_iff]; unfold mk
  cases s <;> simp [BitVec.toNat_ofNat] <;> omega
theorem am_mk (s : Bool) (n : ℕ) (h : n < 2^15) : am (mk s n) = n := by
  unfold mk am
  cases s <;> simp [BitVec.toNat_ofNat] <;> omega
theorem mk_am (b : BitVec 16) : mk (sg b) (am b) = b := ext_am (sg_mk _ _ (am_lt b)) (am_mk _ _ (am_lt b))

/-- The value of a magnitude pattern. -/
theorem magH_value (e f : ℕ) (hf : f < 2^10) : (magH (e * 2^10 + f) : ℝ) * 2^(-24 : ℤ) =
    if e = 0 then 2^(-14 : ℤ) * ((f : ℝ) / 2^10) else 2^((e : ℤ) - 15) * (1 + (f : ℝ) / 2^10) := by
  split_ifs with h
  · subst h
    have := magH_kq 0 f (by omega) (Or.inl rfl)
    rw [this]; push_cast
    rw [show (-14 : ℤ) = -24 + 10 by norm_num, zpow_add₀ (by norm_num)]
    norm_num; ring
  · have := magH_kq (e - 1) (2^10 + f) (by omega) (Or.inr (by omega))
    rw [show (e - 1) * 2^10 + (2^10 + f) = e * 2^10 + f by omega] at this
    rw [this]
    rw [show (e : ℤ) - 15 = (-24 : ℤ) + ((e - 1 : ℕ) : ℤ) + 10 by omega, zpow_add₀ (by norm_num), zpow_add₀ (by norm_num), zpow_natCast]
    push_cast; norm_num; ring

theorem value_eq (b : BitVec 16) : value b = (ival b : ℝ) * 2^(-24 : ℤ) := by
  have h := magH_value (expField b) (fracField b) (fracField_lt b)
  unfold value ival mag
  rw [← h, ← am_fields, sg_eq]
  split_ifs <;> push_cast <;> ring
theorem value_mk (s : Bool) (n : ℕ) (h : n < 2^15) : value (mk s n) = (if s then -1 else 1) * ((magH n : ℝ) * 2^(-24 : ℤ)) := by
  rw [value_eq]; unfold ival mag; rw [sg_mk _ _ h, am_mk _ _ h]; cases s <;> simp
theorem value_abs (b : BitVec 16) : |value b| = (mag b : ℝ) * 2^(-24 : ℤ) := by
  rw [value_eq, abs_mul, abs_of_pos (by positivity : (0:ℝ) < 2^(-24 : ℤ))]
  congr 1; unfold ival; split_ifs <;> simp
theorem value_sign (b : BitVec 16) : value b = (if sg b then -1 else 1) * ((mag b : ℝ) * 2^(-24 : ℤ)) := by
  rw [value_eq]; unfold ival; split_ifs <;> push_cast <;> ring

theorem u24 : (0:ℝ) < 2^(-24 : ℤ) := by positivity

theorem overflow_eq : overflow = 4095 * 2^28 * (2:ℝ)^(-24 : ℤ) := by
  unfold overflow; norm_num

/-- If `n` is a nearest magnitude of the real `x` (in units of 2^-24), ties to even, then the pattern is `x` rounded. -/
theorem rounds_of (s : Bool) (x : ℝ) (n : ℕ) (hx : 0 ≤ x) (hnear : ∀ m, |(magH n : ℝ) - x| ≤ |(magH m : ℝ) - x|)
    (htie : ∀ m, m ≠ n → |(magH m : ℝ) - x| = |(magH n : ℝ) - x| → n % 2 = 0)
    (hfin : n < 0x7C00 ↔ x < 4095 * 2^28) :
    Rounds ((if s then -1 else 1) * (x * 2^(-24 : ℤ))) (mk s (min 0x7C00 n)) := by
  have hu := u24
  have habs : |(if s then -1 else 1) * (x * (2:ℝ)^(-24 : ℤ))| = x * 2^(-24 : ℤ) := by
    rw [abs_mul, abs_of_nonneg (by positivity : 0 ≤ x * (2:ℝ)^(-24 : ℤ))]; cases s <;> simp
  have hov : |(if s then -1 else 1) * (x * (2:ℝ)^(-24 : ℤ))| < overflow ↔ n < 0x7C00 := by
    rw [habs, overflow_eq, mul_lt_mul_iff_left₀ hu, hfin]
  have hdr : n < 0x7C00 → |value (mk s (min 0x7C00 n)) - (if s then -1 else 1) * (x * (2:ℝ)^(-24 : ℤ))| = |(magH n : ℝ) - x| * 2^(-24 : ℤ) := by
    intro h
    rw [min_eq_right (by omega), value_mk _ _ (by omega), ← mul_sub, ← sub_mul, abs_mul, abs_mul, abs_of_pos hu]
    cases s <;> simp
  have hdy : ∀ y, |(mag y : ℝ) - x| * 2^(-24 : ℤ) ≤ |value y - (if s then -1 else 1) * (x * (2:ℝ)^(-24 : ℤ))| := by
    intro y
    have := abs_abs_sub_abs_le_abs_sub (value y) ((if s then -1 else 1) * (x * (2:ℝ)^(-24 : ℤ)))
    rw [habs, value_abs, ← sub_mul, abs_mul, abs_of_pos hu] at this
    exact this
  refine ⟨fun h => ?_, fun h y hy => ?_, fun h y hy hne heq => ?_, fun h => ?_, fun h => ?_⟩
  · rw [hov] at h
    rw [min_eq_right (by omega), finite_iff, am_mk _ _ (by omega)]; exact h
  · rw [hov] at h
    rw [hdr h]
    exact (mul_le_mul_of_nonneg_right (hnear (am y)) hu.le).trans (hdy y)
  · rw [hov] at h
    rw [hdr h] at heq
    rw [even_iff, min_eq_right (by omega), am_mk _ _ (by omega)]
    have h1 := hdy y
    rw [heq] at h1
    have h2 : |(mag y : ℝ) - x| = |(magH n : ℝ) - x| := le_antisymm (le_of_mul_le_mul_right h1 hu) (hnear (am y))
    by_cases hn : am y = n
    · exfalso
      apply hne
      rw [min_eq_right (by omega), value_mk _ _ (by omega), value_sign y]
      have hm : mag y = magH n := by unfold mag; rw [hn]
      rw [hm]
      by_cases hs : sg y = s
      · rw [hs]
      · rcases Nat.eq_zero_or_pos n with h0 | h0
        · subst h0; simp [magH_zero]
        · exfalso
          have hp : (0 : ℝ) < magH n := by have := magH_strictMono h0; rw [magH_zero] at this; exact_mod_cast this
          have hv : |value y - (if s then -1 else 1) * (x * (2:ℝ)^(-24 : ℤ))| = |((magH n : ℝ) + x)| * 2^(-24 : ℤ) := by
            rw [value_sign y, hm, ← abs_of_pos hu, ← abs_mul, abs_of_pos hu]
            rcases hs1 : sg y with _ | _ <;> rcases s with _ | _
            · exact absurd hs1 hs
            · simp only [Bool.false_eq_true, if_true, if_false]; congr 1; ring
            · simp only [Bool.false_eq_true, if_true, if_false]; rw [← abs_neg]; congr 1; ring
            · exact absurd hs1 hs
          have e : |((magH n : ℝ) + x)| * 2^(-24 : ℤ) = |(magH n : ℝ) - x| * 2^(-24 : ℤ) := by rw [← hv, heq]
          have e2 := mul_right_cancel₀ hu.ne' e
          rw [abs_of_pos (by positivity)] at e2
          have hx0 : x = 0 := by
            rcases abs_cases ((magH n : ℝ) - x) with h6 | h6 <;> rw [h6.1] at e2 <;> linarith
          have := hnear 0
          rw [hx0, magH_zero] at this; simp at this
          exact hp.ne' (by exact_mod_cast this)
    · exact htie (am y) hn h2
  · rw [overflow_eq] at h
    have hs : s = false := by
      cases s
      · rfl
      · exfalso
        have : (0:ℝ) < 4095 * 2^28 * (2:ℝ)^(-24 : ℤ) := by positivity
        have : 0 ≤ x * (2:ℝ)^(-24 : ℤ) := by positivity
        simp at h; linarith
    subst hs
    have hn : ¬ n < 0x7C00 := by
      rw [hfin]; simp at h; linarith
    rw [min_eq_left (by omega)]; decide
  · rw [overflow_eq] at h
    have hs : s = true := by
      cases s
      · exfalso
        have : (0:ℝ) < 4095 * 2^28 * (2:ℝ)^(-24 : ℤ) := by positivity
        have : 0 ≤ x * (2:ℝ)^(-24 : ℤ) := by positivity
        simp at h; linarith
      · rfl
    subst hs
    have hn : ¬ n < 0x7C00 := by
      rw [hfin]; simp at h; linarith
    rw [min_eq_left (by omega)]; decide

/-- Rounding a quotient of naturals. -/
theorem rounds_div (s : Bool) (p q : ℕ) (hq : 0 < q) :
    Rounds ((if s then -1 else 1) * ((p / q : ℝ) * 2^(-24 : ℤ))) (mk s (roundH p q)) := by
  have hq' : (0 : ℝ) < q := by exact_mod_cast hq
  have e : ∀ m : ℕ, |(magH m : ℝ) - p / q| = ((|((magH m * q : ℕ) : ℤ) - p| : ℤ) : ℝ) / q := by
    intro m
    rw [eq_div_iff hq'.ne', ← abs_of_pos hq', ← abs_mul, abs_of_pos hq', sub_mul, div_mul_cancel₀ _ hq'.ne']
    push_cast; rfl
  rw [roundH_min]
  refine rounds_of s _ _ (by positivity) (fun m => ?_) (fun m hm h => ?_) ?_
  · rw [e, e, div_le_div_iff_of_pos_right hq']; exact_mod_cast roundU_nearest p q m hq
  · rw [e, e, div_left_inj' hq'.ne'] at h
    exact roundU_tie p q m hq hm (by exact_mod_cast h)
  · rw [roundU_finite p q hq, div_lt_iff₀ hq', show (2^29 : ℕ) = 2 * 2^28 by norm_num]
    constructor
    · intro h
      have h' : (2 * p : ℝ) < 4095 * (2 * 2^28) * q := by exact_mod_cast h
      linarith
    · intro h
      have h' : (2 * p : ℝ) < 4095 * (2 * 2^28) * q := by linarith
      exact_mod_cast h'

end DXM.Half
