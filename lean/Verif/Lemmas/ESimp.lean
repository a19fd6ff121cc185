import Verif.Lemmas.ELits
import Verif.Intrinsics
import Mathlib.Tactic.Ring
import Mathlib.Tactic.Linarith
import Mathlib.Tactic.FieldSimp
import Mathlib.Tactic.SplitIfs

/-
Simp set for exact-real lanes: how each lane operation acts on `E.num`, and the mask laws.
-/

set_option linter.all false

namespace DXM
open Lane

namespace E

@[simp] theorem add_num (a b : ℝ) : (Lane.add (num a) (num b) : E) = num (a + b) := rfl
@[simp] theorem sub_num (a b : ℝ) : (Lane.sub (num a) (num b) : E) = num (a - b) := rfl
@[simp] theorem mul_num (a b : ℝ) : (Lane.mul (num a) (num b) : E) = num (a * b) := rfl
@[simp] theorem fma_num (a b c : ℝ) : (Lane.fma (num a) (num b) (num c) : E) = num (a * b + c) := rfl
@[simp] theorem fnma_num (a b c : ℝ) : (Lane.fnma (num a) (num b) (num c) : E) = num (c - a * b) := rfl
theorem div_def (a b : ℝ) : (Lane.div (num a) (num b) : E) = divR a b := rfl
theorem div_num (a b : ℝ) (h : b ≠ 0) : (Lane.div (num a) (num b) : E) = num (a / b) := by
  simp [div_def, divR, h]
@[simp] theorem div_zero_zero : (Lane.div (num 0) (num 0) : E) = nan := by simp [div_def, divR]
theorem sqrt_def (a : ℝ) : (Lane.sqrt (num a) : E) = sqrtR a := rfl
theorem sqrt_num (a : ℝ) (h : 0 ≤ a) : (Lane.sqrt (num a) : E) = num (Real.sqrt a) := by
  simp [sqrt_def, sqrtR, not_lt.2 h]
@[simp] theorem neg_num (a : ℝ) : (Lane.neg (num a) : E) = num (-a) := rfl
@[simp] theorem abs_num (a : ℝ) : (Lane.abs (num a) : E) = num |a| := rfl
@[simp] theorem lt_num (a b : ℝ) : Lane.lt (num a) (num b) = decide (a < b) := rfl
@[simp] theorem le_num (a b : ℝ) : Lane.le (num a) (num b) = decide (a ≤ b) := rfl
@[simp] theorem eq_num (a b : ℝ) : Lane.eq (num a) (num b) = decide (a = b) := rfl
@[simp] theorem ieq_num (a b : ℝ) : Lane.ieq (num a) (num b) = decide (a = b) := rfl
@[simp] theorem gt_num (a b : ℝ) : Lane.gt (num a) (num b) = decide (b < a) := rfl
@[simp] theorem ge_num (a b : ℝ) : Lane.ge (num a) (num b) = decide (b ≤ a) := rfl
@[simp] theorem ne_num (a b : ℝ) : Lane.ne (num a) (num b) = !decide (a = b) := rfl
@[simp] theorem sgn_num (a : ℝ) : Lane.sgn (num a) = decide (a < 0) := rfl
@[simp] theorem isNaN_num (a : ℝ) : Lane.isNaN (num a) = false := rfl
@[simp] theorem isInf_num (a : ℝ) : Lane.isInf (num a) = false := rfl
@[simp] theorem rint_num (a : ℝ) : (Lane.rint (num a) : E) = num (rintR a) := rfl
@[simp] theorem trunc_num (a : ℝ) : (Lane.trunc (num a) : E) = num (truncR a) := rfl
@[simp] theorem floor_num (a : ℝ) : (Lane.floor (num a) : E) = num (⌊a⌋ : ℝ) := rfl
@[simp] theorem ceil_num (a : ℝ) : (Lane.ceil (num a) : E) = num (⌈a⌉ : ℝ) := rfl
@[simp] theorem sin_num (a : ℝ) : (Lane.sin (num a) : E) = num (Real.sin a) := rfl
@[simp] theorem cos_num (a : ℝ) : (Lane.cos (num a) : E) = num (Real.cos a) := rfl
@[simp] theorem atan_num (a : ℝ) : (Lane.atan (num a) : E) = num (Real.arctan a) := rfl
@[simp] theorem atan2_num (y x : ℝ) : (Lane.atan2 (num y) (num x) : E) = num (Complex.arg ⟨x, y⟩) := rfl
theorem acos_num (a : ℝ) (h : |a| ≤ 1) : (Lane.acos (num a) : E) = num (Real.arccos a) := by
  show (if |a| ≤ 1 then num (Real.arccos a) else nan) = _; simp [h]
theorem asin_num (a : ℝ) (h : |a| ≤ 1) : (Lane.asin (num a) : E) = num (Real.arcsin a) := by
  show (if |a| ≤ 1 then num (Real.arcsin a) else nan) = _; simp [h]
theorem tan_num (a : ℝ) (h : Real.cos a ≠ 0) : (Lane.tan (num a) : E) = num (Real.tan a) := by
  show (if Real.cos a = 0 then bad else num (Real.tan a)) = _; simp [h]

@[simp] theorem minps_num (a b : ℝ) : (Lane.minps (num a) (num b) : E) = num (min a b) := by
  unfold minps; simp only [lt_num, decide_eq_true_eq]
  rcases lt_or_ge a b with h | h
  · simp [h, h.le]
  · simp [not_lt.2 h, h]
@[simp] theorem maxps_num (a b : ℝ) : (Lane.maxps (num a) (num b) : E) = num (max a b) := by
  unfold maxps; simp only [lt_num, decide_eq_true_eq]
  rcases lt_or_ge b a with h | h
  · simp [h, h.le]
  · simp [not_lt.2 h, h]

/-! minus zero as an operand -/
@[simp] theorem mul_negZero (a : ℝ) : (Lane.mul (num a) negZero : E) = num 0 := by
  show num (a * 0) = _; simp
@[simp] theorem add_negZero (a : ℝ) : (Lane.add (num a) negZero : E) = num a := by
  show num (a + 0) = _; simp

/-! masks -/
@[simp] theorem band_ones_l (x : E) : (Lane.band ones x : E) = x := by
  show E.and ones x = x; cases x <;> simp [E.and]
  rename_i r; intro h; simp [h]
@[simp] theorem band_ones_r (x : E) : (Lane.band x ones : E) = x := by
  show E.and x ones = x; cases x <;> simp [E.and]
  rename_i r; intro h; simp [h]
@[simp] theorem band_zero_l (x : E) : (Lane.band (num 0) x : E) = num 0 := by
  show E.and (num 0) x = _; simp [E.and]
@[simp] theorem band_zero_r (x : E) : (Lane.band x (num 0) : E) = num 0 := by
  show E.and x (num 0) = _; simp [E.and]
@[simp] theorem bandn_ones_l (x : E) : (Lane.bandn ones x : E) = num 0 := by
  show E.andn ones x = _; simp [E.andn]
@[simp] theorem bandn_zero_l (x : E) : (Lane.bandn (num 0) x : E) = x := by
  show E.andn (num 0) x = _; simp [E.andn]
@[simp] theorem bandn_zero_r (x : E) : (Lane.bandn x (num 0) : E) = num 0 := by
  show E.andn x (num 0) = _; simp [E.andn]
@[simp] theorem bor_zero_l (x : E) : (Lane.bor (num 0) x : E) = x := by
  show E.or (num 0) x = _; simp [E.or]
@[simp] theorem bor_zero_r (x : E) : (Lane.bor x (num 0) : E) = x := by
  show E.or x (num 0) = _; by_cases h : x = num 0 <;> simp [E.or, h]
@[simp] theorem bor_self_num (r : ℝ) : (Lane.bor (num r) (num r) : E) = num r := by
  show E.or (num r) (num r) = _; simp only [E.or]; split_ifs <;> simp
@[simp] theorem bxor_zero_num (r : ℝ) : (Lane.bxor (num 0) (num r) : E) = num r := by
  show E.xor (num 0) (num r) = _; simp [E.xor]
@[simp] theorem bxor_num_zero (r : ℝ) : (Lane.bxor (num r) (num 0) : E) = num r := by
  show E.xor (num r) (num 0) = _; simp only [E.xor]; split_ifs with h <;> simp_all
@[simp] theorem bxor_zero_ones' : (Lane.bxor (num 0) ones : E) = ones := by
  show E.xor (num 0) ones = _; simp [E.xor]
@[simp] theorem bxor_ones : (Lane.bxor ones ones : E) = num 0 := by
  show E.xor ones ones = _; simp [E.xor]
@[simp] theorem sgn_ones' : Lane.sgn (ones : E) = true := rfl
@[simp] theorem bxor_num_negZero (r : ℝ) : (Lane.bxor (num r) negZero : E) = num (-r) := rfl
@[simp] theorem bxor_negZero_num (r : ℝ) : (Lane.bxor negZero (num r) : E) = num (-r) := rfl
@[simp] theorem band_num_absMask (r : ℝ) : (Lane.band (num r) absMask : E) = num |r| := by
  show E.and (num r) absMask = _; by_cases h : r = 0 <;> simp [E.and, h]
@[simp] theorem band_absMask_num (r : ℝ) : (Lane.band absMask (num r) : E) = num |r| := by
  show E.and absMask (num r) = _; by_cases h : r = 0 <;> simp [E.and, h]
theorem band_num_negZero (r : ℝ) : (Lane.band (num r) negZero : E) = if r < 0 then negZero else num 0 := by
  show E.and (num r) negZero = _; by_cases h : r = 0 <;> simp [E.and, h]
theorem bor_num_negZero (r : ℝ) (h : r ≠ 0) : (Lane.bor (num r) negZero : E) = num (-|r|) := by
  show E.or (num r) negZero = _; simp [E.or, h]

theorem ieq_def (a b : E) : Lane.ieq a b = E.ieq a b := rfl

instance : LawfulLane E where
  band_ones_left x := by simp
  band_ones_right x := by simp
  band_zero_left x := by simp
  band_zero_right x := by simp
  bandn_ones_left x := by simp
  bandn_zero_left x := by simp
  bandn_zero_right x := by simp
  bor_zero_left x := by simp
  bor_zero_right x := by simp
  bxor_zero_ones := by simp
  bxor_ones_ones := by simp
  sgn_ones := by simp
  sgn_zero := by simp
  ieq_ones_ones := by simp [ieq_def, E.ieq]
  ieq_zero_zero := by simp
  ieq_ones_zero := by simp [ieq_def, E.ieq]
  ieq_zero_ones := by simp [ieq_def, E.ieq]

/-! masks made by comparisons -/
theorem mask_eq (b : Bool) : (Lane.mask b : E) = if b then ones else num 0 := by cases b <;> simp
@[simp] theorem band_mask_l (b : Bool) (x : E) : (Lane.band (Lane.mask b) x : E) = if b then x else num 0 := by
  cases b <;> simp
@[simp] theorem band_mask_r (b : Bool) (x : E) : (Lane.band x (Lane.mask b) : E) = if b then x else num 0 := by
  cases b <;> simp
@[simp] theorem bandn_mask_l (b : Bool) (x : E) : (Lane.bandn (Lane.mask b) x : E) = if b then num 0 else x := by
  cases b <;> simp

end E
end DXM
