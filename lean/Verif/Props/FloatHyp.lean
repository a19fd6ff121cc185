import Verif.Props.FloatExp
import Mathlib.Analysis.SpecialFunctions.Trigonometric.DerivHyp

/-
Accuracy of XMVectorSinH, XMVectorCosH and XMVectorTanH on binary32 lanes (interpretation I).  The specification is Mathlib's `Real.sinh`, `Real.cosh`, `Real.tanh`.
-/

set_option linter.all false

namespace DXM.Props
open DXM.Spec DXM.FErr DXM.IEEE DXM.Trig
variable {P : Env}

theorem fm_err (c : Cfg) {a y d : F32 P} {M K : ℝ} (ha : Fin' a) (hy : Fin' y) (hd : Fin' d) (hM : |val a * val y| ≤ M) (hK : |val d| ≤ K) (hs : 2 * M + K + 1 < overflow) :
    Fin' (fm c a y d) ∧ |val (fm c a y d) - (val a * val y + val d)| ≤ ulp2 * (M + tiny) + ulp2 * (M + K + ulp2 * (M + tiny)) := by
  have hu := u_pos; have ht := tiny_pos
  have hu1 : ulp2 ≤ 1/8 := by unfold ulp2; norm_num
  have ht1 : tiny ≤ 1/8 := by unfold tiny; norm_num
  have hM0 : 0 ≤ M := (abs_nonneg _).trans hM
  have hK0 : 0 ≤ K := (abs_nonneg _).trans hK
  have hum : ulp2 * (M + tiny) ≤ 1/8 * (M + 1/8) := mul_le_mul hu1 (by linarith) (by positivity) (by norm_num)
  have hum0 : 0 ≤ ulp2 * (M + tiny) := by positivity
  unfold fm; by_cases hf : c.fma = true
  · rw [if_pos hf]
    have h3 : |val a * val y + val d| ≤ M + K := (abs_add_le _ _).trans (add_le_add hM hK)
    obtain ⟨f, e⟩ := rounds_err (fma_rounds P ha hy hd) (lt_of_le_of_lt h3 (by linarith))
    refine ⟨f, le_trans e ?_⟩
    have h5 : ulp2 * (|val a * val y + val d| + tiny) ≤ ulp2 * (M + K + tiny) := mul_le_mul_of_nonneg_left (by linarith) hu.le
    have h6 : 0 ≤ ulp2 * (ulp2 * (M + tiny)) := by positivity
    have h7 : 0 ≤ ulp2 * M := by positivity
    refine le_trans h5 ?_
    linarith
  · rw [if_neg hf]
    have m := rounds_err (mul_rounds P ha hy) (lt_of_le_of_lt hM (by linarith))
    have h4 : |val (Lane.mul a y) - val a * val y| ≤ ulp2 * (M + tiny) := le_trans m.2 (mul_le_mul_of_nonneg_left (add_le_add hM le_rfl) hu.le)
    have hm : |val (Lane.mul a y)| ≤ M + ulp2 * (M + tiny) := by
      have h3 := abs_add_le (val (Lane.mul a y) - val a * val y) (val a * val y)
      rw [sub_add_cancel] at h3
      linarith
    obtain ⟨n, hn⟩ := int_val (Lane.mul a y); obtain ⟨k, hk⟩ := int_val d
    have hb : |val (Lane.mul a y) + val d| ≤ M + K + ulp2 * (M + tiny) := (abs_add_le _ _).trans (by linarith)
    obtain ⟨f, r⟩ := rounds_err' (add_rounds P m.1 hd) (lt_of_le_of_lt hb (by linarith)) (n + k) (by
      push_cast; rw [add_mul]; exact congrArg₂ (· + ·) hn hk)
    refine ⟨f, ?_⟩
    have r' : |val (Lane.add (Lane.mul a y) d) - (val (Lane.mul a y) + val d)| ≤ ulp2 * |val (Lane.mul a y) + val d| := r
    have r'' := r'.trans (mul_le_mul_of_nonneg_left hb hu.le)
    have e1 : val (Lane.add (Lane.mul a y) d) - (val a * val y + val d) = (val (Lane.add (Lane.mul a y) d) - (val (Lane.mul a y) + val d)) + (val (Lane.mul a y) - val a * val y) := by ring
    rw [e1]
    refine (abs_add_le _ _).trans ?_
    linarith
theorem fnm_err (c : Cfg) {a y d : F32 P} {M K : ℝ} (ha : Fin' a) (hy : Fin' y) (hd : Fin' d) (hM : |val a * val y| ≤ M) (hK : |val d| ≤ K) (hs : 2 * M + K + 1 < overflow) :
    Fin' (fnm c a y d) ∧ |val (fnm c a y d) - (-(val a * val y) + val d)| ≤ ulp2 * (M + tiny) + ulp2 * (M + K + ulp2 * (M + tiny)) := by
  have hu := u_pos; have ht := tiny_pos
  have hu1 : ulp2 ≤ 1/8 := by unfold ulp2; norm_num
  have ht1 : tiny ≤ 1/8 := by unfold tiny; norm_num
  have hM0 : 0 ≤ M := (abs_nonneg _).trans hM
  have hK0 : 0 ≤ K := (abs_nonneg _).trans hK
  have hum : ulp2 * (M + tiny) ≤ 1/8 * (M + 1/8) := mul_le_mul hu1 (by linarith) (by positivity) (by norm_num)
  have hum0 : 0 ≤ ulp2 * (M + tiny) := by positivity
  unfold fnm; by_cases hf : c.fma = true
  · rw [if_pos hf]
    have h3 : |-(val a * val y) + val d| ≤ M + K := (abs_add_le _ _).trans (by rw [abs_neg]; exact add_le_add hM hK)
    have R : Rounds (-(val a * val y) + val d) (Lane.fnma a y d).bits := by
      have := fnma_rounds P ha hy hd
      first | exact this | (rw [neg_mul] at this; exact this) | (rw [sub_eq_neg_add] at this; exact this)
    obtain ⟨f, e⟩ := rounds_err R (lt_of_le_of_lt h3 (by linarith))
    refine ⟨f, le_trans e ?_⟩
    have h5 : ulp2 * (|-(val a * val y) + val d| + tiny) ≤ ulp2 * (M + K + tiny) := mul_le_mul_of_nonneg_left (by linarith) hu.le
    have h6 : 0 ≤ ulp2 * (ulp2 * (M + tiny)) := by positivity
    have h7 : 0 ≤ ulp2 * M := by positivity
    refine le_trans h5 ?_
    linarith
  · rw [if_neg hf]
    have m := rounds_err (mul_rounds P ha hy) (lt_of_le_of_lt hM (by linarith))
    have h4 : |val (Lane.mul a y) - val a * val y| ≤ ulp2 * (M + tiny) := le_trans m.2 (mul_le_mul_of_nonneg_left (add_le_add hM le_rfl) hu.le)
    have hm : |val (Lane.mul a y)| ≤ M + ulp2 * (M + tiny) := by
      have h3 := abs_add_le (val (Lane.mul a y) - val a * val y) (val a * val y)
      rw [sub_add_cancel] at h3
      linarith
    obtain ⟨n, hn⟩ := int_val (Lane.mul a y); obtain ⟨k, hk⟩ := int_val d
    have hb : |val d - val (Lane.mul a y)| ≤ M + K + ulp2 * (M + tiny) := (abs_sub _ _).trans (by linarith)
    obtain ⟨f, r⟩ := rounds_err' (sub_rounds P hd m.1) (lt_of_le_of_lt hb (by linarith)) (k - n) (by
      push_cast; rw [sub_mul]; exact congrArg₂ (· - ·) hk hn)
    refine ⟨f, ?_⟩
    have r' : |val (Lane.sub d (Lane.mul a y)) - (val d - val (Lane.mul a y))| ≤ ulp2 * |val d - val (Lane.mul a y)| := r
    have r'' := r'.trans (mul_le_mul_of_nonneg_left hb hu.le)
    have e1 : val (Lane.sub d (Lane.mul a y)) - (-(val a * val y) + val d) = (val (Lane.sub d (Lane.mul a y)) - (val d - val (Lane.mul a y))) - (val (Lane.mul a y) - val a * val y) := by ring
    rw [e1]
    refine (abs_sub _ _).trans ?_
    linarith

/-! ### real analysis -/
theorem two_pow_le {d : ℝ} (h0 : 0 ≤ d) (h1 : d ≤ 1) : (2:ℝ)^d ≤ 1 + d := by
  have := rpow_one_add_le_one_add_mul_self (s := 1) (by norm_num) h0 h1
  norm_num at this; exact this
theorem two_pow_close {w t η : ℝ} (h : |w - t| ≤ η) (h1 : η ≤ 1) : |(2:ℝ)^w - (2:ℝ)^t| ≤ η * (2:ℝ)^t := by
  have hp : 0 < (2:ℝ)^t := by positivity
  have e : (2:ℝ)^w = (2:ℝ)^(w - t) * (2:ℝ)^t := by rw [← Real.rpow_add (by norm_num)]; congr 1; ring
  rw [e, show (2:ℝ)^(w - t) * (2:ℝ)^t - (2:ℝ)^t = ((2:ℝ)^(w - t) - 1) * (2:ℝ)^t by ring, abs_mul, abs_of_pos hp]
  refine mul_le_mul_of_nonneg_right (le_trans ?_ h) hp.le
  have key : ∀ d : ℝ, 0 ≤ d → d ≤ 1 → (2:ℝ)^d - 1 ≤ d ∧ 1 ≤ (2:ℝ)^d ∧ 1 - d ≤ (2:ℝ)^(-d) ∧ (2:ℝ)^(-d) ≤ 1 := by
    intro d h0 h1
    have a := two_pow_le h0 h1
    have b : 1 ≤ (2:ℝ)^d := Real.one_le_rpow (by norm_num) h0
    have c : (2:ℝ)^(-d) * (2:ℝ)^d = 1 := by rw [← Real.rpow_add (by norm_num)]; simp
    have p : 0 < (2:ℝ)^(-d) := by positivity
    refine ⟨by linarith, b, ?_, by nlinarith⟩
    nlinarith
  rcases le_total 0 (w - t) with h0 | h0
  · obtain ⟨a, b, -, -⟩ := key (w - t) h0 ((le_abs_self _).trans (h.trans h1))
    rw [abs_of_nonneg h0, abs_of_nonneg (by linarith)]; exact a
  · obtain ⟨-, -, a, b⟩ := key (-(w - t)) (by linarith) ((neg_le_abs _).trans (h.trans h1))
    rw [_root_.neg_neg] at a b
    rw [abs_of_nonpos h0, abs_of_nonpos (by linarith)]; linarith
theorem two_pow_log (v : ℝ) : (2:ℝ)^(v / Real.log 2) = Real.exp v := by
  have : Real.log 2 ≠ 0 := (Real.log_pos (by norm_num)).ne'
  rw [Real.rpow_def_of_pos (by norm_num)]; congr 1; field_simp
theorem two_pow_log1 (v : ℝ) : (2:ℝ)^(v / Real.log 2 - 1) = Real.exp v / 2 := by
  rw [Real.rpow_sub (by norm_num), two_pow_log, Real.rpow_one]

/-- Every finite exponent below 128. -/
theorem exp2_all (c : Cfg) {x : F32 P} (hf : IsFinite x.bits) (h1 : val x < 128) : Fin' (exp2L c x) ∧ |val (exp2L c x) - (2:ℝ)^(val x)| ≤ 21/10^6 * (2:ℝ)^(val x) + 2^(-150:ℤ) := by
  have hp : 0 < (2:ℝ)^(val x) := by positivity
  have hz : (0:ℝ) < 2^(-150:ℤ) := by positivity
  rcases le_or_gt 0 (val x) with h | h
  · obtain ⟨f, e⟩ := exp2_pos c hf h h1
    refine ⟨f, e.trans ?_⟩
    have : (2:ℝ)^(-20:ℤ) * (2:ℝ)^(val x) ≤ 21/10^6 * (2:ℝ)^(val x) := mul_le_mul_of_nonneg_right (by norm_num) hp.le
    linarith
  · rcases lt_or_ge (-150) (val x) with h2 | h2
    · exact exp2_neg c hf h h2
    · have hn : isNaN x.bits = false := ((finite_iff' _).1 hf).1
      rw [exp2_low c hn h2]
      refine ⟨lit_fin (by decide), ?_⟩
      rw [lit_val (n := 0) (by decide +kernel)]
      have h3 : (2:ℝ)^(val x) ≤ 2^(-150:ℤ) := by
        rw [← Real.rpow_intCast]; exact Real.rpow_le_rpow_of_exponent_le (by norm_num) (by push_cast; linarith)
      rw [Int.cast_zero, zero_mul, zero_sub, abs_neg, abs_of_pos hp]
      exact le_add_of_nonneg_of_le (by positivity) h3

/-! ### the scaled argument -/
theorem scale_val : Fin' (lit 0x3FB8AA3B#32 : F32 P) ∧ val (lit 0x3FB8AA3B#32 : F32 P) = 12102203/8388608 := by
  refine ⟨lit_fin (by decide), ?_⟩
  rw [lit_val (n := 12102203 * 2^126) (by decide +kernel)]; push_cast; norm_num
theorem scale2_val : Fin' (lit 0x4038AA3B#32 : F32 P) ∧ val (lit 0x4038AA3B#32 : F32 P) = 12102203/4194304 := by
  refine ⟨lit_fin (by decide), ?_⟩
  rw [lit_val (n := 12102203 * 2^127) (by decide +kernel)]; push_cast; norm_num
theorem negone_val : Fin' (lit 0xBF800000#32 : F32 P) ∧ val (lit 0xBF800000#32 : F32 P) = -1 := by
  refine ⟨lit_fin (by decide), ?_⟩
  rw [lit_val (n := -2^149) (by decide +kernel)]; push_cast; norm_num
theorem one_val : Fin' (lit 0x3F800000#32 : F32 P) ∧ val (lit 0x3F800000#32 : F32 P) = 1 := by
  refine ⟨lit_fin (by decide), ?_⟩
  rw [lit_val (n := 2^149) (by decide +kernel)]; push_cast; norm_num
theorem half_val : Fin' (lit 0x3F000000#32 : F32 P) ∧ val (lit 0x3F000000#32 : F32 P) = 1/2 := by
  refine ⟨lit_fin (by decide), ?_⟩
  rw [lit_val (n := 2^148) (by decide +kernel)]; push_cast; norm_num

theorem scale_near : |12102203/8388608 - 1 / Real.log 2| ≤ 21/10^9 := by
  obtain ⟨h1, h2⟩ := abs_le.1 log2_near
  have hl : 0 < Real.log 2 := Real.log_pos (by norm_num)
  rw [show 12102203/8388608 - 1 / Real.log 2 = (12102203/8388608 * Real.log 2 - 1) / Real.log 2 by field_simp, abs_div, abs_of_pos hl, div_le_iff₀ hl, abs_le]
  norm_num at h1 h2
  constructor <;> linarith
theorem arg_near {v w : ℝ} (hv : |v| ≤ 89) {e : ℝ} (h : |w - (v * (12102203/8388608) + -1)| ≤ e) : |w - (v / Real.log 2 - 1)| ≤ e + 19/10^7 := by
  have h2 : |v * (12102203/8388608) - v / Real.log 2| ≤ 19/10^7 := by
    rw [show v * (12102203/8388608) - v / Real.log 2 = v * (12102203/8388608 - 1 / Real.log 2) by ring, abs_mul]
    calc _ ≤ 89 * (21/10^9) := mul_le_mul hv scale_near (abs_nonneg _) (by norm_num)
      _ ≤ _ := by norm_num
  rw [show w - (v / Real.log 2 - 1) = (w - (v * (12102203/8388608) + -1)) + (v * (12102203/8388608) - v / Real.log 2) by ring]
  exact (abs_add_le _ _).trans (add_le_add h h2)
theorem arg_small {v : ℝ} (hv : |v| ≤ 89) : |v * (12102203/8388608)| ≤ 1285/10 := by
  rw [abs_mul, abs_of_pos (by norm_num : (0:ℝ) < 12102203/8388608)]; norm_num at *; linarith

theorem arg1 (c : Cfg) {x : F32 P} (hx : Fin' x) (hv : |val x| ≤ 89) :
    Fin' (fm c x (lit 0x3FB8AA3B#32) (lit 0xBF800000#32)) ∧ |val (fm c x (lit 0x3FB8AA3B#32) (lit 0xBF800000#32)) - (val x / Real.log 2 - 1)| ≤ 18/10^6 := by
  obtain ⟨f, e⟩ := fm_err c (M := 1285/10) (K := 1) hx scale_val.1 negone_val.1 (by rw [scale_val.2]; exact arg_small hv) (by rw [negone_val.2]; norm_num) (by unfold overflow; norm_num)
  rw [scale_val.2, negone_val.2] at e
  exact ⟨f, (arg_near hv e).trans (by norm_num [ulp2, tiny])⟩
theorem arg2 (c : Cfg) {x : F32 P} (hx : Fin' x) (hv : |val x| ≤ 89) :
    Fin' (fnm c x (lit 0x3FB8AA3B#32) (lit 0xBF800000#32)) ∧ |val (fnm c x (lit 0x3FB8AA3B#32) (lit 0xBF800000#32)) - (-val x / Real.log 2 - 1)| ≤ 18/10^6 := by
  obtain ⟨f, e⟩ := fnm_err c (M := 1285/10) (K := 1) hx scale_val.1 negone_val.1 (by rw [scale_val.2]; exact arg_small hv) (by rw [negone_val.2]; norm_num) (by unfold overflow; norm_num)
  rw [scale_val.2, negone_val.2, ← neg_mul] at e
  exact ⟨f, (arg_near (by rw [abs_neg]; exact hv) e).trans (by norm_num [ulp2, tiny])⟩

theorem log_div {v : ℝ} (hv : |v| ≤ 89) : v / Real.log 2 ≤ 1285/10 := by
  obtain ⟨h1, h2⟩ := abs_le.1 log2_near
  have hl : 0 < Real.log 2 := Real.log_pos (by norm_num)
  rw [div_le_iff₀ hl]
  have := (abs_le.1 hv).2
  norm_num at h1; linarith
theorem half_exp (c : Cfg) {w : F32 P} {v : ℝ} (hw : Fin' w) (hv : |v| ≤ 89) (h : |val w - (v / Real.log 2 - 1)| ≤ 18/10^6) :
    Fin' (exp2L c w) ∧ |val (exp2L c w) - Real.exp v / 2| ≤ 4/10^5 * (Real.exp v / 2) + 2^(-150:ℤ) := by
  have hlt : val w < 128 := by have := log_div hv; have := (abs_le.1 h).2; norm_num at *; linarith
  obtain ⟨f, e⟩ := exp2_all c hw hlt
  refine ⟨f, ?_⟩
  have h2 := two_pow_close h (by norm_num)
  rw [two_pow_log1] at h2
  have hp : 0 < Real.exp v / 2 := by positivity
  generalize Real.exp v / 2 = A at *
  generalize (2:ℝ)^(val w) = B at *
  generalize (2:ℝ)^(-150:ℤ) = T at *
  rw [abs_le] at *
  constructor <;> linarith [e.1, e.2, h2.1, h2.2]
theorem exp_le {v : ℝ} (hv : |v| ≤ 89) : Real.exp v ≤ 2^128 * (3/2) := by
  have h1 := log_div hv
  rw [← two_pow_log]
  calc (2:ℝ)^(v / Real.log 2) ≤ (2:ℝ)^(((128:ℕ):ℝ) + 1/2) := Real.rpow_le_rpow_of_exponent_le (by norm_num) (by norm_num at *; linarith)
    _ = 2^128 * (2:ℝ)^(1/2:ℝ) := by rw [Real.rpow_add (by norm_num), Real.rpow_natCast]
    _ ≤ 2^128 * (3/2) := mul_le_mul_of_nonneg_left ((two_pow_le (by norm_num) (by norm_num)).trans (by norm_num)) (by positivity)
theorem cosh_le {v : ℝ} (hv : |v| ≤ 89) : Real.cosh v ≤ 2^127 * (3/2) + 1 := by
  rw [Real.cosh_eq]
  have a := exp_le hv
  have b : Real.exp (-v) ≤ 2^128 * (3/2) := exp_le (by rwa [abs_neg])
  have c : Real.exp v * Real.exp (-v) = 1 := by rw [← Real.exp_add]; simp
  have p := Real.exp_pos v; have q := Real.exp_pos (-v)
  rcases le_total 1 (Real.exp v) with h | h
  · have : Real.exp (-v) ≤ 1 := by nlinarith
    norm_num at a ⊢; linarith
  · norm_num at b ⊢; linarith
theorem combine {E1 E2 p q T : ℝ} (hT : 0 ≤ T) (h1 : |E1 - p| ≤ 4/10^5 * p + T) (h2 : |E2 - q| ≤ 4/10^5 * q + T) : |E1 + E2 - (p + q)| ≤ 4/10^5 * (p + q) + 2 * T ∧ |E1 - E2 - (p - q)| ≤ 4/10^5 * (p + q) + 2 * T := by
  rw [abs_le] at *
  refine ⟨⟨?_, ?_⟩, ?_⟩
  · linarith [h1.1, h2.1]
  · linarith [h1.2, h2.2]
  · rw [abs_le]; constructor <;> linarith [h1.1, h1.2, h2.1, h2.2]
theorem final {S C s T : ℝ} {r : BitVec 32} (hC : 1 ≤ C) (hC2 : C ≤ 2^127 * (3/2) + 1) (hs : |s| ≤ C) (hT : 0 ≤ T) (hT2 : T ≤ 1/10^7) (h : |S - s| ≤ 4/10^5 * C + 2 * T)
    (hr : |S| < overflow → IsFinite r ∧ |value r - S| ≤ ulp2 * |S|) : IsFinite r ∧ |value r - s| ≤ 2^(-14:ℤ) * C := by
  have hS : |S| ≤ C * (1 + 5/10^5) := by
    have := abs_add_le (S - s) s
    rw [sub_add_cancel] at this; linarith
  obtain ⟨f, e⟩ := hr (lt_of_le_of_lt hS (by unfold overflow; norm_num at *; linarith))
  refine ⟨f, ?_⟩
  have hu : ulp2 * |S| ≤ 6/10^8 * (C * (1 + 5/10^5)) := mul_le_mul (by norm_num [ulp2]) hS (abs_nonneg _) (by norm_num)
  rw [show value r - s = (value r - S) + (S - s) by ring]
  refine (abs_add_le _ _).trans ?_
  have h14 : (2:ℝ)^(-14:ℤ) = 1/16384 := by norm_num
  rw [h14]; linarith
theorem t150 : (0:ℝ) ≤ 2^(-150:ℤ) ∧ (2:ℝ)^(-150:ℤ) ≤ 1/10^7 := by constructor <;> norm_num
theorem abs_sinh_le (v : ℝ) : |Real.sinh v| ≤ Real.cosh v := by
  rw [Real.sinh_eq, Real.cosh_eq, abs_le]
  have p := Real.exp_pos v; have q := Real.exp_pos (-v)
  constructor <;> linarith

/-- One lane of XMVectorCosH and XMVectorSinH (SSE builds). -/
theorem cosh_lane (c : Cfg) (hs : c.sse = true) (V : V4 (F32 P)) (i : Fin 4) : (XMVectorCosH c V).lane i =
    Lane.add (exp2L c (fm c (V.lane i) (lit 0x3FB8AA3B#32) (lit 0xBF800000#32))) (exp2L c (fnm c (V.lane i) (lit 0x3FB8AA3B#32) (lit 0xBF800000#32))) := by
  unfold XMVectorCosH; rw [if_pos hs]
  have h : ∀ (A B : V4 (F32 P)) (j : Fin 4), (SSE.add A B).lane j = Lane.add (A.lane j) (B.lane j) := fun A B j => by fin_cases j <;> rfl
  simp only [h, XMVectorExp]
  rw [exp2_lane c hs, exp2_lane c hs, fmadd_lane, fnmadd_lane]
  have h2 : (g_XMNegativeOne : V4 (F32 P)).lane i = lit 0xBF800000#32 := by fin_cases i <;> rfl
  have h3 : (V4.splat (Lane.ofBits 0x3FB8AA3B#32) : V4 (F32 P)).lane i = lit 0x3FB8AA3B#32 := by fin_cases i <;> rfl
  rw [h2, h3]
theorem sinh_lane (c : Cfg) (hs : c.sse = true) (V : V4 (F32 P)) (i : Fin 4) : (XMVectorSinH c V).lane i =
    Lane.sub (exp2L c (fm c (V.lane i) (lit 0x3FB8AA3B#32) (lit 0xBF800000#32))) (exp2L c (fnm c (V.lane i) (lit 0x3FB8AA3B#32) (lit 0xBF800000#32))) := by
  unfold XMVectorSinH; rw [if_pos hs]
  have h : ∀ (A B : V4 (F32 P)) (j : Fin 4), (SSE.sub A B).lane j = Lane.sub (A.lane j) (B.lane j) := fun A B j => by fin_cases j <;> rfl
  simp only [h, XMVectorExp]
  rw [exp2_lane c hs, exp2_lane c hs, fmadd_lane, fnmadd_lane]
  have h2 : (g_XMNegativeOne : V4 (F32 P)).lane i = lit 0xBF800000#32 := by fin_cases i <;> rfl
  have h3 : (V4.splat (Lane.ofBits 0x3FB8AA3B#32) : V4 (F32 P)).lane i = lit 0x3FB8AA3B#32 := by fin_cases i <;> rfl
  rw [h2, h3]

/-- C100: for arguments up to 89 in magnitude XMVectorCosH is within `2^-14` relative of the hyperbolic cosine. -/
theorem C100_cosh (c : Cfg) (hs : c.sse = true) (V : V4 (F32 P)) (i : Fin 4) (hf : IsFinite (V.lane i).bits) (hv : |value (V.lane i).bits| ≤ 89) :
    IsFinite ((XMVectorCosH c V).lane i).bits ∧
    |value ((XMVectorCosH c V).lane i).bits - Real.cosh (value (V.lane i).bits)| ≤ 2^(-14:ℤ) * Real.cosh (value (V.lane i).bits) := by
  rw [cosh_lane c hs]
  generalize V.lane i = x at *
  have hv' : |val x| ≤ 89 := hv
  obtain ⟨f1, e1⟩ := arg1 c hf hv'
  obtain ⟨f2, e2⟩ := arg2 c hf hv'
  obtain ⟨g1, d1⟩ := half_exp c f1 hv' e1
  obtain ⟨g2, d2⟩ := half_exp c f2 (by rw [abs_neg]; exact hv') e2
  generalize exp2L c (fm c x (lit 0x3FB8AA3B#32) (lit 0xBF800000#32)) = E1 at *
  generalize exp2L c (fnm c x (lit 0x3FB8AA3B#32) (lit 0xBF800000#32)) = E2 at *
  have k := (combine t150.1 d1 d2).1
  rw [← add_div, ← Real.cosh_eq] at k
  refine final (Real.one_le_cosh _) (cosh_le hv') (le_of_eq (abs_of_pos (Real.cosh_pos _))) t150.1 t150.2 k fun ho => ?_
  obtain ⟨n, hn⟩ := int_val E1; obtain ⟨m, hm⟩ := int_val E2
  exact rounds_err' (add_rounds P g1 g2) ho (n + m) (by push_cast; rw [add_mul]; exact congrArg₂ (· + ·) hn hm)

/-- C100: for arguments up to 89 in magnitude XMVectorSinH is within `2^-14` times the hyperbolic cosine of the hyperbolic sine. -/
theorem C100_sinh (c : Cfg) (hs : c.sse = true) (V : V4 (F32 P)) (i : Fin 4) (hf : IsFinite (V.lane i).bits) (hv : |value (V.lane i).bits| ≤ 89) :
    IsFinite ((XMVectorSinH c V).lane i).bits ∧
    |value ((XMVectorSinH c V).lane i).bits - Real.sinh (value (V.lane i).bits)| ≤ 2^(-14:ℤ) * Real.cosh (value (V.lane i).bits) := by
  rw [sinh_lane c hs]
  generalize V.lane i = x at *
  have hv' : |val x| ≤ 89 := hv
  obtain ⟨f1, e1⟩ := arg1 c hf hv'
  obtain ⟨f2, e2⟩ := arg2 c hf hv'
  obtain ⟨g1, d1⟩ := half_exp c f1 hv' e1
  obtain ⟨g2, d2⟩ := half_exp c f2 (by rw [abs_neg]; exact hv') e2
  generalize exp2L c (fm c x (lit 0x3FB8AA3B#32) (lit 0xBF800000#32)) = E1 at *
  generalize exp2L c (fnm c x (lit 0x3FB8AA3B#32) (lit 0xBF800000#32)) = E2 at *
  have k := (combine t150.1 d1 d2).2
  rw [← add_div, ← Real.cosh_eq, ← sub_div, ← Real.sinh_eq] at k
  refine final (Real.one_le_cosh _) (cosh_le hv') (abs_sinh_le _) t150.1 t150.2 k fun ho => ?_
  obtain ⟨n, hn⟩ := int_val E1; obtain ⟨m, hm⟩ := int_val E2
  exact rounds_err' (sub_rounds P g1 g2) ho (n - m) (by push_cast; rw [sub_mul]; exact congrArg₂ (· - ·) hn hm)

/-! ### large arguments -/
theorem value_inf : value 0x7F800000#32 = 2^128 := by
  rw [value_eq, show ival 0x7F800000#32 = 2^150 * 2^127 by decide +kernel]; push_cast; norm_num
theorem value_ninf : value 0xFF800000#32 = -2^128 := by
  rw [value_eq, show ival 0xFF800000#32 = -(2^150 * 2^127) by decide +kernel]; push_cast; norm_num
theorem overflow_le : overflow ≤ 2^128 := by unfold overflow; norm_num
theorem fin_not_nan {r : BitVec 32} (h : IsFinite r) : isNaN r = false := ((finite_iff' _).1 h).1

/-- Rounding does not cross a representable number. -/
theorem round_ge {x y : ℝ} {r : BitVec 32} (h : Rounds x r) (hy : Rep y) (hb : |y| < overflow) (hx : y ≤ x) : (IsFinite r ∨ r = 0x7F800000#32) ∧ y ≤ value r := by
  obtain ⟨b1, b2⟩ := abs_lt.1 hb
  rcases le_or_gt overflow x with ho | ho
  · rw [h.top ho, value_inf]
    exact ⟨Or.inr rfl, by have := overflow_le; linarith⟩
  · have ha : |x| < overflow := abs_lt.2 ⟨by linarith, ho⟩
    obtain ⟨z, hz, rfl⟩ := hy
    have := h.nearest ha z hz
    rw [abs_of_nonpos (by linarith : value z - x ≤ 0)] at this
    exact ⟨Or.inl (h.finite ha), by linarith [(abs_le.1 this).1]⟩
theorem round_le {x y : ℝ} {r : BitVec 32} (h : Rounds x r) (hy : Rep y) (hb : |y| < overflow) (hx : x ≤ y) : (IsFinite r ∨ r = 0xFF800000#32) ∧ value r ≤ y := by
  obtain ⟨b1, b2⟩ := abs_lt.1 hb
  rcases le_or_gt x (-overflow) with ho | ho
  · rw [h.bot ho, value_ninf]
    exact ⟨Or.inr rfl, by have := overflow_le; linarith⟩
  · have ha : |x| < overflow := abs_lt.2 ⟨ho, by linarith⟩
    obtain ⟨z, hz, rfl⟩ := hy
    have := h.nearest ha z hz
    rw [abs_of_nonneg (by linarith : 0 ≤ value z - x)] at this
    exact ⟨Or.inl (h.finite ha), by linarith [(abs_le.1 this).2]⟩
theorem rep_nat (n : ℤ) (h : n.natAbs ≤ 2^24 := by decide) : Rep (n:ℝ) := rep_int n h

/-- The exponents of a large argument. -/
theorem arg_up (c : Cfg) {a y d : F32 P} (ha : Fin' a) (hy : Fin' y) (hd : Fin' d) (vd : val d = -1) (h : 129 ≤ val a * val y) :
    isNaN (fm c a y d).bits = false ∧ 128 ≤ val (fm c a y d) := by
  have r128 : Rep (128:ℝ) := by exact_mod_cast rep_nat 128
  have r129 : Rep (129:ℝ) := by exact_mod_cast rep_nat 129
  have ov : (200:ℝ) < overflow := by unfold overflow; norm_num
  have nn : ∀ r : BitVec 32, (IsFinite r ∨ r = 0x7F800000#32) → isNaN r = false := fun r h => h.elim fin_not_nan fun h => by rw [h]; decide
  unfold fm; split_ifs with hc
  · have R := fma_rounds P ha hy hd
    obtain ⟨k1, k2⟩ := round_ge R r128 (by rw [abs_of_pos] <;> linarith) (by show 128 ≤ val a * val y + val d; rw [vd]; linarith)
    exact ⟨nn _ k1, k2⟩
  · obtain ⟨k1, k2⟩ := round_ge (mul_rounds P ha hy) r129 (by rw [abs_of_pos] <;> linarith) h
    have k2' : 129 ≤ val (Lane.mul a y) := k2
    rcases k1 with k1 | k1
    · have R := add_rounds P k1 hd
      obtain ⟨l1, l2⟩ := round_ge R r128 (by rw [abs_of_pos] <;> linarith) (by show 128 ≤ val (Lane.mul a y) + val d; rw [vd]; linarith)
      exact ⟨nn _ l1, l2⟩
    · have e : (Lane.add (Lane.mul a y) d : F32 P).bits = 0x7F800000#32 := by
        show add P (mul P a.bits y.bits) d.bits = _
        rw [k1]; exact ((add_special P 0x7F800000#32 d.bits).2.1 (by decide) hd).1
      refine ⟨by rw [e]; decide, ?_⟩
      show 128 ≤ value (Lane.add (Lane.mul a y) d).bits
      rw [e, value_inf]; norm_num
theorem arg_down (c : Cfg) {a y d : F32 P} (ha : Fin' a) (hy : Fin' y) (hd : Fin' d) (vd : val d = -1) (h : val a * val y ≤ -129) :
    isNaN (fm c a y d).bits = false ∧ val (fm c a y d) ≤ -128 := by
  have r128 : Rep (-128:ℝ) := by exact_mod_cast rep_nat (-128)
  have r129 : Rep (-129:ℝ) := by exact_mod_cast rep_nat (-129)
  have ov : (200:ℝ) < overflow := by unfold overflow; norm_num
  have nn : ∀ r : BitVec 32, (IsFinite r ∨ r = 0xFF800000#32) → isNaN r = false := fun r h => h.elim fin_not_nan fun h => by rw [h]; decide
  unfold fm; split_ifs with hc
  · have R := fma_rounds P ha hy hd
    obtain ⟨k1, k2⟩ := round_le R r128 (by rw [abs_of_neg] <;> linarith) (by show val a * val y + val d ≤ -128; rw [vd]; linarith)
    exact ⟨nn _ k1, k2⟩
  · obtain ⟨k1, k2⟩ := round_le (mul_rounds P ha hy) r129 (by rw [abs_of_neg] <;> linarith) h
    have k2' : val (Lane.mul a y) ≤ -129 := k2
    rcases k1 with k1 | k1
    · have R := add_rounds P k1 hd
      obtain ⟨l1, l2⟩ := round_le R r128 (by rw [abs_of_neg] <;> linarith) (by show val (Lane.mul a y) + val d ≤ -128; rw [vd]; linarith)
      exact ⟨nn _ l1, l2⟩
    · have e : (Lane.add (Lane.mul a y) d : F32 P).bits = 0xFF800000#32 := by
        show add P (mul P a.bits y.bits) d.bits = _
        rw [k1]; exact ((add_special P 0xFF800000#32 d.bits).2.1 (by decide) hd).1
      refine ⟨by rw [e]; decide, ?_⟩
      show value (Lane.add (Lane.mul a y) d).bits ≤ -128
      rw [e, value_ninf]; norm_num
theorem narg_up (c : Cfg) {a y d : F32 P} (ha : Fin' a) (hy : Fin' y) (hd : Fin' d) (vd : val d = -1) (h : val a * val y ≤ -129) :
    isNaN (fnm c a y d).bits = false ∧ 128 ≤ val (fnm c a y d) := by
  have r128 : Rep (128:ℝ) := by exact_mod_cast rep_nat 128
  have r129 : Rep (-129:ℝ) := by exact_mod_cast rep_nat (-129)
  have ov : (200:ℝ) < overflow := by unfold overflow; norm_num
  have nn : ∀ r : BitVec 32, (IsFinite r ∨ r = 0x7F800000#32) → isNaN r = false := fun r h => h.elim fin_not_nan fun h => by rw [h]; decide
  have nn' : ∀ r : BitVec 32, (IsFinite r ∨ r = 0xFF800000#32) → isNaN r = false := fun r h => h.elim fin_not_nan fun h => by rw [h]; decide
  unfold fnm; split_ifs with hc
  · have R := fnma_rounds P ha hy hd
    obtain ⟨k1, k2⟩ := round_ge R r128 (by rw [abs_of_pos] <;> linarith) (by show 128 ≤ val d - val a * val y; rw [vd]; linarith)
    exact ⟨nn _ k1, k2⟩
  · obtain ⟨k1, k2⟩ := round_le (mul_rounds P ha hy) r129 (by rw [abs_of_neg] <;> linarith) h
    have k2' : val (Lane.mul a y) ≤ -129 := k2
    rcases k1 with k1 | k1
    · have R := sub_rounds P hd k1
      obtain ⟨l1, l2⟩ := round_ge R r128 (by rw [abs_of_pos] <;> linarith) (by show 128 ≤ val d - val (Lane.mul a y); rw [vd]; linarith)
      exact ⟨nn _ l1, l2⟩
    · have e : (Lane.sub d (Lane.mul a y) : F32 P).bits = 0x7F800000#32 := by
        show sub P d.bits (mul P a.bits y.bits) = _
        rw [k1]; exact ((add_special P d.bits 0xFF800000#32).2.2.1 hd (by decide)).2
      refine ⟨by rw [e]; decide, ?_⟩
      show 128 ≤ value (Lane.sub d (Lane.mul a y)).bits
      rw [e, value_inf]; norm_num
theorem narg_down (c : Cfg) {a y d : F32 P} (ha : Fin' a) (hy : Fin' y) (hd : Fin' d) (vd : val d = -1) (h : 129 ≤ val a * val y) :
    isNaN (fnm c a y d).bits = false ∧ val (fnm c a y d) ≤ -128 := by
  have r128 : Rep (-128:ℝ) := by exact_mod_cast rep_nat (-128)
  have r129 : Rep (129:ℝ) := by exact_mod_cast rep_nat 129
  have ov : (200:ℝ) < overflow := by unfold overflow; norm_num
  have nn : ∀ r : BitVec 32, (IsFinite r ∨ r = 0xFF800000#32) → isNaN r = false := fun r h => h.elim fin_not_nan fun h => by rw [h]; decide
  unfold fnm; split_ifs with hc
  · have R := fnma_rounds P ha hy hd
    obtain ⟨k1, k2⟩ := round_le R r128 (by rw [abs_of_neg] <;> linarith) (by show val d - val a * val y ≤ -128; rw [vd]; linarith)
    exact ⟨nn _ k1, k2⟩
  · obtain ⟨k1, k2⟩ := round_ge (mul_rounds P ha hy) r129 (by rw [abs_of_pos] <;> linarith) h
    have k2' : 129 ≤ val (Lane.mul a y) := k2
    rcases k1 with k1 | k1
    · have R := sub_rounds P hd k1
      obtain ⟨l1, l2⟩ := round_le R r128 (by rw [abs_of_neg] <;> linarith) (by show val d - val (Lane.mul a y) ≤ -128; rw [vd]; linarith)
      exact ⟨nn _ l1, l2⟩
    · have e : (Lane.sub d (Lane.mul a y) : F32 P).bits = 0xFF800000#32 := by
        show sub P d.bits (mul P a.bits y.bits) = _
        rw [k1]; exact ((add_special P d.bits 0x7F800000#32).2.2.1 hd (by decide)).2
      refine ⟨by rw [e]; decide, ?_⟩
      show value (Lane.sub d (Lane.mul a y)).bits ≤ -128
      rw [e, value_ninf]; norm_num
theorem exp2_fin (c : Cfg) {x : F32 P} (hn : isNaN x.bits = false) (h : val x ≤ -128) : Fin' (exp2L c x) := by
  rcases lt_or_ge (-150) (val x) with h2 | h2
  · refine (exp2_neg c ?_ (by linarith) h2).1
    rw [finite_iff']; refine ⟨hn, ?_⟩
    by_contra hc
    have hi : isInf x.bits = true := by simpa using hc
    have ham : am x.bits = 0x7F800000 := by unfold isInf at hi; simpa using hi
    have := small_am (x := x.bits) (by rw [abs_le]; constructor <;> (have : val x = value x.bits := rfl; linarith))
    omega
  · rw [exp2_low c hn h2]; exact lit_fin (by decide)

/-- C100: for finite arguments of magnitude 90 or more XMVectorCosH is positive infinity and XMVectorSinH is the infinity with the sign of the argument. -/
theorem C100_large (c : Cfg) (hs : c.sse = true) (V : V4 (F32 P)) (i : Fin 4) (hf : IsFinite (V.lane i).bits) :
    (90 ≤ value (V.lane i).bits → ((XMVectorCosH c V).lane i).bits = 0x7F800000#32 ∧ ((XMVectorSinH c V).lane i).bits = 0x7F800000#32) ∧
    (value (V.lane i).bits ≤ -90 → ((XMVectorCosH c V).lane i).bits = 0x7F800000#32 ∧ ((XMVectorSinH c V).lane i).bits = 0xFF800000#32) := by
  rw [cosh_lane c hs, sinh_lane c hs]
  generalize V.lane i = x at *
  have sv := scale_val (P := P); have nv := negone_val (P := P)
  refine ⟨fun h => ?_, fun h => ?_⟩
  · have h' : 90 ≤ val x := h
    have hp : 129 ≤ val x * val (lit 0x3FB8AA3B#32 : F32 P) := by rw [sv.2]; linarith
    obtain ⟨a1, a2⟩ := arg_up c hf sv.1 nv.1 nv.2 hp
    obtain ⟨b1, b2⟩ := narg_down c hf sv.1 nv.1 nv.2 hp
    rw [exp2_big c a1 a2]
    have g := exp2_fin c b1 b2
    exact ((add_special P 0x7F800000#32 _).2.1 (by decide) g)
  · have h' : val x ≤ -90 := h
    have hp : val x * val (lit 0x3FB8AA3B#32 : F32 P) ≤ -129 := by rw [sv.2]; linarith
    obtain ⟨a1, a2⟩ := arg_down c hf sv.1 nv.1 nv.2 hp
    obtain ⟨b1, b2⟩ := narg_up c hf sv.1 nv.1 nv.2 hp
    rw [exp2_big c b1 b2]
    have g := exp2_fin c a1 a2
    exact ((add_special P _ 0x7F800000#32).2.2.1 g (by decide))

/-! ### the hyperbolic tangent -/
theorem max_finite {r : BitVec 32} (h : IsFinite r) : value r ≤ 2^128 - 2^104 := by
  have e : value 0x7F7FFFFF#32 = 2^128 - 2^104 := by
    rw [value_eq, show ival 0x7F7FFFFF#32 = 16777215 * 2^253 by decide +kernel]; push_cast; norm_num
  rw [← e, ← not_lt, value_key, not_lt]
  rw [finite_iff] at h
  have h2 : key 0x7F7FFFFF#32 = 0x7F7FFFFF := by decide
  rw [h2]; unfold key; split_ifs <;> omega
theorem recip_close {D D' : ℝ} (h0 : 1/2 ≤ D) (h : |D' - D| ≤ ulp2 * (21/10) * D) : 0 < D' ∧ |1/D' - 1/D| ≤ ulp2 * (43/10) ∧ 1/D' ≤ 201/100 := by
  have hu : ulp2 ≤ 1/1000 := by norm_num [ulp2]
  have hu0 := u_pos
  obtain ⟨h1, h2⟩ := abs_le.1 h
  have hD : 0 < D := by linarith
  have h3 : ulp2 * (21/10) * D ≤ 1/1000 * (21/10) * D := by nlinarith
  have hD' : 498/1000 ≤ D' := by linarith
  have hp : 0 < D' := by linarith
  refine ⟨hp, ?_, ?_⟩
  · rw [show 1/D' - 1/D = (D - D') / (D' * D) by field_simp, abs_div, abs_of_pos (by positivity : 0 < D' * D), div_le_iff₀ (by positivity), abs_sub_comm]
    refine h.trans ?_
    have : (21/10) ≤ (43/10) * D' := by nlinarith
    calc ulp2 * (21/10) * D ≤ ulp2 * ((43/10) * D') * D := by
          apply mul_le_mul_of_nonneg_right _ hD.le
          exact mul_le_mul_of_nonneg_left this hu0.le
      _ = _ := by ring
  · rw [div_le_iff₀ hp]; linarith
theorem tanh_post (c : Cfg) {E : F32 P} (hE : Fin' E) (h0 : 0 ≤ val E) :
    Fin' (Lane.sub (lit 0x3F800000#32) (Lane.div (lit 0x3F800000#32) (fm c E (lit 0x3F000000#32) (lit 0x3F000000#32)))) ∧
    |val (Lane.sub (lit 0x3F800000#32) (Lane.div (lit 0x3F800000#32) (fm c E (lit 0x3F000000#32) (lit 0x3F000000#32)))) - (1 - 2 / (1 + val E))| ≤ 8 * ulp2 := by
  have hu0 := u_pos; have ht := tiny_pos
  have hu : ulp2 ≤ 1/1000 := by norm_num [ulp2]
  have ht1 : tiny ≤ 1/1000 := by norm_num [tiny]
  have o := one_val (P := P); have hh := half_val (P := P)
  have hmax : val E ≤ 2^128 - 2^104 := max_finite hE
  obtain ⟨f1, e1⟩ := fm_err c (M := val E * (1/2)) (K := 1/2) hE hh.1 hh.1 (by rw [hh.2, abs_of_nonneg (by linarith)]) (by rw [hh.2, abs_of_pos] <;> norm_num)
    (by unfold overflow; norm_num at *; linarith)
  rw [hh.2] at e1
  generalize fm c E (lit 0x3F000000#32) (lit 0x3F000000#32) = D at *
  have hq : 2 / (1 + val E) = 1 / (val E * (1/2) + 1/2) := by field_simp; ring
  rw [hq]
  have hd : 1/2 ≤ val E * (1/2) + 1/2 := by linarith
  have e2 : ulp2 * (val E * (1/2) + tiny) + ulp2 * (val E * (1/2) + 1/2 + ulp2 * (val E * (1/2) + tiny)) ≤ ulp2 * (21/10) * (val E * (1/2) + 1/2) := by
    have h1 : val E * (1/2) + tiny ≤ val E * (1/2) + 1/2 := by linarith
    have h2 : ulp2 * (val E * (1/2) + tiny) ≤ ulp2 * (val E * (1/2) + 1/2) := mul_le_mul_of_nonneg_left h1 hu0.le
    have h3 : ulp2 * (val E * (1/2) + 1/2) ≤ 1/1000 * (val E * (1/2) + 1/2) := mul_le_mul_of_nonneg_right hu (by linarith)
    have h4 : ulp2 * (ulp2 * (val E * (1/2) + tiny)) ≤ ulp2 * (1/1000 * (val E * (1/2) + 1/2)) := mul_le_mul_of_nonneg_left (h2.trans h3) hu0.le
    have h5 : 0 ≤ ulp2 * (val E * (1/2) + 1/2) := by positivity
    linarith
  obtain ⟨p, e3, e4⟩ := recip_close hd (e1.trans e2)
  generalize 1 / (val E * (1/2) + 1/2) = q at *
  have R := div_rounds P o.1 f1 p.ne'
  have R' : Rounds (1 / val D) (Lane.div (lit 0x3F800000#32) D : F32 P).bits := by have := o.2; rw [← this]; exact R
  obtain ⟨f5, e5⟩ := rounds_err R' (by rw [abs_of_pos (by positivity)]; unfold overflow; norm_num at *; linarith)
  rw [abs_of_pos (by positivity : 0 < 1 / val D)] at e5
  generalize Lane.div (lit 0x3F800000#32) D = Q at *
  have e5' : |val Q - 1 / val D| ≤ ulp2 * (1 / val D + tiny) := e5
  have hQ1 : ulp2 * (1 / val D + tiny) ≤ ulp2 * (202/100) := mul_le_mul_of_nonneg_left (by linarith) hu0.le
  have hi : 0 < 1 / val D := by positivity
  have e6 : |1 - val Q| ≤ 11/10 := by
    rw [abs_le] at e5' ⊢; constructor <;> linarith [e5'.1, e5'.2]
  have e7 := sub_rounds P o.1 f5
  obtain ⟨n, hn⟩ := int_val (lit 0x3F800000#32 : F32 P); obtain ⟨m, hm⟩ := int_val Q
  have e8 : Rounds (1 - val Q) (Lane.sub (lit 0x3F800000#32) Q : F32 P).bits := by have := o.2; rw [← this]; exact e7
  obtain ⟨f9, e9⟩ := rounds_err' e8 (e6.trans_lt (by unfold overflow; norm_num)) (n - m) (by
    push_cast; rw [sub_mul, ← hm, ← hn, o.2])
  refine ⟨f9, ?_⟩
  have e9' : |val (Lane.sub (lit 0x3F800000#32) Q : F32 P) - (1 - val Q)| ≤ ulp2 * (11/10) := le_trans e9 (mul_le_mul_of_nonneg_left e6 hu0.le)
  generalize val (Lane.sub (lit 0x3F800000#32) Q : F32 P) = r at *
  generalize 1 / val D = i at *
  generalize ulp2 = u at *
  rw [abs_le] at *
  constructor <;> linarith [e9'.1, e9'.2, e3.1, e3.2, e5'.1, e5'.2]

theorem tanh_exp (v : ℝ) : Real.tanh v = 1 - 2 / (1 + Real.exp (2 * v)) := by
  rw [Real.tanh_eq]
  have p := Real.exp_pos v; have q := Real.exp_pos (-v)
  have e : Real.exp (2 * v) = Real.exp v * Real.exp v := by rw [← Real.exp_add]; congr 1; ring
  have c : Real.exp v * Real.exp (-v) = 1 := by rw [← Real.exp_add]; simp
  rw [e, eq_sub_iff_add_eq, div_add_div _ _ (by positivity) (by positivity), div_eq_one_iff_eq (by positivity)]
  nlinarith
theorem ratio_close {Y E ε : ℝ} (hY : 0 < Y) (hε : ε ≤ 1/10) (h : |E - Y| ≤ ε * Y) : 0 < E ∧ |(1 - 2/(1+E)) - (1 - 2/(1+Y))| ≤ ε * (5/9) := by
  have h0 : 0 ≤ ε := by
    by_contra hc; have := (abs_nonneg _).trans h; nlinarith
  obtain ⟨h1, h2⟩ := abs_le.1 h
  have hE : 9/10 * Y ≤ E := by nlinarith
  have hE0 : 0 < E := by linarith
  refine ⟨hE0, ?_⟩
  rw [show (1 - 2/(1+E)) - (1 - 2/(1+Y)) = 2 * (E - Y) / ((1+E) * (1+Y)) by field_simp; ring, abs_div, abs_of_pos (by positivity : 0 < (1+E) * (1+Y)), div_le_iff₀ (by positivity), abs_mul, abs_of_pos (by norm_num : (0:ℝ) < 2)]
  have h3 : 9/10 * (1 + Y) ≤ 1 + E := by linarith
  have h4 : 9/10 * (1 + Y) * (1 + Y) ≤ (1 + E) * (1 + Y) := mul_le_mul_of_nonneg_right h3 (by linarith)
  have h5 : 4 * Y ≤ (1 + Y) * (1 + Y) := by nlinarith [sq_nonneg (1 - Y)]
  have h6 : 18/5 * Y ≤ (1 + E) * (1 + Y) := by linarith
  have h7 : ε * (5/9) * (18/5 * Y) ≤ ε * (5/9) * ((1 + E) * (1 + Y)) := mul_le_mul_of_nonneg_left h6 (by positivity)
  linarith
theorem tail_close {E Y : ℝ} (hE : 2^40 ≤ E) (hY : 2^40 ≤ Y) : |(1 - 2/(1+E)) - (1 - 2/(1+Y))| ≤ 1/10^8 := by
  have a : 0 < 2/(1+E) ∧ 2/(1+E) ≤ 1/10^9 := ⟨by positivity, by rw [div_le_iff₀ (by linarith)]; norm_num at *; linarith⟩
  have b : 0 < 2/(1+Y) ∧ 2/(1+Y) ≤ 1/10^9 := ⟨by positivity, by rw [div_le_iff₀ (by linarith)]; norm_num at *; linarith⟩
  obtain ⟨a1, a2⟩ := a; obtain ⟨b1, b2⟩ := b
  rw [abs_le]; constructor <;> linarith
theorem tail_close' {E Y : ℝ} (hE0 : 0 ≤ E) (hY0 : 0 ≤ Y) (hE : E ≤ 1/10^9) (hY : Y ≤ 1/10^9) : |(1 - 2/(1+E)) - (1 - 2/(1+Y))| ≤ 1/10^8 := by
  have k : ∀ {E : ℝ}, 0 ≤ E → E ≤ 1/10^9 → 2 - 2/10^9 ≤ 2/(1+E) ∧ 2/(1+E) ≤ 2 := fun h0 h => ⟨by rw [le_div_iff₀ (by linarith)]; norm_num at *; nlinarith, by rw [div_le_iff₀ (by linarith)]; linarith⟩
  have a := k hE0 hE; have b := k hY0 hY
  obtain ⟨a1, a2⟩ := a; obtain ⟨b1, b2⟩ := b
  rw [abs_le]; constructor <;> linarith
theorem lane_nonneg {E : F32 P} (h : -(2:ℝ)^(-150:ℤ) ≤ val E) : 0 ≤ val E := by
  obtain ⟨n, hn⟩ := int_val E
  rw [hn] at h ⊢
  have h2 : (2:ℝ)^(-150:ℤ) = 1/2 * (2:ℝ)^(-149:ℤ) := by rw [show (-150:ℤ) = -1 + -149 by norm_num, zpow_add₀ (by norm_num)]; norm_num
  have hp : (0:ℝ) < (2:ℝ)^(-149:ℤ) := by positivity
  have : -1/2 ≤ (n:ℝ) := by
    by_contra hc; rw [h2] at h; nlinarith
  have h3 : 0 ≤ n := by
    by_contra hc
    have h4 : n ≤ -1 := by omega
    have h5 : (n:ℝ) ≤ -1 := by exact_mod_cast h4
    linarith
  have : (0:ℝ) ≤ n := by exact_mod_cast h3
  positivity
theorem exp_lower {v : ℝ} (h : 16 ≤ v) : 2^40 ≤ Real.exp (2 * v) := by
  have hl : 0 < Real.log 2 := Real.log_pos (by norm_num)
  obtain ⟨h1, h2⟩ := abs_le.1 log2_near
  rw [← two_pow_log]
  calc (2:ℝ)^40 = (2:ℝ)^(((40:ℕ):ℝ)) := by rw [Real.rpow_natCast]
    _ ≤ _ := Real.rpow_le_rpow_of_exponent_le (by norm_num) (by rw [le_div_iff₀ hl]; norm_num at *; linarith)
theorem exp_upper {v : ℝ} (h : v ≤ -16) : Real.exp (2 * v) ≤ 1/10^9 := by
  have h1 := exp_lower (v := -v) (by linarith)
  have c : Real.exp (2 * v) * Real.exp (2 * -v) = 1 := by rw [← Real.exp_add]; simp
  have p := Real.exp_pos (2 * v)
  have h2 : Real.exp (2 * v) * 2^40 ≤ 1 := c ▸ mul_le_mul_of_nonneg_left h1 p.le
  norm_num at *; linarith
theorem not_inf_of_lt {x : F32 P} (hn : isNaN x.bits = false) (h : |val x| < 2^128) : IsFinite x.bits := by
  rw [finite_iff']; refine ⟨hn, ?_⟩
  by_contra hc
  have hi : isInf x.bits = true := by simpa using hc
  have ham : am x.bits = 0x7F800000 := by unfold isInf at hi; simpa using hi
  have h2 : |val x| = (magN 0x7F800000 : ℝ) * 2^(-149:ℤ) := by rw [← ham]; exact value_abs _
  rw [h2, show magN 0x7F800000 = 2^150 * 2^127 by decide +kernel] at h
  push_cast at h; norm_num at h

/-- One lane of XMVectorTanH (SSE builds). -/
theorem tanh_lane (c : Cfg) (hs : c.sse = true) (V : V4 (F32 P)) (i : Fin 4) : (XMVectorTanH c V).lane i =
    Lane.sub (lit 0x3F800000#32) (Lane.div (lit 0x3F800000#32) (fm c (exp2L c (Lane.mul (V.lane i) (lit 0x4038AA3B#32))) (lit 0x3F000000#32) (lit 0x3F000000#32))) := by
  unfold XMVectorTanH; rw [if_pos hs]
  have h : ∀ (A B : V4 (F32 P)) (j : Fin 4), (SSE.sub A B).lane j = Lane.sub (A.lane j) (B.lane j) := fun A B j => by fin_cases j <;> rfl
  have h' : ∀ (A B : V4 (F32 P)) (j : Fin 4), (SSE.div A B).lane j = Lane.div (A.lane j) (B.lane j) := fun A B j => by fin_cases j <;> rfl
  have h'' : ∀ (A B : V4 (F32 P)) (j : Fin 4), (SSE.mul A B).lane j = Lane.mul (A.lane j) (B.lane j) := fun A B j => by fin_cases j <;> rfl
  simp only [h, h', XMVectorExp]
  rw [fmadd_lane, exp2_lane c hs, h'']
  have h2 : (g_XMOne : V4 (F32 P)).lane i = lit 0x3F800000#32 := by fin_cases i <;> rfl
  have h3 : (g_XMOneHalf : V4 (F32 P)).lane i = lit 0x3F000000#32 := by fin_cases i <;> rfl
  have h4 : (V4.splat (Lane.ofBits 0x4038AA3B#32) : V4 (F32 P)).lane i = lit 0x4038AA3B#32 := by fin_cases i <;> rfl
  rw [h2, h3, h4]
/-- The tangent when the exponential overflows. -/
theorem tanh_inf (c : Cfg) : (Lane.sub (lit 0x3F800000#32) (Lane.div (lit 0x3F800000#32) (fm c (lit 0x7F800000#32) (lit 0x3F000000#32) (lit 0x3F000000#32))) : F32 P) = lit 0x3F800000#32 := by
  have h1 : (fm c (lit 0x7F800000#32) (lit 0x3F000000#32) (lit 0x3F000000#32) : F32 P) = lit 0x7F800000#32 := by
    unfold fm; split_ifs
    · show fma P 0x7F800000#32 0x3F000000#32 0x3F000000#32 = 0x7F800000#32
      unfold fma fmaCore
      rw [if_neg (by decide +kernel), if_pos (by decide +kernel), if_neg (by decide +kernel), if_neg (by decide +kernel)]; decide +kernel
    · have m : (Lane.mul (lit 0x7F800000#32) (lit 0x3F000000#32) : F32 P) = lit 0x7F800000#32 := by
        show mul P 0x7F800000#32 0x3F000000#32 = 0x7F800000#32
        unfold mul
        rw [if_neg (by decide +kernel), if_pos (by decide +kernel), if_neg (by decide +kernel)]; decide +kernel
      rw [m]; exact ((add_special P 0x7F800000#32 0x3F000000#32).2.1 (by decide) (by decide)).1
  have h2 : (Lane.div (lit 0x3F800000#32) (lit 0x7F800000#32) : F32 P) = lit 0#32 := by
    show div P 0x3F800000#32 0x7F800000#32 = 0#32
    unfold div
    rw [if_neg (by decide +kernel), if_neg (by decide +kernel), if_pos (by decide +kernel)]; decide +kernel
  rw [h1, h2]; exact sub_c (by decide +kernel)

/-- C100: XMVectorTanH is within `2^-16` of the hyperbolic tangent, for every finite argument. -/
theorem C100_tanh (c : Cfg) (hs : c.sse = true) (V : V4 (F32 P)) (i : Fin 4) (hf : IsFinite (V.lane i).bits) :
    IsFinite ((XMVectorTanH c V).lane i).bits ∧ |value ((XMVectorTanH c V).lane i).bits - Real.tanh (value (V.lane i).bits)| ≤ 2^(-16:ℤ) := by
  rw [tanh_lane c hs]
  generalize V.lane i = x at *
  have sv := scale2_val (P := P)
  have R : Rounds (val x * (12102203/4194304)) (Lane.mul x (lit 0x4038AA3B#32)).bits := by have := sv.2; rw [← this]; exact mul_rounds P hf sv.1
  have h8 : 8 * ulp2 ≤ 1/10^6 := by norm_num [ulp2]
  have h16 : (2:ℝ)^(-16:ℤ) = 1/65536 := by norm_num
  have ov : (200:ℝ) < overflow := by unfold overflow; norm_num
  have r46 : Rep (46:ℝ) := by exact_mod_cast rep_nat 46
  have r46' : Rep (-46:ℝ) := by exact_mod_cast rep_nat (-46)
  show _ ∧ |val _ - Real.tanh (val x)| ≤ _
  rw [tanh_exp]
  generalize Lane.mul x (lit 0x4038AA3B#32) = w at *
  rcases le_or_gt 16 (val x) with hb | hb
  · obtain ⟨k1, k2⟩ := round_ge R r46 (by rw [abs_of_pos] <;> linarith) (by linarith)
    have k2' : 46 ≤ val w := k2
    have hn : isNaN w.bits = false := k1.elim fin_not_nan fun h => by rw [h]; decide
    have hY := exp_lower hb
    rcases le_or_gt 128 (val w) with h1 | h1
    · rw [exp2_big c hn h1, tanh_inf]
      refine ⟨one_val.1, ?_⟩
      rw [one_val.2, h16]
      have b : 0 < 2/(1+Real.exp (2 * val x)) ∧ 2/(1+Real.exp (2 * val x)) ≤ 1/10^9 := ⟨by positivity, by rw [div_le_iff₀ (by linarith)]; norm_num at *; linarith⟩
      obtain ⟨b1, b2⟩ := b
      rw [abs_le]; constructor <;> linarith
    · obtain ⟨f, e⟩ := exp2_pos c (not_inf_of_lt hn (by rw [abs_of_pos] <;> norm_num at * <;> linarith)) (by linarith) h1
      have hp : (2:ℝ)^46 ≤ (2:ℝ)^(val w) := by
        rw [← Real.rpow_natCast]; exact Real.rpow_le_rpow_of_exponent_le (by norm_num) (by push_cast; linarith)
      have h20 : (2:ℝ)^(-20:ℤ) ≤ 1/2 := by norm_num
      have hE : 2^40 ≤ val (exp2L c w) := by
        have := (abs_le.1 e).1
        have h3 : (2:ℝ)^(-20:ℤ) * (2:ℝ)^(val w) ≤ 1/2 * (2:ℝ)^(val w) := mul_le_mul_of_nonneg_right h20 (by positivity)
        generalize (2:ℝ)^(-20:ℤ) * (2:ℝ)^(val w) = q at *
        generalize (2:ℝ)^(val w) = B at *
        norm_num at hp ⊢; linarith
      obtain ⟨g, d⟩ := tanh_post c f (by linarith)
      refine ⟨g, ?_⟩
      have t := tail_close hE hY
      have := abs_sub_le (val (Lane.sub (lit 0x3F800000#32) (Lane.div (lit 0x3F800000#32) (fm c (exp2L c w) (lit 0x3F000000#32) (lit 0x3F000000#32))))) (1 - 2 / (1 + val (exp2L c w))) (1 - 2 / (1 + Real.exp (2 * val x)))
      rw [h16]; norm_num at *; linarith
  rcases le_or_gt (val x) (-16) with hc | hc
  · obtain ⟨k1, k2⟩ := round_le R r46' (by rw [abs_of_neg] <;> linarith) (by linarith)
    have k2' : val w ≤ -46 := k2
    have hn : isNaN w.bits = false := k1.elim fin_not_nan fun h => by rw [h]; decide
    have hY := exp_upper hc
    have hE : Fin' (exp2L c w) ∧ 0 ≤ val (exp2L c w) ∧ val (exp2L c w) ≤ 1/10^9 := by
      rcases lt_or_ge (-150) (val w) with h1 | h1
      · obtain ⟨f, e⟩ := exp2_neg c (not_inf_of_lt hn (by rw [abs_of_neg] <;> norm_num at * <;> linarith)) (by linarith) h1
        have hp : (2:ℝ)^(val w) ≤ (2:ℝ)^(-46:ℤ) := by
          rw [← Real.rpow_intCast]; exact Real.rpow_le_rpow_of_exponent_le (by norm_num) (by push_cast; linarith)
        have hp0 : 0 < (2:ℝ)^(val w) := by positivity
        have h150 : (2:ℝ)^(-150:ℤ) ≤ 1/10^11 := by norm_num
        obtain ⟨e1, e2⟩ := abs_le.1 e
        refine ⟨f, lane_nonneg ?_, ?_⟩
        · generalize (2:ℝ)^(-150:ℤ) = T at *; linarith
        · have h46 : (2:ℝ)^(-46:ℤ) ≤ 1/10^11 := by norm_num
          generalize (2:ℝ)^(-150:ℤ) = T at *
          generalize (2:ℝ)^(-46:ℤ) = T' at *
          norm_num at *; linarith
      · rw [exp2_low c hn h1]
        refine ⟨lit_fin (by decide), ?_⟩
        rw [lit_val (n := 0) (by decide +kernel)]; norm_num
    obtain ⟨f, e0, e1⟩ := hE
    obtain ⟨g, d⟩ := tanh_post c f e0
    refine ⟨g, ?_⟩
    have t := tail_close' e0 (Real.exp_pos _).le e1 hY
    have := abs_sub_le (val (Lane.sub (lit 0x3F800000#32) (Lane.div (lit 0x3F800000#32) (fm c (exp2L c w) (lit 0x3F000000#32) (lit 0x3F000000#32))))) (1 - 2 / (1 + val (exp2L c w))) (1 - 2 / (1 + Real.exp (2 * val x)))
    rw [h16]; norm_num at *; linarith
  · have hx : |val x| ≤ 16 := by rw [abs_le]; constructor <;> linarith
    have hm : |val x * (12102203/4194304)| ≤ 47 := by
      rw [abs_mul, abs_of_pos (by norm_num : (0:ℝ) < 12102203/4194304)]; norm_num at *; linarith
    obtain ⟨fw, ew⟩ := rounds_err R (hm.trans_lt (by linarith))
    have hu : ulp2 * (|val x * (12102203/4194304)| + tiny) ≤ 281/10^8 := by
      calc _ ≤ ulp2 * (47 + tiny) := mul_le_mul_of_nonneg_left (by linarith) u_pos.le
        _ ≤ _ := by norm_num [ulp2, tiny]
    have hw : |val w - 2 * val x / Real.log 2| ≤ 35/10^7 := by
      have h2 : |val x * (12102203/4194304) - 2 * val x / Real.log 2| ≤ 68/10^8 := by
        rw [show val x * (12102203/4194304) - 2 * val x / Real.log 2 = 2 * val x * (12102203/8388608 - 1 / Real.log 2) by ring, abs_mul, abs_mul, abs_of_pos (by norm_num : (0:ℝ) < 2)]
        calc _ ≤ 2 * 16 * (21/10^9) := mul_le_mul (by linarith) scale_near (abs_nonneg _) (by norm_num)
          _ ≤ _ := by norm_num
      have := abs_sub_le (val w) (val x * (12102203/4194304)) (2 * val x / Real.log 2)
      have ew' : |val w - val x * (12102203/4194304)| ≤ ulp2 * (|val x * (12102203/4194304)| + tiny) := ew
      norm_num at *; linarith
    have hw2 : |val w| ≤ 48 := by
      have ew' : |val w - val x * (12102203/4194304)| ≤ ulp2 * (|val x * (12102203/4194304)| + tiny) := ew
      have := abs_add_le (val w - val x * (12102203/4194304)) (val x * (12102203/4194304))
      rw [sub_add_cancel] at this; norm_num at *; linarith
    obtain ⟨f, e⟩ := exp2_all c fw (by linarith [le_abs_self (val w)])
    have h2 := two_pow_close hw (by norm_num)
    rw [two_pow_log] at h2
    have hp0 : (2:ℝ)^(-48:ℤ) ≤ (2:ℝ)^(val w) := by
      rw [← Real.rpow_intCast]; exact Real.rpow_le_rpow_of_exponent_le (by norm_num) (by push_cast; linarith [neg_le_abs (val w)])
    have h150 : (2:ℝ)^(-150:ℤ) ≤ 1/10^8 * (2:ℝ)^(-48:ℤ) := by norm_num
    have hY := Real.exp_pos (2 * val x)
    have hEY : |val (exp2L c w) - Real.exp (2 * val x)| ≤ 25/10^6 * Real.exp (2 * val x) := by
      have h3 : (2:ℝ)^(-150:ℤ) ≤ 1/10^8 * (2:ℝ)^(val w) := h150.trans (mul_le_mul_of_nonneg_left hp0 (by norm_num))
      clear h150 hp0
      generalize (2:ℝ)^(-150:ℤ) = T at *
      generalize (2:ℝ)^(val w) = B at *
      generalize Real.exp (2 * val x) = Y at *
      generalize val (exp2L c w) = E at *
      clear R ew fw hw hw2 hm hu hx hb hc
      obtain ⟨a1, a2⟩ := abs_le.1 e; obtain ⟨b1, b2⟩ := abs_le.1 h2
      rw [abs_le]; constructor <;> linarith
    obtain ⟨e0, t⟩ := ratio_close hY (by norm_num) hEY
    obtain ⟨g, d⟩ := tanh_post c f e0.le
    refine ⟨g, ?_⟩
    have := abs_sub_le (val (Lane.sub (lit 0x3F800000#32) (Lane.div (lit 0x3F800000#32) (fm c (exp2L c w) (lit 0x3F000000#32) (lit 0x3F000000#32))))) (1 - 2 / (1 + val (exp2L c w))) (1 - 2 / (1 + Real.exp (2 * val x)))
    rw [h16]; norm_num at *; linarith

/-- C100: the hyperbolic tangent of plus and minus infinity is plus and minus one. -/
theorem C100_tanh_special (c : Cfg) (hs : c.sse = true) (V : V4 (F32 P)) (i : Fin 4) :
    ((V.lane i).bits = 0x7F800000#32 → ((XMVectorTanH c V).lane i).bits = 0x3F800000#32) ∧
    ((V.lane i).bits = 0xFF800000#32 → ((XMVectorTanH c V).lane i).bits = 0xBF800000#32) := by
  rw [tanh_lane c hs]
  refine ⟨fun h => ?_, fun h => ?_⟩
  · have h' : V.lane i = lit 0x7F800000#32 := h
    have m : (Lane.mul (lit 0x7F800000#32) (lit 0x4038AA3B#32) : F32 P) = lit 0x7F800000#32 := by
      show mul P 0x7F800000#32 0x4038AA3B#32 = 0x7F800000#32
      unfold mul
      rw [if_neg (by decide +kernel), if_pos (by decide +kernel), if_neg (by decide +kernel)]; decide +kernel
    rw [h', m, exp2_big c (by show isNaN 0x7F800000#32 = false; decide) (by show 128 ≤ value 0x7F800000#32; rw [value_inf]; norm_num), tanh_inf]; rfl
  · have h' : V.lane i = lit 0xFF800000#32 := h
    have m : (Lane.mul (lit 0xFF800000#32) (lit 0x4038AA3B#32) : F32 P) = lit 0xFF800000#32 := by
      show mul P 0xFF800000#32 0x4038AA3B#32 = 0xFF800000#32
      unfold mul
      rw [if_neg (by decide +kernel), if_pos (by decide +kernel), if_neg (by decide +kernel)]; decide +kernel
    have f : (fm c (lit 0#32) (lit 0x3F000000#32) (lit 0x3F000000#32) : F32 P) = lit 0x3F000000#32 := by
      unfold fm; split_ifs
      · show fma P 0#32 0x3F000000#32 0x3F000000#32 = 0x3F000000#32
        unfold fma fmaCore
        rw [if_neg (by decide +kernel), if_neg (by decide +kernel), if_neg (by decide +kernel)]; decide +kernel
      · have m : (Lane.mul (lit 0#32) (lit 0x3F000000#32) : F32 P) = lit 0#32 := mul_c (by decide +kernel)
        rw [m]; exact add_c (by decide +kernel)
    have d : (Lane.div (lit 0x3F800000#32) (lit 0x3F000000#32) : F32 P) = lit 0x40000000#32 := div_c (by decide +kernel)
    rw [h', m, exp2_low c (by show isNaN 0xFF800000#32 = false; decide) (by show value 0xFF800000#32 ≤ -150; rw [value_ninf]; norm_num), f, d]
    have s : (Lane.sub (lit 0x3F800000#32) (lit 0x40000000#32) : F32 P) = lit 0xBF800000#32 := sub_c (by decide +kernel)
    rw [s]; rfl

/-- C100, a finding: the difference of exponentials cancels for small arguments.  XMVectorSinH returns zero for `2^-30`, whose hyperbolic sine is positive and far above
the smallest binary32 number; there is no bound on the relative error. -/
theorem C100_sinh_cancels : ∃ V : V4 (F32 P), IsFinite (V.lane 0).bits ∧ value (V.lane 0).bits = 2^(-30:ℤ) ∧ 2^(-30:ℤ) ≤ Real.sinh (value (V.lane 0).bits) ∧
    value ((XMVectorSinH Cfg.sse2 V).lane 0).bits = 0 := by
  have hv : value 0x30800000#32 = 2^(-30:ℤ) := by
    rw [value_eq, show ival 0x30800000#32 = 2^119 by decide +kernel]; push_cast; norm_num
  refine ⟨V4.splat (lit 0x30800000#32), (by show IsFinite 0x30800000#32; decide), hv, ?_, ?_⟩
  · show _ ≤ Real.sinh (value 0x30800000#32)
    rw [hv]; exact Real.self_le_sinh_iff.2 (by positivity)
  · rw [sinh_lane _ (by decide)]
    show value (Lane.sub (exp2L Cfg.sse2 (fm Cfg.sse2 (lit 0x30800000#32) _ _)) (exp2L Cfg.sse2 (fnm Cfg.sse2 (lit 0x30800000#32) _ _))).bits = 0
    have m : (Lane.mul (lit 0x30800000#32) (lit 0x3FB8AA3B#32) : F32 P) = lit 0x30B8AA3B#32 := mul_c (by decide +kernel)
    have a : (fm Cfg.sse2 (lit 0x30800000#32) (lit 0x3FB8AA3B#32) (lit 0xBF800000#32) : F32 P) = lit 0xBF800000#32 := by
      unfold fm; rw [if_neg (by decide), m]; exact add_c (by decide +kernel)
    have b : (fnm Cfg.sse2 (lit 0x30800000#32) (lit 0x3FB8AA3B#32) (lit 0xBF800000#32) : F32 P) = lit 0xBF800000#32 := by
      unfold fnm; rw [if_neg (by decide), m]; exact sub_c (by decide +kernel)
    rw [a, b]
    have g := (exp2_all Cfg.sse2 (x := (lit 0xBF800000#32 : F32 P)) negone_val.1 (by rw [negone_val.2]; norm_num)).1
    have R := sub_rounds P g g
    rw [sub_self] at R
    exact (exact_of R (by exact_mod_cast rep_nat 0)).2

/-- The hypotheses of C99 and C100 are met: four exponents in four ranges. -/
def exExp : V4 (F32 P) := ⟨lit 0x40600000#32, lit 0xC1240000#32, lit 0xC30C0000#32, lit 0x42B40000#32⟩
theorem exExp_vals : value (exExp.x : F32 P).bits = 7/2 ∧ value (exExp.y : F32 P).bits = -41/4 ∧ value (exExp.z : F32 P).bits = -140 ∧ value (exExp.w : F32 P).bits = 90 := by
  refine ⟨?_, ?_, ?_, ?_⟩
  · show value 0x40600000#32 = _; rw [value_eq, show ival 0x40600000#32 = 7 * 2^148 by decide +kernel]; push_cast; norm_num
  · show value 0xC1240000#32 = _; rw [value_eq, show ival 0xC1240000#32 = -(41 * 2^147) by decide +kernel]; push_cast; norm_num
  · show value 0xC30C0000#32 = _; rw [value_eq, show ival 0xC30C0000#32 = -(140 * 2^149) by decide +kernel]; push_cast; norm_num
  · show value 0x42B40000#32 = _; rw [value_eq, show ival 0x42B40000#32 = 90 * 2^149 by decide +kernel]; push_cast; norm_num
theorem exExp_fin (i : Fin 4) : IsFinite ((exExp : V4 (F32 P)).lane i).bits := by
  fin_cases i
  · show IsFinite 0x40600000#32; decide
  · show IsFinite 0xC1240000#32; decide
  · show IsFinite 0xC30C0000#32; decide
  · show IsFinite 0x42B40000#32; decide
example : |value ((XMVectorExp2 Cfg.sse2 (exExp : V4 (F32 P))).lane 0).bits - (2:ℝ)^(7/2:ℝ)| ≤ 2^(-20:ℤ) * (2:ℝ)^(7/2:ℝ) := by
  have := (C99_exp2 (P := P) Cfg.sse2 rfl exExp 0 (exExp_fin _)).2.1
  rw [show value (exExp.lane 0 : F32 P).bits = 7/2 from exExp_vals.1] at this
  exact (this (by norm_num) (by norm_num)).2
example : |value ((XMVectorExp2 Cfg.avx2Build (exExp : V4 (F32 P))).lane 2).bits - (2:ℝ)^(-140:ℝ)| ≤ 2^(-15:ℤ) * (2:ℝ)^(-140:ℝ) + 2^(-150:ℤ) := by
  have := (C99_exp2 (P := P) Cfg.avx2Build rfl exExp 2 (exExp_fin _)).2.2.2.1
  rw [show value (exExp.lane 2 : F32 P).bits = -140 from exExp_vals.2.2.1] at this
  exact (this (by norm_num) (by norm_num)).2
example : |value ((XMVectorCosH Cfg.sse2 (exExp : V4 (F32 P))).lane 1).bits - Real.cosh (-41/4)| ≤ 2^(-14:ℤ) * Real.cosh (-41/4) := by
  have := (C100_cosh (P := P) Cfg.sse2 rfl exExp 1 (exExp_fin _) (by rw [show value (exExp.lane 1 : F32 P).bits = -41/4 from exExp_vals.2.1]; norm_num [abs_of_neg])).2
  rwa [show value (exExp.lane 1 : F32 P).bits = -41/4 from exExp_vals.2.1] at this
example : ((XMVectorCosH Cfg.sse2 (exExp : V4 (F32 P))).lane 3).bits = 0x7F800000#32 :=
  ((C100_large (P := P) Cfg.sse2 rfl exExp 3 (exExp_fin _)).1 (by rw [show value (exExp.lane 3 : F32 P).bits = 90 from exExp_vals.2.2.2])).1
end DXM.Props
