import Verif.Props.Rounding
import Verif.Props.FloatExp
import Verif.Props.FloatSphere
import Mathlib.Analysis.Real.Pi.Bounds

/-
C105: XMVectorMod on binary32 lanes, and the degree/radian conversions.
-/

set_option linter.all false

namespace DXM.Props
open DXM.Spec DXM.FErr DXM.IEEE
variable {P : Env}

theorem trunc_small {p : ℝ} (h : |p| < 1) : truncZ p = 0 := by
  have h1 := abs_lt.1 h
  unfold truncZ; split_ifs with h0
  · exact Int.floor_eq_zero_iff.2 ⟨h0, h1.2⟩
  · push Not at h0
    exact Int.ceil_eq_zero_iff.2 ⟨h1.1, h0.le⟩
theorem trunc_abs (p : ℝ) : |(truncZ p : ℝ)| ≤ |p| := by
  unfold truncZ; split_ifs with h0
  · have : (0:ℝ) ≤ (⌊p⌋ : ℝ) := by exact_mod_cast Int.floor_nonneg.2 h0
    rw [abs_of_nonneg this, abs_of_nonneg h0]; exact Int.floor_le p
  · push Not at h0
    have : (⌈p⌉ : ℝ) ≤ 0 := by exact_mod_cast Int.ceil_le.2 (by simpa using h0.le)
    rw [abs_of_nonpos this, abs_of_neg h0]; linarith [Int.le_ceil p]

/-- The rounded quotient, truncated, is the truncated quotient up to one rounding. -/
theorem trunc_quo {q : ℝ} {b : BitVec 32} (hr : Rounds q b) (hq : |q| ≤ 2^22) :
    IsFinite b ∧ 0 ≤ (truncZ (value b) : ℝ) * q ∧ |(truncZ (value b) : ℝ)| ≤ (1 + 1/2^22) * |q| ∧ |q| < |(truncZ (value b) : ℝ)| + 1 := by
  have hov : |q| < overflow := hq.trans_lt (by unfold overflow; norm_num)
  have hf := hr.finite hov
  refine ⟨hf, ?_⟩
  have hn : ∀ m : ℤ, |(m:ℝ)| ≤ 2^22 → |value b - q| ≤ |(m:ℝ) - q| := by
    intro m hm
    have hm' : m.natAbs ≤ 2^24 := by
      have h2 : |m| ≤ 2^22 := by exact_mod_cast hm
      have := Int.natCast_natAbs m
      omega
    obtain ⟨y, hy, e⟩ := rep_int m hm'
    rw [← e]; exact hr.nearest hov y hy
  have herr := (rounds_err hr (hov.trans_le (by unfold overflow; norm_num))).2
  set p := value b
  have hq0 := abs_nonneg q
  have hb : |(truncZ p : ℝ)| ≤ (1 + 1/2^22) * |q| := by
    by_cases h1 : |p| < 1
    · rw [trunc_small h1]; simp; positivity
    · have h2 := trunc_abs p
      have h3 : |p| ≤ |q| + |p - q| := by have := abs_sub_abs_le_abs_sub p q; linarith
      have hu : ulp2 = 1/2^24 := rfl
      have ht : tiny ≤ 1/2^10 := by unfold tiny; norm_num
      rw [hu] at herr
      push Not at h1
      norm_num at herr ht ⊢
      linarith
  by_cases h0 : 0 ≤ q
  · rw [abs_of_nonneg h0] at hq hb ⊢
    have hfl : (0:ℝ) ≤ (⌊q⌋ : ℝ) := by exact_mod_cast Int.floor_nonneg.2 h0
    have h1 := hn ⌊q⌋ (by rw [abs_of_nonneg hfl]; exact (Int.floor_le q).trans hq)
    have h2 : (⌊q⌋ : ℝ) ≤ p := by
      by_contra hc; push Not at hc
      have h3 := Int.floor_le q
      rw [abs_of_neg (by linarith), abs_of_nonpos (by linarith)] at h1
      linarith
    have h3 : ⌊q⌋ ≤ truncZ p := by
      unfold truncZ; rw [if_pos (hfl.trans h2)]; exact Int.le_floor.2 h2
    have h4 : (⌊q⌋ : ℝ) ≤ truncZ p := by exact_mod_cast h3
    have h5 : (0:ℝ) ≤ truncZ p := hfl.trans h4
    refine ⟨mul_nonneg h5 h0, hb, ?_⟩
    rw [abs_of_nonneg h5]
    linarith [Int.lt_floor_add_one q]
  · push Not at h0
    rw [abs_of_neg h0] at hq hb ⊢
    have hfl : (⌈q⌉ : ℝ) ≤ 0 := by exact_mod_cast Int.ceil_le.2 (by simpa using h0.le)
    have h1 := hn ⌈q⌉ (by rw [abs_of_nonpos hfl]; linarith [Int.le_ceil q])
    have h2 : p ≤ (⌈q⌉ : ℝ) := by
      by_contra hc; push Not at hc
      have h3 := Int.le_ceil q
      rw [abs_of_pos (by linarith), abs_of_nonneg (by linarith)] at h1
      linarith
    have h3 : truncZ p ≤ ⌈q⌉ := by
      unfold truncZ; split_ifs with hp
      · have e : p = 0 := le_antisymm (h2.trans hfl) hp
        rw [e] at h2 ⊢
        rw [Int.floor_zero]; exact_mod_cast h2
      · exact Int.ceil_le.2 h2
    have h4 : (truncZ p : ℝ) ≤ ⌈q⌉ := by exact_mod_cast h3
    have h5 : (truncZ p : ℝ) ≤ 0 := h4.trans hfl
    refine ⟨mul_nonneg_of_nonpos_of_nonpos h5 h0.le, hb, ?_⟩
    rw [abs_of_nonpos h5]
    linarith [Int.ceil_lt_add_one q]

/-- C105: `XMVectorMod` returns x - n y, rounded, where n is the quotient truncated toward zero, up to one rounding of the quotient. -/
theorem C105_mod (c : Cfg) (V1 V2 : V4 (F32 P)) (i : Fin 4) (h1 : IsFinite (V1.lane i).bits) (h2 : IsFinite (V2.lane i).bits)
    (h0 : value (V2.lane i).bits ≠ 0) (hq : |value (V1.lane i).bits / value (V2.lane i).bits| ≤ 2^22) :
    ∃ n : ℤ, let x := value (V1.lane i).bits; let y := value (V2.lane i).bits
      0 ≤ n * (x / y) ∧ |(n:ℝ)| ≤ (1 + 1/2^22) * |x / y| ∧ |x / y| < |(n:ℝ)| + 1 ∧
      Spec.Near ((XMVectorMod c V1 V2).lane i).bits (x - n * y) (|x| + |n * y| + tiny) 2 := by
  have hdr := div_rounds P h1 h2 h0
  obtain ⟨hf, k1, k2, k3⟩ := trunc_quo hdr hq
  refine ⟨_, k1, k2, k3, ?_⟩
  have ed : ((SSE.div V1 V2).lane i).bits = div P (V1.lane i).bits (V2.lane i).bits := by fin_cases i <;> rfl
  have ht := (C14_truncate c (SSE.div V1 V2) i).finite (by rw [ed]; exact hf)
  rw [ed] at ht
  obtain ⟨t1, n, rfl, t2⟩ := ht
  set n := truncZ (value (div P (V1.lane i).bits (V2.lane i).bits))
  set t := (XMVectorTruncate c (SSE.div V1 V2)).lane i
  have hx : Fin' (V1.lane i) := h1
  have hy : Fin' (V2.lane i) := h2
  have ht : Fin' t := t1
  have e : (XMVectorMod c V1 V2).lane i = Lane.fnma t (V2.lane i) (V1.lane i) ∨ (XMVectorMod c V1 V2).lane i = Lane.sub (V1.lane i) (Lane.mul t (V2.lane i)) ∨
      (XMVectorMod c V1 V2).lane i = Lane.sub (V1.lane i) (Lane.mul (V2.lane i) t) := by
    unfold XMVectorMod
    by_cases hs : c.sse = true
    · rw [if_pos hs]
      unfold SSE.fnmadd
      split_ifs
      · left; simp only [t]; fin_cases i <;> rfl
      · right; left; simp only [t]; fin_cases i <;> rfl
    · rw [if_neg hs]
      unfold XMVectorNegativeMultiplySubtract
      rw [if_neg hs]
      right; right; simp only [t]; fin_cases i <;> rfl
  have ev : val t = n := t2
  rcases e with e | e | e <;> rw [e] <;> refine Ap.near (k := 2) ?_ (by norm_num)
  · refine Ap.le (fnmaL ht hy (leaf hx)) ?_ ?_ (by norm_num)
    · rw [ev]
    · rw [ev]; apply le_of_eq; ring
  · refine Ap.le (Ap.sub (leaf hx) (mulL ht hy)) ?_ ?_ (by norm_num)
    · rw [ev]
    · rw [ev]; apply le_of_eq; ring
  · refine Ap.le (Ap.sub (leaf hx) (mulL hy ht)) ?_ ?_ (by norm_num)
    · rw [ev, mul_comm]
    · rw [ev, mul_comm (val _)]; apply le_of_eq; ring

/-- The dividend and divisor of the counterexample: 8034.3999 and 96.8. -/
def modX : F32 P := F32.ofBV 0x45FB1333#32
def modY : F32 P := F32.ofBV 0x42C1999A#32

theorem modX_val : value 0x45FB1333#32 = 16454451/2048 := by
  rw [value_eq, show ival 0x45FB1333#32 = 16454451 * 2^138 by decide +kernel]; push_cast; norm_num
theorem modY_val : value 0x42C1999A#32 = 12687770/131072 := by
  rw [value_eq, show ival 0x42C1999A#32 = 12687770 * 2^132 by decide +kernel]; push_cast; norm_num
theorem quo_bits : (Lane.div modX modY : F32 P) = F32.ofBV 0x42A60000#32 := div_c (by decide +kernel)

/-- C105: in every build the rounded quotient can reach the next integer, and the result is then negative although both arguments are positive
(the mathematical remainder is just below the divisor). -/
theorem C105_sign_fails (c : Cfg) :
    let r := ((XMVectorMod c (.splat modX) (.splat modY) : V4 (F32 P)).lane 0).bits
    0 < value (modX : F32 P).bits ∧ 0 < value (modY : F32 P).bits ∧ IsFinite r ∧ value r < 0 := by
  have ex : val (modX : F32 P) = 16454451/2048 := modX_val
  have ey : val (modY : F32 P) = 12687770/131072 := modY_val
  have hx : Fin' (modX : F32 P) := by show IsFinite 0x45FB1333#32; decide
  have hy : Fin' (modY : F32 P) := by show IsFinite 0x42C1999A#32; decide
  have h83 : value 0x42A60000#32 = 83 := by
    rw [value_eq, show ival 0x42A60000#32 = 83 * 2^149 by decide +kernel]; push_cast; norm_num
  have hm : value 0x45FB1334#32 = 16454452/2048 := by
    rw [value_eq, show ival 0x45FB1334#32 = 16454452 * 2^138 by decide +kernel]; push_cast; norm_num
  refine ⟨by rw [show value (modX : F32 P).bits = _ from ex]; norm_num, by rw [show value (modY : F32 P).bits = _ from ey]; norm_num, ?_⟩
  have ed : (SSE.div (.splat modX) (.splat modY) : V4 (F32 P)).lane 0 = F32.ofBV 0x42A60000#32 := quo_bits
  have ht := (C14_truncate c (SSE.div (.splat modX) (.splat modY) : V4 (F32 P)) 0).finite (by rw [ed]; show IsFinite 0x42A60000#32; decide)
  rw [ed, show value (F32.ofBV 0x42A60000#32 : F32 P).bits = 83 from h83] at ht
  obtain ⟨t1, n, hn, t2⟩ := ht
  have hn' : n = 83 := by rw [hn]; exact_mod_cast truncZ_int 83
  rw [hn'] at t2
  set t := (XMVectorTruncate c (SSE.div (.splat modX) (.splat modY) : V4 (F32 P))).lane 0 with htd
  have ev : val t = 83 := by have : val t = ((83:ℤ):ℝ) := t2; rw [this]; norm_num
  have ht : Fin' t := t1
  have hu : ulp2 = 1/2^24 := rfl
  have htiny : tiny ≤ 1/2^10 := by unfold tiny; norm_num
  have ov : (2:ℝ)^100 < overflow := by unfold overflow; norm_num
  have key : ∀ m : F32 P, Rounds (83 * (12687770/131072)) m.bits → Fin' (Lane.sub modX m) ∧ val (Lane.sub modX m) < 0 := by
    intro m hr
    have hov : |(83 * (12687770/131072) : ℝ)| < overflow := lt_trans (by norm_num) ov
    have hf : Fin' m := hr.finite hov
    have hne := hr.nearest hov 0x45FB1334#32 (by decide)
    rw [hm] at hne
    have h1 : (8034.4001 : ℝ) ≤ val m ∧ val m ≤ 8034.4004 := by
      have h2 := abs_le.1 (hne.trans (le_of_eq (by rw [abs_of_pos (by norm_num)])))
      have e : val m = value m.bits := rfl
      rw [e]
      constructor <;> · norm_num at h2 ⊢; linarith [h2.1, h2.2]
    have h2 := sub_rel hx hf (by
      rw [ex, abs_le]; norm_num at h1 ⊢; constructor <;> linarith [h1.1, h1.2])
    refine ⟨h2.1, ?_⟩
    have h3 := h2.2
    rw [ex, abs_of_neg (show (16454451/2048 - val m : ℝ) < 0 by norm_num at h1 ⊢; linarith [h1.1]), hu] at h3
    have h4 := (abs_le.1 h3).2
    norm_num at h1 h4 ⊢; linarith [h1.1]
  by_cases hs : c.sse = true
  · have e : (XMVectorMod c (.splat modX) (.splat modY) : V4 (F32 P)).lane 0 = if c.fma then Lane.fnma t modY modX else Lane.sub modX (Lane.mul t modY) := by
      unfold XMVectorMod; rw [if_pos hs]; unfold SSE.fnmadd; split_ifs <;> rfl
    rw [e]
    by_cases hfm : c.fma = true
    · rw [if_pos hfm]
      have hr := fnma_rounds P ht hy hx
      have hr' : Rounds (16454451/2048 - 83 * (12687770/131072)) (Lane.fnma t modY modX : F32 P).bits := by
        rw [← ex, ← ey, ← ev]; exact hr
      have h5 := rounds_err hr' (lt_trans (by norm_num) ov)
      refine ⟨h5.1, ?_⟩
      have h6 := (abs_le.1 h5.2).2
      rw [hu, abs_of_neg (by norm_num)] at h6
      norm_num at h6 htiny ⊢; linarith
    · rw [if_neg hfm]
      exact key _ (by rw [← ey, ← ev]; exact mul_rounds P ht hy)
  · have e : (XMVectorMod c (.splat modX) (.splat modY) : V4 (F32 P)).lane 0 = Lane.sub modX (Lane.mul modY t) := by
      unfold XMVectorMod; rw [if_neg hs]; unfold XMVectorNegativeMultiplySubtract; rw [if_neg hs]; rfl
    rw [e]
    exact key _ (by rw [mul_comm, ← ey, ← ev]; exact mul_rounds P hy ht)

/-- The hypotheses of C105 on the counterexample. -/
example : IsFinite (modX : F32 P).bits ∧ IsFinite (modY : F32 P).bits ∧ value (modY : F32 P).bits ≠ 0 ∧
    |value (modX : F32 P).bits / value (modY : F32 P).bits| ≤ 2^22 := by
  rw [show value (modX : F32 P).bits = _ from modX_val, show value (modY : F32 P).bits = _ from modY_val]
  refine ⟨by show IsFinite 0x45FB1333#32; decide, by show IsFinite 0x42C1999A#32; decide, by norm_num, ?_⟩
  rw [abs_of_pos (by norm_num)]; norm_num

theorem pi_val : val (Lane.ofBits 0x40490FDB#32 : F32 P) = 13176795 / 2^22 := by
  show value 0x40490FDB#32 = _
  rw [value_eq, show ival 0x40490FDB#32 = 13176795 * 2^127 by decide +kernel]; push_cast; norm_num
theorem c180_val : val (Lane.ofBits 0x43340000#32 : F32 P) = 180 := by
  show value 0x43340000#32 = _
  rw [value_eq, show ival 0x43340000#32 = 180 * 2^149 by decide +kernel]; push_cast; norm_num

/-- C105: degrees to radians and back, on every f32 that does not overflow. -/
theorem C105_convert (d : F32 P) (hd : IsFinite d.bits) :
    (|value d.bits| ≤ 2^126 → IsFinite (XMConvertToRadians d).bits ∧
      |value (XMConvertToRadians d).bits - value d.bits * (Real.pi / 180)| ≤ 1/2^22 * |value d.bits * (Real.pi / 180)| + tiny) ∧
    (|value d.bits| ≤ 2^120 → IsFinite (XMConvertToDegrees d).bits ∧
      |value (XMConvertToDegrees d).bits - value d.bits * (180 / Real.pi)| ≤ 1/2^22 * |value d.bits * (180 / Real.pi)| + tiny) := by
  have p1 := Real.pi_gt_d20; have p2 := Real.pi_lt_d20
  have hpi := Real.pi_pos
  have fp : Fin' (Lane.ofBits 0x40490FDB#32 : F32 P) := by show IsFinite 0x40490FDB#32; decide
  have f180 : Fin' (Lane.ofBits 0x43340000#32 : F32 P) := by show IsFinite 0x43340000#32; decide
  have hu : ulp2 = 1/2^24 := rfl
  have ov : (2:ℝ)^127 < overflow := by unfold overflow; norm_num
  have ht : tiny ≤ 1/2^100 := by unfold tiny; norm_num
  have ht0 := tiny_pos
  have key : ∀ (k : F32 P) (K : ℝ) (B : ℝ), Fin' k → 0 < K → |val k - K| ≤ 5/2 * ulp2 * K → |val d| ≤ B → B * (2 * K) ≤ 2^127 →
      IsFinite (Lane.mul d k : F32 P).bits ∧ |value (Lane.mul d k : F32 P).bits - value d.bits * K| ≤ 1/2^22 * |value d.bits * K| + tiny := by
    intro k K B hk hK h1 hB hBK
    have h2 := mul_rounds P hd hk
    have e : val d * K = val d * val k - val d * (val k - K) := by ring
    have h3 : |val d * (val k - K)| ≤ 5/2 * ulp2 * |val d * K| := by
      rw [abs_mul, abs_mul, abs_of_pos hK]
      calc |val d| * |val k - K| ≤ |val d| * (5/2 * ulp2 * K) := mul_le_mul_of_nonneg_left h1 (abs_nonneg _)
        _ = _ := by ring
    have h4 : |val d * val k| ≤ (1 + 5/2 * ulp2) * |val d * K| := by
      have : val d * val k = val d * K + val d * (val k - K) := by ring
      rw [this]; refine (abs_add_le _ _).trans ?_; linarith
    have h5 : |val d * K| ≤ B * K := by rw [abs_mul, abs_of_pos hK]; exact mul_le_mul_of_nonneg_right hB hK.le
    have h6 : |val d * val k| < overflow := by
      have h0 := abs_nonneg (val d * K)
      rw [hu] at h4
      refine lt_of_le_of_lt ?_ ov
      have : (1 + 5/2 * (1/2^24) : ℝ) * |val d * K| ≤ 2 * |val d * K| := by apply mul_le_mul_of_nonneg_right _ h0; norm_num
      linarith
    obtain ⟨h7, h8⟩ := rounds_err h2 h6
    refine ⟨h7, ?_⟩
    have e2 : value (Lane.mul d k : F32 P).bits - val d * K = (value (Lane.mul d k : F32 P).bits - val d * val k) + val d * (val k - K) := by ring
    show |value (Lane.mul d k : F32 P).bits - val d * K| ≤ 1/2^22 * |val d * K| + tiny
    rw [e2]
    refine (abs_add_le _ _).trans ?_
    have h9 : |value (Lane.mul d k : F32 P).bits - val d * val k| ≤ ulp2 * (|val d * val k| + tiny) := h8
    have h0 := abs_nonneg (val d * K)
    rw [hu] at h3 h4 h9
    have h0' : 0 ≤ |val d| * |K| := by positivity
    norm_num at h3 h4 h9 ⊢
    linarith
  have quo : ∀ (a b : F32 P) (K A B : ℝ), Fin' a → Fin' b → val a = A → val b = B → 0 < A → 0 < B → 0 < K → A / B ≤ 100 → 1/100 ≤ A / B → |A / B - K| ≤ 1 * ulp2 * K → Fin' (Lane.div a b) ∧ |val (Lane.div a b) - K| ≤ 5/2 * ulp2 * K := by
    intro a b K A B ha hb ea eb hA hB hK h1 h2 h3
    have hr := div_rounds P ha hb (by show val b ≠ 0; rw [eb]; exact hB.ne')
    have hq : 0 < A / B := by positivity
    have hr' : Rounds (A / B) (Lane.div a b : F32 P).bits := by rw [← ea, ← eb]; exact hr
    obtain ⟨h4, h5⟩ := rounds_err'' hr' (by rw [abs_of_pos hq]; exact h1.trans_lt (lt_trans (by norm_num) ov)) (by rw [abs_of_pos hq]; refine ht.trans (le_trans (by norm_num) h2))
    refine ⟨h4, ?_⟩
    rw [abs_of_pos hq] at h5
    have e : val (Lane.div a b) - K = (val (Lane.div a b) - A / B) + (A / B - K) := by ring
    rw [e]
    refine (abs_add_le _ _).trans ?_
    have h6 := (abs_le.1 h3).2
    have h5' : |val (Lane.div a b) - A / B| ≤ ulp2 * (A / B) := h5
    rw [hu] at h3 h5' h6 ⊢
    norm_num at h3 h5' h6 ⊢
    linarith
  refine ⟨fun hb => ?_, fun hb => ?_⟩
  · have h1 := quo (Lane.ofBits 0x40490FDB#32) (Lane.ofBits 0x43340000#32) (Real.pi / 180) _ _ fp f180 pi_val c180_val (by norm_num) (by norm_num) (by positivity) (by norm_num) (by norm_num) (by
      rw [hu, abs_le]; constructor <;> · norm_num at p1 p2 ⊢; linarith)
    exact key _ _ _ h1.1 (by positivity) h1.2 hb (by
      have : Real.pi / 180 ≤ 1/2 := by linarith
      have : (2:ℝ)^126 * (2 * (Real.pi / 180)) ≤ 2^126 * 1 := mul_le_mul_of_nonneg_left (by linarith) (by positivity)
      refine this.trans (by norm_num))
  · have h1 := quo (Lane.ofBits 0x43340000#32) (Lane.ofBits 0x40490FDB#32) (180 / Real.pi) _ _ f180 fp c180_val pi_val (by norm_num) (by norm_num) (by positivity) (by norm_num) (by norm_num) (by
      have : 180 / (13176795 / 2^22 : ℝ) - 180 / Real.pi = (180 / Real.pi) * ((Real.pi - 13176795 / 2^22) / (13176795 / 2^22)) := by field_simp
      rw [this, abs_mul, abs_of_pos (by positivity : (0:ℝ) < 180 / Real.pi), mul_comm]
      refine mul_le_mul_of_nonneg_right ?_ (by positivity)
      rw [hu, abs_le]; constructor <;> · norm_num at p1 p2 ⊢; linarith)
    exact key _ _ _ h1.1 (by positivity) h1.2 hb (by
      have : 180 / Real.pi ≤ 60 := by rw [div_le_iff₀ hpi]; linarith
      have : (2:ℝ)^120 * (2 * (180 / Real.pi)) ≤ 2^120 * 128 := mul_le_mul_of_nonneg_left (by linarith) (by positivity)
      refine this.trans (by norm_num))

end DXM.Props
