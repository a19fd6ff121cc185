import Verif.Lemmas.ExpErr
import Verif.Props.FloatBounds

/-
Accuracy of XMVectorExp2 on binary32 lanes (interpretation I).  The specification is Mathlib's real power `2 ^ x`.
-/

set_option linter.all false

namespace DXM.Props
open DXM.Spec DXM.FErr DXM.IEEE
variable {P : Env}

theorem exp2_pos (c : Cfg) {x : F32 P} (hf : IsFinite x.bits) (h0 : 0 ≤ val x) (h1 : val x < 128) : Fin' (exp2L c x) ∧ |val (exp2L c x) - (2:ℝ)^(val x)| ≤ 2^(-20:ℤ) * (2:ℝ)^(val x) := by
  have hn : isNaN x.bits = false := ((finite_iff' _).1 hf).1
  have e : exp2L c x = r0L c x := by
    unfold exp2L
    rw [hn, if_neg (by decide)]
    by_cases hs : sg x.bits = true
    · have hv : val x = 0 := le_antisymm (value_nonpos_of hs) h0
      rw [if_pos hs, if_pos ((slt150 hs).2 (by show -150 < val x; rw [hv]; norm_num)), if_neg]
      have hk := (yL_exact (x := x) (by rw [hv]; norm_num)).1
      rw [hv, show truncZ 0 = 0 by unfold truncZ; simp] at hk
      rw [BitVec.slt_iff_toInt_lt, hk]; decide
    · rw [if_neg hs, if_pos ((slt128 (by simpa using hs)).2 h1)]
  rw [e]; exact r0_pos c h0 h1
theorem exp2_neg (c : Cfg) {x : F32 P} (hf : IsFinite x.bits) (h0 : val x < 0) (h1 : -150 < val x) : Fin' (exp2L c x) ∧ |val (exp2L c x) - (2:ℝ)^(val x)| ≤ 21/10^6 * (2:ℝ)^(val x) + 2^(-150:ℤ) := by
  have hn : isNaN x.bits = false := ((finite_iff' _).1 hf).1
  have hs : sg x.bits = true := by
    by_contra hc; have : 0 ≤ val x := value_nonneg_of (by simpa using hc); linarith
  have e : exp2L c x = if BitVec.slt (kL x) 0xFFFFFF82#32 then r1L c x else r0L c x := by
    unfold exp2L
    rw [hn, if_neg (by decide), if_pos hs, if_pos ((slt150 hs).2 h1)]
  have hk := (yL_exact (x := x) (by rw [abs_le]; constructor <;> linarith)).1
  rw [trunc_ceil h0.le] at hk
  have hc : (0xFFFFFF82#32 : BitVec 32).toInt = -126 := by decide
  by_cases h : val x ≤ -127
  · rw [e, if_pos]
    · exact r1_neg c h h1
    · rw [BitVec.slt_iff_toInt_lt, hk, hc]
      have : ⌈val x⌉ ≤ -127 := Int.ceil_le.2 (by exact_mod_cast h)
      omega
  · rw [e, if_neg]
    · exact r0_neg c h0.le (not_le.1 h)
    · rw [BitVec.slt_iff_toInt_lt, hk, hc]
      have : -127 < ⌈val x⌉ := Int.lt_ceil.2 (by exact_mod_cast not_le.1 h)
      omega
theorem exp2_big (c : Cfg) {x : F32 P} (hn : isNaN x.bits = false) (h1 : 128 ≤ val x) : exp2L c x = lit 0x7F800000#32 := by
  have hs : ¬ sg x.bits = true := fun hs => by have : val x ≤ 0 := value_nonpos_of hs; linarith
  unfold exp2L
  rw [hn, if_neg (by decide), if_neg hs, if_neg]
  rw [slt128 (by simpa using hs)]; exact not_lt.2 h1
theorem exp2_low (c : Cfg) {x : F32 P} (hn : isNaN x.bits = false) (h1 : val x ≤ -150) : exp2L c x = lit 0#32 := by
  have hs : sg x.bits = true := by
    by_contra hc; have : 0 ≤ val x := value_nonneg_of (by simpa using hc); linarith
  unfold exp2L
  rw [hn, if_neg (by decide), if_pos hs, if_neg]
  rw [slt150 hs]; exact not_lt.2 h1

/-- C99: every lane of XMVectorExp2 is the power of two of the corresponding lane: within `2^-20` relative for nonnegative exponents, within `2^-15` relative for negative
exponents down to `-126`, below that within half a subnormal step more; infinity from 128 upward (where the power exceeds the largest binary32 number), zero from `-150` downward. -/
theorem C99_exp2 (c : Cfg) (hs : c.sse = true) (V : V4 (F32 P)) (i : Fin 4) (hf : IsFinite (V.lane i).bits) :
    let x : ℝ := value (V.lane i).bits
    let r : BitVec 32 := ((XMVectorExp2 c V).lane i).bits
    (128 ≤ x → IsInf r ∧ signBit r = false) ∧
    (0 ≤ x → x < 128 → IsFinite r ∧ |value r - (2:ℝ)^x| ≤ 2^(-20:ℤ) * (2:ℝ)^x) ∧
    (-126 ≤ x → x < 0 → IsFinite r ∧ |value r - (2:ℝ)^x| ≤ 2^(-15:ℤ) * (2:ℝ)^x) ∧
    (-150 < x → x < -126 → IsFinite r ∧ |value r - (2:ℝ)^x| ≤ 2^(-15:ℤ) * (2:ℝ)^x + 2^(-150:ℤ)) ∧
    (x ≤ -150 → r = 0#32) := by
  intro x r
  have hr : r = (exp2L c (V.lane i)).bits := by show ((XMVectorExp2 c V).lane i).bits = _; rw [exp2_lane c hs]
  have hn : isNaN (V.lane i).bits = false := ((finite_iff' _).1 hf).1
  have hp : 0 < (2:ℝ)^x := by positivity
  rw [hr]
  refine ⟨fun h => ?_, fun h0 h1 => exp2_pos c hf h0 h1, fun h0 h1 => ?_, fun h0 h1 => ?_, fun h => ?_⟩
  · rw [exp2_big c hn h]; exact ⟨by show IsInf 0x7F800000#32; decide, by show signBit 0x7F800000#32 = false; decide⟩
  · obtain ⟨f, e⟩ := exp2_neg c hf h1 (by show -150 < x; linarith)
    refine ⟨f, e.trans ?_⟩
    have h2 : (2:ℝ)^(-126:ℤ) ≤ (2:ℝ)^x := by
      rw [← Real.rpow_intCast]; exact Real.rpow_le_rpow_of_exponent_le (by norm_num) (by push_cast; linarith)
    have h3 : (2:ℝ)^(-150:ℤ) = (2:ℝ)^(-24:ℤ) * (2:ℝ)^(-126:ℤ) := by rw [← zpow_add₀ (by norm_num)]; norm_num
    have h4 : (2:ℝ)^(-24:ℤ) * (2:ℝ)^(-126:ℤ) ≤ (2:ℝ)^(-24:ℤ) * (2:ℝ)^x := mul_le_mul_of_nonneg_left h2 (by positivity)
    rw [h3]
    have h5 : (21/10^6 + (2:ℝ)^(-24:ℤ)) * (2:ℝ)^x ≤ 2^(-15:ℤ) * (2:ℝ)^x := mul_le_mul_of_nonneg_right (by norm_num) hp.le
    rw [add_mul] at h5
    exact (add_le_add le_rfl h4).trans h5
  · obtain ⟨f, e⟩ := exp2_neg c hf (by show x < 0; linarith) h0
    refine ⟨f, e.trans (add_le_add (mul_le_mul_of_nonneg_right (by norm_num) hp.le) le_rfl)⟩
  · rw [exp2_low c hn h]; rfl

/-- C99: NaN gives NaN, positive infinity itself, negative infinity zero. -/
theorem C99_exp2_special (c : Cfg) (hs : c.sse = true) (V : V4 (F32 P)) (i : Fin 4) :
    (IsNaN (V.lane i).bits → IsNaN ((XMVectorExp2 c V).lane i).bits) ∧
    ((V.lane i).bits = 0x7F800000#32 → ((XMVectorExp2 c V).lane i).bits = 0x7F800000#32) ∧
    ((V.lane i).bits = 0xFF800000#32 → ((XMVectorExp2 c V).lane i).bits = 0#32) := by
  rw [exp2_lane c hs]
  refine ⟨fun h => ?_, fun h => ?_, fun h => ?_⟩
  · rw [← isNaN_iff] at h
    unfold exp2L; rw [h, if_pos rfl]; show IsNaN 0x7FC00000#32; decide
  · unfold exp2L; rw [h]
    rw [if_neg (by decide), if_neg (by decide), if_neg (by decide)]; rfl
  · unfold exp2L; rw [h]
    rw [if_neg (by decide), if_pos (by decide), if_neg (by decide)]; rfl

/-- C99: XMVectorExp is XMVectorExp2. -/
theorem C99_exp (c : Cfg) (V : V4 (F32 P)) : XMVectorExp c V = XMVectorExp2 c V := rfl

theorem div_c {a b r : BitVec 32} (h : isNaN a = false ∧ isNaN b = false ∧ isInf a = false ∧ isInf b = false ∧ mag b ≠ 0 ∧ mk (sg a != sg b) (roundN (mag a * 2^149) (mag b)) = r) :
    (Lane.div (F32.ofBV a) (F32.ofBV b) : F32 P) = F32.ofBV r := by
  show div P a b = r
  unfold div; obtain ⟨h1, h2, h3, h4, h5, h6⟩ := h; rw [h1, h2, h3, h4, if_neg h5]; exact h6
/-- The polynomial at `-0.99999994`. -/
theorem poly_witness : (polyL Cfg.sse2 (F32.ofBV 0xBF7FFFFF#32) : F32 P) = F32.ofBV 0x3FFFFF56#32 := by
  have step : ∀ a b d : F32 P, fm Cfg.sse2 a b d = Lane.add (Lane.mul a b) d := fun a b d => if_neg (by decide)
  unfold polyL lit
  simp only [step]
  rw [mul_c (a := 0xB7364261#32) (r := 0x37364260#32) (by decide +kernel), add_c (r := 0x39260BFD#32) (by decide +kernel)]
  rw [mul_c (a := 0x39260BFD#32) (r := 0xB9260BFC#32) (by decide +kernel), add_c (r := 0xBAC2D9D4#32) (by decide +kernel)]
  rw [mul_c (a := 0xBAC2D9D4#32) (r := 0x3AC2D9D3#32) (by decide +kernel), add_c (r := 0x3C35E78E#32) (by decide +kernel)]
  rw [mul_c (a := 0x3C35E78E#32) (r := 0xBC35E78D#32) (by decide +kernel), add_c (r := 0xBD8868D7#32) (by decide +kernel)]
  rw [mul_c (a := 0xBD8868D7#32) (r := 0x3D8868D6#32) (by decide +kernel), add_c (r := 0x3E9D192C#32) (by decide +kernel)]
  rw [mul_c (a := 0x3E9D192C#32) (r := 0xBE9D192B#32) (by decide +kernel), add_c (r := 0xBF7FFEAE#32) (by decide +kernel)]
  rw [mul_c (a := 0xBF7FFEAE#32) (r := 0x3F7FFEAD#32) (by decide +kernel), add_c (r := 0x3FFFFF56#32) (by decide +kernel)]

/-- C99, a finding: the polynomial was fitted on `[0, 1]`, but negative exponents are reduced toward zero and evaluate it on `(-1, 0]`.
At `x = -0.99999994` the result is off by more than `9 * 10^-6` relative, 150 times the spacing of binary32. -/
theorem C99_exp2_negative_error : ∃ V : V4 (F32 P),
    let x : ℝ := value (V.lane 0).bits
    let r : BitVec 32 := ((XMVectorExp2 Cfg.sse2 V).lane 0).bits
    IsFinite (V.lane 0).bits ∧ -1 < x ∧ x < 0 ∧ 9/10^6 * (2:ℝ)^x < |value r - (2:ℝ)^x| := by
  refine ⟨V4.splat (F32.ofBV 0xBF7FFFFF#32), ?_⟩
  have hx : value 0xBF7FFFFF#32 = -16777215/16777216 := by
    rw [value_eq, show ival 0xBF7FFFFF#32 = -(16777215 * 2^125) by decide +kernel]; push_cast; norm_num
  have hk : kL (F32.ofBV 0xBF7FFFFF#32 : F32 P) = 0#32 := by show cvtt 0xBF7FFFFF#32 = _; decide +kernel
  have hy : yL (F32.ofBV 0xBF7FFFFF#32 : F32 P) = F32.ofBV 0xBF7FFFFF#32 := by
    unfold yL; rw [hk]; exact sub_c (by decide +kernel)
  have hr : (XMVectorExp2 Cfg.sse2 (V4.splat (F32.ofBV 0xBF7FFFFF#32 : F32 P))).lane 0 = F32.ofBV 0x3F000055#32 := by
    rw [exp2_lane _ (by decide)]
    show exp2L Cfg.sse2 (F32.ofBV 0xBF7FFFFF#32 : F32 P) = _
    unfold exp2L
    rw [if_neg (by show ¬ isNaN 0xBF7FFFFF#32 = true; decide +kernel), if_pos (by show sg 0xBF7FFFFF#32 = true; decide +kernel),
      if_pos (by show BitVec.slt 0xBF7FFFFF#32 0xC3160000#32 = true; decide +kernel), hk, if_neg (by decide)]
    unfold r0L
    rw [hk, hy, poly_witness, show BitVec.shiftLeft (0#32 + 127#32) 23 = 0x3F800000#32 by decide]
    exact div_c (by decide +kernel)
  have hv : value 0x3F000055#32 = 8388693/16777216 := by
    rw [value_eq, show ival 0x3F000055#32 = 8388693 * 2^125 by decide +kernel]; push_cast; norm_num
  have hp : (2:ℝ)^(-16777215/16777216:ℝ) ≤ 1/2 * (1 + 1/10^7) := by
    have h1 : (2:ℝ)^(-16777215/16777216:ℝ) = 1/2 * (2:ℝ)^(1/16777216:ℝ) := by
      rw [show (-16777215/16777216:ℝ) = -1 + 1/16777216 by norm_num, Real.rpow_add (by norm_num), Real.rpow_neg_one]; norm_num
    have h2 : (2:ℝ)^(1/16777216:ℝ) ≤ 1 + 1/16777216 := by
      have hl := (abs_le.1 Trig.log2_near).2
      have h3 := Real.add_one_le_exp (-(Real.log 2 * (1/16777216)))
      have h4 : 0 < Real.exp (Real.log 2 * (1/16777216)) := Real.exp_pos _
      have h5 : Real.exp (-(Real.log 2 * (1/16777216))) * Real.exp (Real.log 2 * (1/16777216)) = 1 := by rw [← Real.exp_add]; simp
      rw [Real.rpow_def_of_pos (by norm_num)]
      have h6 : (1 - 0.7/16777216) ≤ Real.exp (-(Real.log 2 * (1/16777216))) := by norm_num at hl h3 ⊢; linarith
      have h7 := mul_le_mul_of_nonneg_right h6 h4.le
      rw [h5] at h7
      norm_num at h7 ⊢; linarith
    rw [h1]; norm_num at h2 ⊢; linarith
  have hb : (V4.splat (F32.ofBV 0xBF7FFFFF#32 : F32 P)).lane 0 = F32.ofBV 0xBF7FFFFF#32 := rfl
  intro x r
  have hx' : x = -16777215/16777216 := hx
  have hr' : value r = 8388693/16777216 := by show value ((XMVectorExp2 Cfg.sse2 _).lane 0).bits = _; rw [hr]; exact hv
  refine ⟨by show IsFinite 0xBF7FFFFF#32; decide, by rw [hx']; norm_num, by rw [hx']; norm_num, ?_⟩
  rw [hx', hr', abs_of_pos (by norm_num at hp ⊢; linarith)]
  norm_num at hp ⊢; linarith
end DXM.Props
