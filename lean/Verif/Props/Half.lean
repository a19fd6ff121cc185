import Verif.Lemmas.HalfConv

/-
C16, C17: the half-precision conversions, for all patterns and every build.
-/

set_option linter.all false

namespace DXM.Props
open DXM.Spec (value IsNaN IsInf IsFinite signBit)

variable {P : Env}

namespace HalfAux
open DXM.Half

theorem sign_of_mk (s : Bool) (n : ℕ) (h : n < 2^15) : Spec.Half.signBit (Half.mk s n) = s := by
  rw [← Half.sg_eq, Half.sg_mk _ _ h]
theorem sign_of_mk32 (s : Bool) (n : ℕ) (h : n < 2^31) : signBit (IEEE.mk s n) = s := by
  rw [← IEEE.sg_eq, IEEE.sg_mk _ _ h]
theorem roundH_le (p q : ℕ) : roundH p q ≤ 0x7C00 := by rw [roundH_min]; exact min_le_left _ _

theorem cvtps_mk (a : BitVec 32) : cvtps_ph a = Half.mk (IEEE.sg a) (if IEEE.isNaN a then 0x7E00 ||| (IEEE.am a / 2^13 % 2^10)
    else if IEEE.isInf a then 0x7C00 else roundH (IEEE.mag a) (2^125)) := rfl

theorem toHalf_eq (c : Cfg) (a : F32 P) : XMConvertFloatToHalf c a = cvtps_ph a.bits := by
  unfold XMConvertFloatToHalf; rw [soft_eq, ite_self]

theorem cvtps_spec (a : BitVec 32) :
    Spec.Half.signBit (cvtps_ph a) = signBit a ∧
    (IsFinite a → Spec.Half.Rounds (value a) (cvtps_ph a)) ∧
    (IsInf a → Spec.Half.IsInf (cvtps_ph a)) ∧
    (IsNaN a → Spec.Half.IsNaN (cvtps_ph a)) := by
  have hor : 0x7E00 ||| (IEEE.am a / 2^13 % 2^10) < 2^15 := Nat.or_lt_two_pow (by norm_num) (by omega)
  have hor2 : 0x7E00 ≤ 0x7E00 ||| (IEEE.am a / 2^13 % 2^10) := Nat.left_le_or
  have hle := roundH_le (IEEE.mag a) (2^125)
  refine ⟨?_, fun h => ?_, fun h => ?_, fun h => ?_⟩
  · rw [cvtps_mk, sign_of_mk, ← IEEE.sg_eq]
    split_ifs <;> omega
  · obtain ⟨h1, h2⟩ := (IEEE.finite_iff' a).1 h
    rw [cvtps_mk, h1, h2]
    simp only [Bool.false_eq_true, if_false]
    have := rounds_div (IEEE.sg a) (IEEE.mag a) (2^125) (by positivity)
    rw [IEEE.value_sign]
    convert this using 2
    rw [show (2:ℝ)^(-149:ℤ) = 2^(-24:ℤ) / 2^125 by norm_num]
    push_cast
    ring
  · have hi := (IEEE.isInf_iff a).2 h
    have hn : IEEE.isNaN a = false := by unfold IEEE.isNaN; unfold IEEE.isInf at hi; simp at hi ⊢; omega
    rw [cvtps_mk, hi, hn, ← Half.isInf_iff]
    simp only [Bool.false_eq_true, if_false, if_true]
    unfold Half.isInf; rw [am_mk _ _ (by norm_num)]; rfl
  · have hn := (IEEE.isNaN_iff a).2 h
    rw [cvtps_mk, hn, ← Half.isNaN_iff]
    simp only [if_true]
    unfold Half.isNaN; rw [am_mk _ _ hor]; exact decide_eq_true (by omega)

theorem half_value_eq {h : BitVec 16} {n : ℕ} (hn : n < 0x7F800000) (hm : IEEE.magN n = magH (am h) * 2^125) :
    IsFinite (IEEE.mk (sg h) n) ∧ value (IEEE.mk (sg h) n) = Spec.Half.value h := by
  refine ⟨by rw [IEEE.finite_iff, IEEE.am_mk _ _ (by omega)]; exact hn, ?_⟩
  rw [IEEE.value_mk _ _ (by omega), hm, Half.value_sign]
  unfold Half.mag
  push_cast
  rw [show (2:ℝ)^(-149:ℤ) = 2^(-24:ℤ) / 2^125 by norm_num]
  ring

theorem half_value_ne {h : BitVec 16} {n : ℕ} (hn : n < 2^31) (hm : IEEE.magN n ≠ magH (am h) * 2^125) :
    value (IEEE.mk (sg h) n) ≠ Spec.Half.value h := by
  intro hc
  rw [IEEE.value_mk _ _ hn, Half.value_sign] at hc
  unfold Half.mag at hc
  have h2 : (IEEE.magN n : ℝ) * 2^(-149:ℤ) = magH (am h) * 2^(-24:ℤ) := by
    cases hs : sg h <;> rw [hs] at hc <;> simpa using hc
  rw [show (2:ℝ)^(-149:ℤ) = 2^(-24:ℤ) / 2^125 by norm_num] at h2
  apply hm
  have : (IEEE.magN n : ℝ) = magH (am h) * 2^125 := by
    field_simp at h2; linarith
  exact_mod_cast this

theorem nan32 (s : Bool) (n : ℕ) (h1 : 0x7F800000 < n) (h2 : n < 2^31) : IsNaN (IEEE.mk s n) := by
  rw [← IEEE.isNaN_iff]; unfold IEEE.isNaN; rw [IEEE.am_mk _ _ h2]; simpa using h1
theorem inf32 (s : Bool) : IsInf (IEEE.mk s 0x7F800000) := by
  rw [← IEEE.isInf_iff]; unfold IEEE.isInf; rw [IEEE.am_mk _ _ (by norm_num)]; rfl
end HalfAux
open HalfAux

/-- A half whose fraction bits carry a tiny nonzero number below 2^-14. -/
def HalfSubnormal (h : BitVec 16) : Prop := Spec.Half.expField h = 0 ∧ Spec.Half.fracField h ≠ 0

/-- C16: in every build and for every pattern the result is the correctly rounded half: nearest, ties to even, infinity from
65520 on; infinities and NaNs are kept; so is the sign, that of zeros included. -/
theorem C16_floatToHalf (c : Cfg) (a : F32 P) :
    Spec.Half.signBit (XMConvertFloatToHalf c a) = signBit a.bits ∧
    (IsFinite a.bits → Spec.Half.Rounds (value a.bits) (XMConvertFloatToHalf c a)) ∧
    (IsInf a.bits → Spec.Half.IsInf (XMConvertFloatToHalf c a)) ∧
    (IsNaN a.bits → Spec.Half.IsNaN (XMConvertFloatToHalf c a)) := by
  rw [toHalf_eq]; exact cvtps_spec a.bits

/-- All builds agree, bit for bit. -/
theorem C16_builds_agree (c c' : Cfg) (a : F32 P) : XMConvertFloatToHalf c a = XMConvertFloatToHalf c' a := by
  rw [toHalf_eq, toHalf_eq]

example : IsFinite 0x477FEFFF#32 ∧ floatToHalfSoft 0x477FEFFF#32 = 0x7BFF#16 ∧ floatToHalfSoft 0x477FF000#32 = 0x7C00#16
    ∧ floatToHalfSoft 0x33000001#32 = 0x0001#16 ∧ floatToHalfSoft 0x33C00000#32 = 0x0002#16 ∧ floatToHalfSoft 0x3F801000#32 = 0x3C00#16 := by decide

/-- C17, hardware conversion (F16C builds): exact on all 65536 halves. -/
theorem C17_f16c (c : Cfg) (hc : c.sse = true) (hf : c.f16c = true) (h : BitVec 16) :
    signBit (XMConvertHalfToFloat (P := P) c h).bits = Spec.Half.signBit h ∧
    (Spec.Half.IsFinite h → IsFinite (XMConvertHalfToFloat (P := P) c h).bits ∧ value (XMConvertHalfToFloat (P := P) c h).bits = Spec.Half.value h) ∧
    (Spec.Half.IsInf h → IsInf (XMConvertHalfToFloat (P := P) c h).bits) ∧
    (Spec.Half.IsNaN h → IsNaN (XMConvertHalfToFloat (P := P) c h).bits) := by
  have e : (XMConvertHalfToFloat (P := P) c h).bits = Half.cvtph_ps h := by
    unfold XMConvertHalfToFloat; rw [hc, hf]; rfl
  rw [e]
  have e2 : Half.cvtph_ps h = IEEE.mk (Half.sg h) (if 0x7C00 < Half.am h then 0x7FC00000 ||| (Half.am h % 2^10) * 2^13
    else if Half.am h = 0x7C00 then 0x7F800000 else IEEE.roundN (Half.magH (Half.am h) * 2^125) 1) := rfl
  have hor : 0x7FC00000 ||| (Half.am h % 2^10) * 2^13 < 2^31 := Nat.or_lt_two_pow (by norm_num) (by omega)
  have hor2 : 0x7FC00000 ≤ 0x7FC00000 ||| (Half.am h % 2^10) * 2^13 := Nat.left_le_or
  refine ⟨?_, fun hfin => ?_, fun hi => ?_, fun hn => ?_⟩
  · rw [← Half.sg_eq, e2, sign_of_mk32]
    split_ifs
    · exact hor
    · norm_num
    · rw [IEEE.roundN_min]; exact lt_of_le_of_lt (min_le_left _ _) (by norm_num)
  · obtain ⟨n, hn, he, hm⟩ := Half.hard_finite h ((Half.finite_iff h).1 hfin)
    rw [he]; exact half_value_eq hn hm
  · have : Half.am h = 0x7C00 := by have := (Half.isInf_iff h).2 hi; unfold Half.isInf at this; simpa using this
    rw [e2, this]; exact inf32 _
  · have : 0x7C00 < Half.am h := by have := (Half.isNaN_iff h).2 hn; unfold Half.isNaN at this; simpa using this
    rw [e2, if_pos this]; exact nan32 _ _ (by omega) hor

/-- C17, proved part: in every build the float has exactly the value of the half, for every half except the nonzero subnormal
ones.  Missing: those, in builds without F16C, where the claim is false (`C17_subnormal_fails`). -/
theorem C17_halfToFloat_partial (c : Cfg) (h : BitVec 16) (hs : ¬ HalfSubnormal h ∨ (c.sse = true ∧ c.f16c = true)) :
    signBit (XMConvertHalfToFloat (P := P) c h).bits = Spec.Half.signBit h ∧
    (Spec.Half.IsFinite h → IsFinite (XMConvertHalfToFloat (P := P) c h).bits ∧ value (XMConvertHalfToFloat (P := P) c h).bits = Spec.Half.value h) ∧
    (Spec.Half.IsInf h → IsInf (XMConvertHalfToFloat (P := P) c h).bits) ∧
    (Spec.Half.IsNaN h → IsNaN (XMConvertHalfToFloat (P := P) c h).bits) := by
  by_cases hf : c.sse = true ∧ c.f16c = true
  · exact C17_f16c c hf.1 hf.2 h
  have hs := hs.resolve_right hf
  have e : (XMConvertHalfToFloat (P := P) c h).bits = halfToFloatSoft h := by
    unfold XMConvertHalfToFloat
    rw [if_neg (by simpa using hf)]; rfl
  rw [e]
  have hfields := Half.am_fields h
  have hfl := Half.fracField_lt h
  by_cases h1 : 0x7C00 ≤ Half.am h
  · have e1 := Half.soft_top h h1
    have hlt := Half.am_lt h
    rw [e1]
    refine ⟨by rw [← Half.sg_eq, sign_of_mk32 _ _ (by omega)], fun hfin => ?_, fun hi => ?_, fun hn => ?_⟩
    · have := (Half.finite_iff h).1 hfin; omega
    · have : Half.am h = 0x7C00 := by have := (Half.isInf_iff h).2 hi; unfold Half.isInf at this; simpa using this
      rw [this]; exact inf32 _
    · have : 0x7C00 < Half.am h := by have := (Half.isNaN_iff h).2 hn; unfold Half.isNaN at this; simpa using this
      exact nan32 _ _ (by omega) (by omega)
  · have hnot : ¬ Spec.Half.IsInf h ∧ ¬ Spec.Half.IsNaN h := by
      constructor
      · rw [← Half.isInf_iff]; unfold Half.isInf; simp; omega
      · rw [← Half.isNaN_iff]; unfold Half.isNaN; simp; omega
    by_cases h2 : 2^10 ≤ Half.am h
    · rw [Half.soft_normal h h2 (by omega)]
      refine ⟨by rw [← Half.sg_eq, sign_of_mk32 _ _ (by omega)], fun hfin => ?_, fun hi => absurd hi hnot.1, fun hn => absurd hn hnot.2⟩
      exact half_value_eq (by omega) (Half.magN_half h2 (by omega))
    · have h0 : Half.am h = 0 := by
        unfold HalfSubnormal at hs
        by_contra h0
        apply hs
        omega
      rw [Half.soft_zero h h0]
      refine ⟨by rw [← Half.sg_eq, sign_of_mk32 _ _ (by omega)], fun hfin => ?_, fun hi => absurd hi hnot.1, fun hn => absurd hn hnot.2⟩
      exact half_value_eq (by norm_num) (by rw [h0]; decide)

example : ¬ HalfSubnormal 0xC500#16 ∧ halfToFloatSoft 0xC500#16 = 0xC0A00000#32 := by unfold HalfSubnormal; decide

/-- C17 is false of the software conversion for **every** nonzero subnormal half: the normalising loop runs while the hidden bit
is set instead of until it is set. -/
theorem C17_subnormal_fails (c : Cfg) (hc : ¬ (c.sse = true ∧ c.f16c = true)) (h : BitVec 16) (hs : HalfSubnormal h) :
    value (XMConvertHalfToFloat (P := P) c h).bits ≠ Spec.Half.value h := by
  have e : (XMConvertHalfToFloat (P := P) c h).bits = halfToFloatSoft h := by
    unfold XMConvertHalfToFloat
    rw [if_neg (by simpa using hc)]; rfl
  rw [e]
  have hfields := Half.am_fields h
  have hfl := Half.fracField_lt h
  obtain ⟨h1, h2⟩ := hs
  obtain ⟨n, hn, he, hm⟩ := Half.soft_sub h (by omega) (by omega)
  rw [he]; exact half_value_ne hn hm
/-- For instance 2^-24 comes back as 2^-15 + 2^-24. -/
example : HalfSubnormal 0x0001#16 ∧ halfToFloatSoft 0x0001#16 = 0x38004000#32 := by unfold HalfSubnormal; decide

/-- C17, proved part of the round trip: half to float and back is the identity on every half that is not a NaN and, in builds
without F16C, not a nonzero subnormal. -/
theorem C17_roundtrip_partial (c c' : Cfg) (h : BitVec 16) (hn : ¬ Spec.Half.IsNaN h) (hs : ¬ HalfSubnormal h ∨ (c.sse = true ∧ c.f16c = true)) :
    XMConvertFloatToHalf c' (XMConvertHalfToFloat (P := P) c h) = h := by
  obtain ⟨a1, a2, a3, -⟩ := C17_halfToFloat_partial (P := P) c h hs
  obtain ⟨b1, b2, b3, -⟩ := C16_floatToHalf c' (XMConvertHalfToFloat (P := P) c h)
  generalize XMConvertFloatToHalf c' (XMConvertHalfToFloat (P := P) c h) = r at *
  rw [a1, ← Half.sg_eq, ← Half.sg_eq] at b1
  by_cases hi : Spec.Half.IsInf h
  · have hr := b3 (a3 hi)
    rw [← Half.isInf_iff] at hi hr
    unfold Half.isInf at hi hr
    simp only [decide_eq_true_eq] at hi hr
    exact Half.ext_am b1 (by rw [hi, hr])
  · have hfin : Spec.Half.IsFinite h := by
      rw [Half.finite_iff']
      rw [← Half.isNaN_iff] at hn; rw [← Half.isInf_iff] at hi
      exact ⟨by simpa using hn, by simpa using hi⟩
    obtain ⟨f1, f2⟩ := a2 hfin
    have hr := b2 f1
    rw [f2] at hr
    have hmax : |Spec.Half.value h| < Spec.Half.overflow := by
      rw [Half.value_abs, Half.overflow_eq]
      have hm : Half.mag h ≤ Half.magH 0x7BFF := Half.magH_strictMono.monotone (by have := (Half.finite_iff h).1 hfin; omega)
      have h3 : Half.magH 0x7BFF = 2047 * 2^29 := by decide +kernel
      rw [h3] at hm
      have : (Half.mag h : ℝ) ≤ 2047 * 2^29 := by exact_mod_cast hm
      exact mul_lt_mul_of_pos_right (lt_of_le_of_lt this (by norm_num)) (by norm_num)
    have hv : Spec.Half.value r = Spec.Half.value h := by
      have := hr.nearest hmax h hfin
      rw [sub_self, abs_zero] at this
      have := abs_nonpos_iff.1 this
      linarith
    refine Half.ext_am b1 (Half.magH_strictMono.injective ?_)
    have h4 := Half.value_abs r
    rw [hv, Half.value_abs h] at h4
    have h5 := mul_right_cancel₀ (by norm_num) h4
    unfold Half.mag at h5
    exact_mod_cast h5.symm

example : ¬ Spec.Half.IsNaN 0x7BFF#16 ∧ ¬ HalfSubnormal 0x7BFF#16 := by unfold HalfSubnormal; decide

end DXM.Props
