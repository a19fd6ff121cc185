import Verif.Lemmas.Conv
import Verif.Props.LoadStore
import Verif.Props.Rounding

/-
C15: conversion between integers and floats; C20: constant constructors (interpretation I, all lane patterns).
-/

set_option linter.all false

namespace DXM.Props
open DXM.Spec DXM.F32
variable {P : Env}

theorem ones_and (x : BitVec 32) : 0xFFFFFFFF#32 &&& x = x := BitVec.allOnes_and
theorem andn_mask (b : Bool) (x y : BitVec 32) : (~~~(if b then 0xFFFFFFFF#32 else 0#32) &&& x) ||| ((if b then 0xFFFFFFFF#32 else 0#32) &&& y) = if b then y else x := by
  cases b
  · show (~~~0#32 &&& x) ||| (0#32 &&& y) = x
    rw [show ~~~0#32 = 0xFFFFFFFF#32 by decide, ones_and, BitVec.zero_and, BitVec.or_zero]
  · show (~~~0xFFFFFFFF#32 &&& x) ||| (0xFFFFFFFF#32 &&& y) = y
    rw [show ~~~0xFFFFFFFF#32 = 0#32 by decide, ones_and, BitVec.zero_and, BitVec.zero_or]
theorem and_mask (b : Bool) (x : BitVec 32) : ((if b then 0xFFFFFFFF#32 else 0#32) &&& x) = if b then x else 0#32 := by
  cases b
  · exact BitVec.zero_and
  · exact ones_and x
theorem mask_and (b : Bool) (x : BitVec 32) : (x &&& (if b then 0xFFFFFFFF#32 else 0#32)) = if b then x else 0#32 := by
  rw [BitVec.and_comm, and_mask]
theorem or_mask (b : Bool) (x : BitVec 32) : (x ||| (if b then 0xFFFFFFFF#32 else 0#32)) = if b then 0xFFFFFFFF#32 else x := by
  cases b
  · exact BitVec.or_zero
  · exact BitVec.or_allOnes

theorem lane_max (a b : V4 (F32 P)) (i : Fin 4) : ((SSE.max a b).lane i).bits = if IEEE.lt (b.lane i).bits (a.lane i).bits then (a.lane i).bits else (b.lane i).bits := by
  rw [← bits_ite]; fin_cases i <;> rfl
theorem lane_cmpgt (a b : V4 (F32 P)) (i : Fin 4) : ((SSE.cmpgt a b).lane i).bits = if IEEE.lt (b.lane i).bits (a.lane i).bits then 0xFFFFFFFF#32 else 0#32 := by
  rw [← bits_mask (P := P)]; fin_cases i <;> rfl
theorem lane_cmpge (a b : V4 (F32 P)) (i : Fin 4) : ((SSE.cmpge a b).lane i).bits = if IEEE.le (b.lane i).bits (a.lane i).bits then 0xFFFFFFFF#32 else 0#32 := by
  rw [← bits_mask (P := P)]; fin_cases i <;> rfl
theorem lane_andnot (a b : V4 (F32 P)) (i : Fin 4) : ((SSE.andnot a b).lane i).bits = ~~~(a.lane i).bits &&& (b.lane i).bits := by fin_cases i <;> rfl
theorem lane_and (a b : V4 (F32 P)) (i : Fin 4) : ((SSE.and a b).lane i).bits = (a.lane i).bits &&& (b.lane i).bits := by fin_cases i <;> rfl
theorem lane_or (a b : V4 (F32 P)) (i : Fin 4) : ((SSE.or a b).lane i).bits = (a.lane i).bits ||| (b.lane i).bits := by fin_cases i <;> rfl
theorem lane_xor (a b : V4 (F32 P)) (i : Fin 4) : ((SSE.xor a b).lane i).bits = (a.lane i).bits ^^^ (b.lane i).bits := by fin_cases i <;> rfl
theorem lane_mul (a b : V4 (F32 P)) (i : Fin 4) : ((SSE.mul a b).lane i).bits = IEEE.mul P (a.lane i).bits (b.lane i).bits := by fin_cases i <;> rfl
theorem lane_add (a b : V4 (F32 P)) (i : Fin 4) : ((SSE.add a b).lane i).bits = IEEE.add P (a.lane i).bits (b.lane i).bits := by fin_cases i <;> rfl
theorem lane_sub (a b : V4 (F32 P)) (i : Fin 4) : ((SSE.sub a b).lane i).bits = IEEE.sub P (a.lane i).bits (b.lane i).bits := by fin_cases i <;> rfl
theorem lane_splat (b : BitVec 32) (i : Fin 4) : ((V4.splat (ofBV b) : V4 (F32 P)).lane i).bits = b := by fin_cases i <;> rfl
theorem lane_splatU (b : BitVec 32) (i : Fin 4) : ((V4.splat (ofU b) : V4 (F32 P)).lane i).bits = IEEE.ofU32 b := by fin_cases i <;> rfl
theorem lane_maxInt (i : Fin 4) : ((g_XMMaxInt : V4 (F32 P)).lane i).bits = 0x4EFFFFFF#32 := by fin_cases i <;> rfl
theorem lane_absMask (i : Fin 4) : ((g_XMAbsMask : V4 (F32 P)).lane i).bits = 0x7FFFFFFF#32 := by fin_cases i <;> rfl
theorem lane_zero (i : Fin 4) : ((g_XMZero : V4 (F32 P)).lane i).bits = 0#32 := by fin_cases i <;> rfl
theorem lane_maxUInt (i : Fin 4) : ((g_XMMaxUInt : V4 (F32 P)).lane i).bits = 0x4F7FFFFF#32 := by fin_cases i <;> rfl
theorem lane_unsignedFix (i : Fin 4) : ((g_XMUnsignedFix : V4 (F32 P)).lane i).bits = 0x4F000000#32 := by fin_cases i <;> rfl
theorem lane_fixUnsigned (i : Fin 4) : ((g_XMFixUnsigned : V4 (F32 P)).lane i).bits = 0x4F000000#32 := by fin_cases i <;> rfl
theorem lane_negativeZero (i : Fin 4) : ((g_XMNegativeZero : V4 (F32 P)).lane i).bits = 0x80000000#32 := by fin_cases i <;> rfl
theorem lane_cvtt (a : V4 (F32 P)) (i : Fin 4) : ((V4.map cvttps_epi32 a).lane i).bits = IEEE.cvtt (a.lane i).bits := by fin_cases i <;> rfl
theorem lane_cvt (a : V4 (F32 P)) (i : Fin 4) : ((V4.map cvtepi32_ps a).lane i).bits = IEEE.ofI32 (a.lane i).bits := by fin_cases i <;> rfl
theorem lane_srai (a : V4 (F32 P)) (i : Fin 4) : ((V4.map srai31 a).lane i).bits = (a.lane i).bits.sshiftRight 31 := by fin_cases i <;> rfl
theorem le_bits (a b : F32 P) : Lane.le a b = IEEE.le a.bits b.bits := rfl
theorem lt_bits (a b : F32 P) : Lane.lt a b = IEEE.lt a.bits b.bits := rfl
theorem mul_bits (a b : F32 P) : (Lane.mul a b).bits = IEEE.mul P a.bits b.bits := rfl
theorem div_bits (a b : F32 P) : (Lane.div a b).bits = IEEE.div P a.bits b.bits := rfl
theorem ofU_bits (b : BitVec 32) : (ofU b : F32 P).bits = IEEE.ofU32 b := rfl
theorem ofBits_bits (b : BitVec 32) : (Lane.ofBits b : F32 P).bits = b := rfl
theorem bits_ite2 (b1 b2 : Bool) (x y z : F32 P) : (if b1 then x else if b2 then y else z).bits = if b1 then x.bits else if b2 then y.bits else z.bits := by
  cases b1 <;> cases b2 <;> rfl
theorem c0_bits : (Lane.c0 : F32 P).bits = 0#32 := rfl
theorem c1_bits : (Lane.c1 : F32 P).bits = 0x3F800000#32 := rfl

/-- The lane that XMConvertVectorFloatToInt computes. -/
theorem f2i_lane (c : Cfg) (V : V4 (F32 P)) (k : ℕ) (i : Fin 4) : ((XMConvertVectorFloatToInt c V k).lane i).bits =
    if c.sse then (let r := IEEE.mul P (IEEE.ofU32 (shl1 k)) (V.lane i).bits; if IEEE.lt 0x4EFFFFFF#32 r then 0x7FFFFFFF#32 else IEEE.cvtt r)
    else (let r := IEEE.mul P (V.lane i).bits (IEEE.ofU32 (shl1 k));
      if IEEE.le r 0xCF000000#32 then 0x80000000#32 else if IEEE.lt 0x4EFFFFFF#32 r then 0x7FFFFFFF#32 else IEEE.castI32 r) := by
  unfold XMConvertVectorFloatToInt
  by_cases hs : c.sse = true <;> [rw [if_pos hs, if_pos hs]; rw [if_neg hs, if_neg hs]]
  · simp only [lane_or, lane_and, lane_andnot, lane_cmpgt, lane_mul, lane_maxInt, lane_absMask, lane_cvtt, lane_splatU]
    exact andn_mask _ _ _
  · rw [V4.lane_map]
    exact bits_ite2 _ _ _ _ _

/-- C15: XMConvertVectorFloatToInt(V, k), every build, every lane that is not NaN: the lane times 2^k, truncated toward zero,
saturating at the ends of the 32-bit signed range; infinities give the ends. -/
theorem C15_floatToInt (c : Cfg) (V : V4 (F32 P)) {k : ℕ} (hk : k < 32) (i : Fin 4) :
    (IsFinite (V.lane i).bits → ((XMConvertVectorFloatToInt c V k).lane i).bits.toInt = max (-2^31) (min (2^31 - 1) (truncZ (value (V.lane i).bits * 2^k)))) ∧
    (IsInf (V.lane i).bits → ((XMConvertVectorFloatToInt c V k).lane i).bits.toInt = if signBit (V.lane i).bits then -2^31 else 2^31 - 1) := by
  rw [f2i_lane]
  generalize (V.lane i).bits = a
  by_cases ha : IsNaN a
  · exact ⟨fun h => absurd ha (IEEE.not_nan_of_finite h), fun h => absurd ha (IEEE.not_nan_of_inf h)⟩
  by_cases hs : c.sse = true <;> [rw [if_pos hs]; rw [if_neg hs]] <;> dsimp only
  · obtain ⟨h1, h2⟩ := IEEE.satZ_scaled P (lo := -2^31) (hi := 2^31 - 1) (by norm_num) (by norm_num) (by norm_num) (by norm_num) hk ha (Or.inr rfl)
    rw [IEEE.sse_toInt _ h1]; exact h2
  · obtain ⟨h1, h2⟩ := IEEE.satZ_scaled P (lo := -2^31) (hi := 2^31 - 1) (by norm_num) (by norm_num) (by norm_num) (by norm_num) hk ha (Or.inl rfl)
    rw [IEEE.noi_toInt _ h1]; exact h2

/-- C15: NaN lanes are build dependent in XMConvertVectorFloatToInt: 0x80000000 with SSE, 0 without. -/
theorem C15_floatToInt_nan (c : Cfg) (V : V4 (F32 P)) {k : ℕ} (hk : k < 32) (i : Fin 4) (h : IsNaN (V.lane i).bits) :
    ((XMConvertVectorFloatToInt c V k).lane i).bits = if c.sse then 0x80000000#32 else 0#32 := by
  rw [f2i_lane]
  have hn1 := (IEEE.mul_special P (IEEE.ofU32 (shl1 k)) (V.lane i).bits).1 (Or.inr h)
  have hn2 := (IEEE.mul_special P (V.lane i).bits (IEEE.ofU32 (shl1 k))).1 (Or.inl h)
  split_ifs with hs
  · generalize IEEE.mul P (IEEE.ofU32 (shl1 k)) (V.lane i).bits = r at *
    have : IEEE.isNaN r = true := (IEEE.isNaN_iff r).2 hn1
    simp [IEEE.lt, IEEE.cvtt, this]
  · generalize IEEE.mul P (V.lane i).bits (IEEE.ofU32 (shl1 k)) = r at *
    have : IEEE.isNaN r = true := (IEEE.isNaN_iff r).2 hn2
    simp [IEEE.lt, IEEE.le, IEEE.castI32, this]

/-- The lane that XMConvertVectorFloatToUInt computes. -/
theorem f2u_lane (c : Cfg) (V : V4 (F32 P)) (k : ℕ) (i : Fin 4) : ((XMConvertVectorFloatToUInt c V k).lane i).bits =
    if c.sse then (let r := IEEE.mul P (IEEE.ofU32 (shl1 k)) (V.lane i).bits
      let r1 := if IEEE.lt 0#32 r then r else 0#32
      let big := IEEE.le 0x4F000000#32 r1
      let r2 := IEEE.sub P r1 (if big then 0x4F000000#32 else 0#32)
      if IEEE.lt 0x4F7FFFFF#32 r1 then 0xFFFFFFFF#32 else IEEE.cvtt r2 ^^^ (if big then 0x80000000#32 else 0#32))
    else (let r := IEEE.mul P (V.lane i).bits (IEEE.ofU32 (shl1 k));
      if IEEE.le r 0#32 then 0#32 else if IEEE.le 0x4F800000#32 r then 0xFFFFFFFF#32 else IEEE.castU32 r) := by
  unfold XMConvertVectorFloatToUInt
  by_cases hs : c.sse = true <;> [rw [if_pos hs, if_pos hs]; rw [if_neg hs, if_neg hs]]
  · simp only [lane_or, lane_and, lane_xor, lane_max, lane_sub, lane_cmpgt, lane_cmpge, lane_mul, lane_maxUInt, lane_zero, lane_unsignedFix, lane_negativeZero,
      lane_cvtt, lane_splatU, or_mask, mask_and, and_mask]
  · rw [V4.lane_map]
    exact bits_ite2 _ _ _ _ _

/-- C15: XMConvertVectorFloatToUInt(V, k), every build: the lane times 2^k truncated toward zero, saturating at 0 and 2^32-1;
infinities give the ends and NaN gives 0. -/
theorem C15_floatToUInt (c : Cfg) (V : V4 (F32 P)) {k : ℕ} (hk : k < 32) (i : Fin 4) :
    (IsFinite (V.lane i).bits → (((XMConvertVectorFloatToUInt c V k).lane i).bits.toNat : ℤ) = max 0 (min (2^32 - 1) (truncZ (value (V.lane i).bits * 2^k)))) ∧
    (IsInf (V.lane i).bits → (((XMConvertVectorFloatToUInt c V k).lane i).bits.toNat : ℤ) = if signBit (V.lane i).bits then 0 else 2^32 - 1) ∧
    (IsNaN (V.lane i).bits → ((XMConvertVectorFloatToUInt c V k).lane i).bits.toNat = 0) := by
  rw [f2u_lane]
  generalize (V.lane i).bits = a
  by_cases ha : IsNaN a
  · refine ⟨fun h => absurd ha (IEEE.not_nan_of_finite h), fun h => absurd ha (IEEE.not_nan_of_inf h), fun _ => ?_⟩
    have hn1 := (IEEE.mul_special P (IEEE.ofU32 (shl1 k)) a).1 (Or.inr ha)
    have hn2 := (IEEE.mul_special P a (IEEE.ofU32 (shl1 k))).1 (Or.inl ha)
    split_ifs with hs
    · generalize IEEE.mul P (IEEE.ofU32 (shl1 k)) a = r at *
      have hn : IEEE.isNaN r = true := (IEEE.isNaN_iff r).2 hn1
      have h1 : IEEE.lt 0#32 r = false := by simp [IEEE.lt, hn]
      -- the NaN is replaced by zero, which is then converted
      have h0 := IEEE.sse_toUInt P 0#32 (by decide)
      have e1 : (if IEEE.lt 0#32 0#32 = true then (0#32 : BitVec 32) else 0#32) = 0#32 := by simp
      simp only [e1] at h0
      simp only [h1, Bool.false_eq_true, if_false]
      have : IEEE.satZ 0 (2^32 - 1) 0#32 = 0 := by
        unfold IEEE.satZ; rw [if_neg (by decide), IEEE.truncZ_value]; decide
      rw [this] at h0
      exact_mod_cast h0
    · generalize IEEE.mul P a (IEEE.ofU32 (shl1 k)) = r at *
      have hn : IEEE.isNaN r = true := (IEEE.isNaN_iff r).2 hn2
      simp [IEEE.le, IEEE.castU32, hn]
  by_cases hs : c.sse = true <;> [rw [if_pos hs]; rw [if_neg hs]] <;> dsimp only
  · obtain ⟨h1, h2, h3⟩ := IEEE.satZ_scaled P (lo := 0) (hi := 2^32 - 1) (by norm_num) (by norm_num) (by norm_num) (by norm_num) hk ha (Or.inr rfl)
    rw [IEEE.sse_toUInt P _ h1]; exact ⟨h2, h3, fun h => absurd h ha⟩
  · obtain ⟨h1, h2, h3⟩ := IEEE.satZ_scaled P (lo := 0) (hi := 2^32 - 1) (by norm_num) (by norm_num) (by norm_num) (by norm_num) hk ha (Or.inl rfl)
    rw [IEEE.noi_toUInt _ h1]; exact ⟨h2, h3, fun h => absurd h ha⟩

theorem intN_lt (b : BitVec 32) : b.toInt.natAbs < 2^33 := by
  have h1 := BitVec.two_mul_toInt_lt (x := b); have h2 := BitVec.le_two_mul_toInt (x := b); omega

/-- C15 (partial): XMConvertVectorIntToFloat(V, k) is the correctly rounded n / 2^k for every signed lane n: in every build with
SSE, and without intrinsics only for k = 0 and n ≥ 0 (see C15_intToFloat_fails). -/
theorem C15_intToFloat_partial (c : Cfg) (V : V4 (F32 P)) {k : ℕ} (hk : k < 32) (i : Fin 4)
    (h : c.sse = true ∨ (k = 0 ∧ 0 ≤ (V.lane i).bits.toInt)) :
    Rounds (((V.lane i).bits.toInt : ℝ) / 2^k) ((XMConvertVectorIntToFloat c V k).lane i).bits := by
  unfold XMConvertVectorIntToFloat
  split_ifs with hs
  · rw [lane_mul, lane_cvt, lane_splat]
    exact IEEE.int_scaled P (intN_lt _) (IEEE.ofI32_rounds _) hk
  · obtain ⟨rfl, h0⟩ := h.resolve_left hs
    rw [V4.lane_map, mul_bits, ofU_bits, div_bits, c1_bits, bits_ofBV, show IEEE.ofI32 (1#32 >>> 0) = IEEE.ofU32 (shl1 0) by decide +kernel,
      IEEE.div_shl P (by norm_num)]
    have := IEEE.ofU32_rounds (V.lane i).bits
    have hu : ((V.lane i).bits.toNat : ℝ) = ((V.lane i).bits.toInt : ℝ) := by
      have : ((V.lane i).bits.toNat : ℤ) = (V.lane i).bits.toInt := by
        rw [BitVec.toInt_eq_toNat_cond] at h0 ⊢; split_ifs at h0 ⊢ with hc
        · rfl
        · exfalso; have := (V.lane i).bits.isLt; omega
      exact_mod_cast this
    rw [hu] at this
    exact IEEE.int_scaled P (intN_lt _) this hk

/-- C15 fails without intrinsics: with k = 1 the integer 3 becomes +infinity (the scale is computed as `1.0 / (1 >> k)`),
and with k = 0 the integer -1 becomes 2^32 (the lane is read as unsigned). -/
theorem C15_intToFloat_fails (c : Cfg) (hs : c.sse = false) :
    (∃ V : V4 (F32 P), (V.lane 0).bits.toInt = 3 ∧ ((XMConvertVectorIntToFloat c V 1).lane 0).bits = 0x7F800000#32 ∧
      ¬ Rounds (((V.lane 0).bits.toInt : ℝ) / 2^1) ((XMConvertVectorIntToFloat c V 1).lane 0).bits) ∧
    (∃ V : V4 (F32 P), (V.lane 0).bits.toInt = -1 ∧ ((XMConvertVectorIntToFloat c V 0).lane 0).bits = 0x4F800000#32 ∧
      ¬ Rounds (((V.lane 0).bits.toInt : ℝ) / 2^0) ((XMConvertVectorIntToFloat c V 0).lane 0).bits) := by
  have hov : (2:ℝ)^34 < overflow := by unfold overflow; norm_num
  constructor
  · refine ⟨.splat (ofBV 3#32), rfl, ?_⟩
    have e : ((XMConvertVectorIntToFloat c (.splat (ofBV 3#32) : V4 (F32 P)) 1).lane 0).bits = 0x7F800000#32 := by
      unfold XMConvertVectorIntToFloat
      rw [if_neg (by simp [hs])]
      rw [V4.lane_map, mul_bits, ofU_bits, div_bits, c1_bits, bits_ofBV, lane_splat, show IEEE.ofI32 (1#32 >>> 1) = 0#32 by decide +kernel, show IEEE.ofU32 3#32 = 0x40400000#32 by decide +kernel]
      have hd : IEEE.div P 0x3F800000#32 0#32 = 0x7F800000#32 := by
        have a1 : IEEE.isNaN 0x3F800000#32 = false := by decide
        have a2 : IEEE.isInf 0x3F800000#32 = false := by decide
        have b1 : IEEE.isNaN 0#32 = false := by decide
        have b2 : IEEE.isInf 0#32 = false := by decide
        have b3 : IEEE.mag 0#32 = 0 := by decide
        have a3 : IEEE.mag 0x3F800000#32 ≠ 0 := by decide +kernel
        unfold IEEE.div
        simp only [a1, a2, a3, b1, b2, b3, Bool.or_false, Bool.false_eq_true, if_false, if_true]
        decide
      rw [hd]
      have a1 : IEEE.isNaN 0x40400000#32 = false := by decide
      have a2 : IEEE.isInf 0x40400000#32 = false := by decide
      have b1 : IEEE.isNaN 0x7F800000#32 = false := by decide
      have b2 : IEEE.isInf 0x7F800000#32 = true := by decide
      have b3 : IEEE.mag 0x40400000#32 ≠ 0 := by decide +kernel
      have b4 : IEEE.mag 0x7F800000#32 ≠ 0 := by decide +kernel
      unfold IEEE.mul
      simp only [a1, a2, b1, b2, b3, b4, decide_false, Bool.or_false, Bool.or_true, Bool.false_eq_true, if_false, if_true]
      decide
    refine ⟨e, fun h => ?_⟩
    have := h.finite (lt_trans (by
      show |(((3#32 : BitVec 32).toInt : ℤ) : ℝ) / 2^1| < 2^34
      rw [show (3#32 : BitVec 32).toInt = 3 by decide]; norm_num [abs_of_pos]) hov)
    rw [e] at this; exact absurd this (by decide)
  · refine ⟨.splat (ofBV 0xFFFFFFFF#32), rfl, ?_⟩
    have e : ((XMConvertVectorIntToFloat c (.splat (ofBV 0xFFFFFFFF#32) : V4 (F32 P)) 0).lane 0).bits = 0x4F800000#32 := by
      unfold XMConvertVectorIntToFloat
      rw [if_neg (by simp [hs])]
      rw [V4.lane_map, mul_bits, ofU_bits, div_bits, c1_bits, bits_ofBV, lane_splat, show IEEE.ofI32 (1#32 >>> 0) = IEEE.ofU32 (shl1 0) by decide +kernel, IEEE.div_shl P (by norm_num), show IEEE.ofU32 0xFFFFFFFF#32 = 0x4F800000#32 by decide +kernel,
        IEEE.mul_scale P (by norm_num) (by decide) (Or.inr (by decide))]
      decide
    refine ⟨e, fun h => ?_⟩
    have hx : |(((0xFFFFFFFF#32 : BitVec 32).toInt : ℤ) : ℝ) / 2^0| < 2^34 := by
      rw [show (0xFFFFFFFF#32 : BitVec 32).toInt = -1 by decide]; norm_num
    have := h.nearest (hx.trans hov) 0#32 (by decide)
    rw [e] at this
    have v1 : value 0x4F800000#32 = 2^32 := by
      have := (IEEE.value_pow2 (e := 159) (by norm_num) (by norm_num)).2.1
      rw [show IEEE.mk false (159 * 2^23) = 0x4F800000#32 by decide] at this; rw [this]; norm_num
    have v0 : value 0#32 = 0 := by rw [IEEE.value_eq]; simp [IEEE.ival, IEEE.mag, IEEE.magN, IEEE.am, IEEE.sg]
    rw [v1, v0, show ((V4.splat (ofBV 0xFFFFFFFF#32 : F32 P)).lane 0).bits.toInt = -1 from rfl] at this
    norm_num at this

/-- The lane of XMConvertVectorUIntToFloat. -/
theorem u2f_lane (c : Cfg) (V : V4 (F32 P)) {k : ℕ} (hk : k < 32) (i : Fin 4) : ((XMConvertVectorUIntToFloat c V k).lane i).bits =
    if c.sse then (let u := (V.lane i).bits; let s := IEEE.sg u
      IEEE.mul P (IEEE.add P (IEEE.ofI32 (u ^^^ (if s then 0x80000000#32 else 0#32))) (if s then 0x4F000000#32 else 0#32)) (scaleBits k))
    else IEEE.mul P (IEEE.ofU32 (V.lane i).bits) (scaleBits k) := by
  unfold XMConvertVectorUIntToFloat
  by_cases hs : c.sse = true <;> [rw [if_pos hs, if_pos hs]; rw [if_neg hs, if_neg hs]]
  · simp only [lane_and, lane_xor, lane_add, lane_mul, lane_fixUnsigned, lane_negativeZero, lane_cvt, lane_srai, lane_splat, IEEE.and_sign]
    cases IEEE.sg (V.lane i).bits
    · rw [show ((if false = true then 0x80000000#32 else 0#32 : BitVec 32).sshiftRight 31 &&& 0x4F000000#32) = 0#32 by decide]; rfl
    · rw [show ((if true = true then 0x80000000#32 else 0#32 : BitVec 32).sshiftRight 31 &&& 0x4F000000#32) = 0x4F000000#32 by decide]; rfl
  · simp only [V4.lane_map, mul_bits, ofU_bits, div_bits, c1_bits, IEEE.div_shl P hk]

theorem xor_add {v : BitVec 32} (h : v &&& 0x80000000#32 = 0#32) : v ^^^ 0x80000000#32 = v + 0x80000000#32 := by
  rw [BitVec.add_eq_or_of_and_eq_zero _ _ h]
  refine BitVec.eq_of_getLsbD_eq fun i hi => ?_
  have := congrArg (fun b => b.getLsbD i) h
  simp only [BitVec.getLsbD_and, BitVec.getLsbD_zero] at this
  rw [BitVec.getLsbD_xor, BitVec.getLsbD_or]
  revert this
  cases v.getLsbD i <;> cases (0x80000000#32).getLsbD i <;> simp
theorem xor_top {u : BitVec 32} (h : u &&& 0x80000000#32 = 0x80000000#32) : u ^^^ 0x80000000#32 = u + 0x80000000#32 := by
  have h1 : (u ^^^ 0x80000000#32) &&& 0x80000000#32 = 0#32 := by
    refine BitVec.eq_of_getLsbD_eq fun i hi => ?_
    have := congrArg (fun b => b.getLsbD i) h
    simp only [BitVec.getLsbD_and] at this
    rw [BitVec.getLsbD_and, BitVec.getLsbD_xor, BitVec.getLsbD_zero]
    revert this
    cases u.getLsbD i <;> cases (0x80000000#32).getLsbD i <;> simp
  have h2 := xor_add h1
  rw [BitVec.xor_assoc, BitVec.xor_self, BitVec.xor_zero] at h2
  have h3 : u + 0x80000000#32 = (u ^^^ 0x80000000#32) + (0x80000000#32 + 0x80000000#32) := by rw [← BitVec.add_assoc, ← h2]
  rw [h3, show (0x80000000#32 + 0x80000000#32 : BitVec 32) = 0#32 by decide, BitVec.add_zero]

theorem uint_rounds {u : BitVec 32} {k : ℕ} (hk : k < 32) : Rounds ((u.toNat : ℝ) / 2^k) (IEEE.mul P (IEEE.ofU32 u) (scaleBits k)) := by
  have := IEEE.ofU32_rounds u
  have h2 : (u.toNat : ℝ) = ((u.toNat : ℤ) : ℝ) := by norm_cast
  rw [h2] at this ⊢
  exact IEEE.int_scaled P (by have := u.isLt; omega) this hk

theorem sg_false_toInt {u : BitVec 32} (h : u.toNat < 2^31) : IEEE.sg u = false ∧ (u.toInt : ℤ) = u.toNat := by
  constructor
  · rw [Bool.eq_false_iff, Ne, IEEE.sg_iff]; omega
  · rw [BitVec.toInt_eq_toNat_cond, if_pos (by omega)]

/-- C15 (partial): XMConvertVectorUIntToFloat(V, k) is the correctly rounded u / 2^k for every unsigned lane u without intrinsics,
and with SSE for every u < 2^31 (see C15_uintToFloat_fails and C15_uintToFloat_error for the rest). -/
theorem C15_uintToFloat_partial (c : Cfg) (V : V4 (F32 P)) {k : ℕ} (hk : k < 32) (i : Fin 4) (h : c.sse = false ∨ (V.lane i).bits.toNat < 2^31) :
    Rounds (((V.lane i).bits.toNat : ℝ) / 2^k) ((XMConvertVectorUIntToFloat c V k).lane i).bits := by
  rw [u2f_lane c V hk]
  split_ifs with hs
  · have hu := h.resolve_left (by simp [hs])
    obtain ⟨h1, h2⟩ := sg_false_toInt hu
    dsimp only
    rw [h1]
    simp only [Bool.false_eq_true, if_false, BitVec.xor_zero]
    have hr := IEEE.ofI32_rounds (V.lane i).bits
    have hf := hr.finite (by
      have := intN_lt (V.lane i).bits
      have : |((V.lane i).bits.toInt : ℝ)| < 2^33 := by rw [← Int.cast_abs, Int.abs_eq_natAbs]; exact_mod_cast this
      exact this.trans (by unfold overflow; norm_num))
    rw [(add_zero_bits _ (IEEE.not_nan_of_finite hf) (by
      intro hc
      -- the conversion of a nonnegative integer is not -0
      have : IEEE.sg (IEEE.ofI32 (V.lane i).bits) = false := by
        unfold IEEE.ofI32 IEEE.roundI
        split_ifs with h0
        · decide
        · have hlt : ∀ m, IEEE.roundN m 1 < 2^31 := fun m => by
            rw [IEEE.roundN_min]; exact lt_of_le_of_lt (min_le_left _ _) (by norm_num)
          rw [IEEE.sg_mk _ _ (hlt _), decide_eq_false_iff_not, h2, not_lt]; positivity
      rw [hc] at this; exact absurd this (by decide))).1]
    have e : ((V.lane i).bits.toNat : ℝ) = ((V.lane i).bits.toInt : ℝ) := by rw [h2]; norm_cast
    rw [e]
    exact IEEE.int_scaled P (intN_lt _) hr hk
  · exact uint_rounds hk

/-- A multiple of 2^j with at most 24 significant bits is a number of the format. -/
theorem rep_mul (n : ℤ) (j : ℕ) (h : n.natAbs ≤ 2^24) (hj : j ≤ 31) : IEEE.Rep (n * 2^j) := by
  obtain ⟨y, hy, hv⟩ := IEEE.rep_int n h
  have : IEEE.am y ≤ 220 * 2^23 := by
    by_contra hc
    have hb := IEEE.value_big hy hc
    rw [hv] at hb
    have : |(n:ℝ)| ≤ 2^24 := by rw [← Int.cast_abs, Int.abs_eq_natAbs]; exact_mod_cast h
    norm_num at hb this; linarith
  have := IEEE.rep_scale (k := j) (by omega) this
  rwa [hv] at this

/-- Nearest rounding is within half a step of a grid of representable numbers. -/
theorem near_grid {x : ℝ} {r : BitVec 32} (hr : Rounds x r) (j : ℕ) (hj : j ≤ 31) (h0 : 0 ≤ x) (h1 : x ≤ 2^24 * 2^j) : |value r - x| ≤ 2^j / 2 := by
  have hp : (0:ℝ) < 2^j := by positivity
  have hpj : (2:ℝ)^j ≤ 2^31 := pow_le_pow_right₀ (by norm_num) hj
  have hov : |x| < overflow := by
    rw [abs_of_nonneg h0]
    have : (2:ℝ)^24 * 2^31 < overflow := by unfold overflow; norm_num
    nlinarith
  set n : ℤ := round (x / 2^j) with hn
  have hd := abs_sub_round (x / 2^j)
  rw [← hn] at hd
  have hxn : x / 2^j ≤ 2^24 := (div_le_iff₀ hp).2 h1
  have hx0 : 0 ≤ x / 2^j := div_nonneg h0 hp.le
  have hn0 : 0 ≤ n := by
    by_contra hc; push Not at hc
    have : (n:ℝ) ≤ -1 := by exact_mod_cast (by omega : n ≤ -1)
    have := (abs_le.1 hd).2; linarith
  have hn1 : n ≤ 2^24 := by
    by_contra hc; push Not at hc
    have : ((2^24 + 1 : ℤ) : ℝ) ≤ n := by exact_mod_cast (by omega : (2^24 + 1 : ℤ) ≤ n)
    push_cast at this
    have := (abs_le.1 hd).1; linarith
  obtain ⟨y, hy, hv⟩ := rep_mul n j (by omega) hj
  refine (hr.nearest hov y hy).trans ?_
  rw [hv]
  have : (n:ℝ) * 2^j - x = -((x / 2^j - n) * 2^j) := by field_simp; ring
  rw [this, abs_neg, abs_mul, abs_of_pos hp]
  nlinarith

/-- C15: with SSE the unsigned conversion is within 192 of the exact integer (before scaling by 2^-k), for every lane. -/
theorem C15_uintToFloat_error (c : Cfg) (V : V4 (F32 P)) {k : ℕ} (hk : k < 32) (i : Fin 4) :
    IsFinite ((XMConvertVectorUIntToFloat c V k).lane i).bits ∧
    |value ((XMConvertVectorUIntToFloat c V k).lane i).bits - ((V.lane i).bits.toNat : ℝ) / 2^k| ≤ 192 / 2^k := by
  have hp : (0:ℝ) < 2^k := by positivity
  have hov : (2:ℝ)^34 < overflow := by unfold overflow; norm_num
  -- from the unscaled to the scaled
  have scale : ∀ r : BitVec 32, Rounds (value r) r → IsFinite r → (∃ n : ℤ, n.natAbs < 2^33 ∧ value r = n) → |value r - ((V.lane i).bits.toNat : ℝ)| ≤ 192 →
      IsFinite (IEEE.mul P r (scaleBits k)) ∧ |value (IEEE.mul P r (scaleBits k)) - ((V.lane i).bits.toNat : ℝ) / 2^k| ≤ 192 / 2^k := by
    rintro r hr hf ⟨n, hn, hv⟩ he
    rw [hv] at hr
    have h := IEEE.int_rounded hn hr hk
    obtain ⟨g1, g2, -⟩ := IEEE.value_scale hf h
    rw [IEEE.mul_scale P hk hf h]
    refine ⟨g1, ?_⟩
    rw [g2, ← sub_div, abs_div, abs_of_pos hp]
    exact div_le_div_of_nonneg_right he hp.le
  have self : ∀ r : BitVec 32, IsFinite r → |value r| ≤ 2^33 → Rounds (value r) r := by
    intro r hf hb
    have hb' : |value r| < 2^34 := hb.trans_lt (by norm_num)
    refine ⟨fun _ => hf, fun _ y _ => by simp, fun _ y _ hne he => ?_, fun h => ?_, fun h => ?_⟩
    · exfalso; apply hne; rw [sub_self, abs_zero, abs_eq_zero, sub_eq_zero] at he; exact he
    · exfalso; linarith [(abs_lt.1 hb').2]
    · exfalso; linarith [(abs_lt.1 hb').1]
  have hu := (V.lane i).bits.isLt
  rw [u2f_lane c V hk]
  by_cases hlow : c.sse = false ∨ (V.lane i).bits.toNat < 2^31
  · -- correctly rounded already
    have hR := C15_uintToFloat_partial c V hk i hlow
    rw [u2f_lane c V hk] at hR
    generalize (if c.sse then _ else _ : BitVec 32) = r at *
    have hx : |((V.lane i).bits.toNat : ℝ) / 2^k| < overflow := by
      have h1 : ((V.lane i).bits.toNat : ℝ) < 2^32 := by exact_mod_cast hu
      have h2 : (1:ℝ) ≤ 2^k := one_le_pow₀ (by norm_num)
      rw [abs_of_nonneg (by positivity)]
      have : ((V.lane i).bits.toNat : ℝ) / 2^k ≤ (V.lane i).bits.toNat := div_le_self (by positivity) h2
      linarith [show (2:ℝ)^32 < 2^34 by norm_num]
    refine ⟨hR.finite hx, ?_⟩
    -- compare with the nearest multiple of 256 / 2^k, which is representable
    set u : ℤ := ((V.lane i).bits.toNat : ℤ) with hudef
    obtain ⟨q, hq1, hq2, hq3⟩ : ∃ q : ℤ, 0 ≤ q ∧ q ≤ 2^24 ∧ |q * 256 - u| ≤ 128 := by
      refine ⟨(u + 128) / 256, by omega, by omega, ?_⟩
      rw [abs_le]; omega
    obtain ⟨y, hy, hv⟩ := rep_mul q 8 (by omega) (by norm_num)
    have hrep : ∃ y, IsFinite y ∧ value y = (q * 256 : ℤ) / 2^k := by
      have hb : |value y| ≤ 2^33 := by
        rw [hv, abs_of_nonneg (by positivity)]
        have : (q:ℝ) ≤ 2^24 := by exact_mod_cast hq2
        nlinarith
      have hself := self y hy hb
      have e : value y = ((q * 256 : ℤ) : ℝ) := by rw [hv]; push_cast; norm_num
      rw [e] at hself
      have h := IEEE.int_rounded (n := q * 256) (by omega) hself hk
      obtain ⟨g1, g2, -⟩ := IEEE.value_scale hy h
      exact ⟨_, g1, by rw [g2, e]⟩
    obtain ⟨z, hz, hvz⟩ := hrep
    refine (hR.nearest hx z hz).trans ?_
    have e : ((V.lane i).bits.toNat : ℝ) = (u : ℝ) := by rw [hudef]; norm_cast
    rw [hvz, e, ← sub_div, abs_div, abs_of_pos hp]
    apply div_le_div_of_nonneg_right _ hp.le
    have : |((q * 256 - u : ℤ) : ℝ)| ≤ 128 := by rw [← Int.cast_abs]; exact_mod_cast hq3
    push_cast at this ⊢; linarith
  · push Not at hlow
    obtain ⟨hs, hbig⟩ := hlow
    rw [if_pos (by simpa using hs)]
    dsimp only
    have hsg : IEEE.sg (V.lane i).bits = true := (IEEE.sg_iff _).2 hbig
    rw [hsg]
    simp only [if_true]
    set u := (V.lane i).bits with hudef
    have hx : (u ^^^ 0x80000000#32).toNat = u.toNat - 2^31 := by
      have : u ^^^ 0x80000000#32 = u - 0x80000000#32 := by
        have := xor_top (u := u) (by rw [IEEE.and_sign, hsg]; rfl)
        rw [this]; apply BitVec.eq_of_toNat_eq
        rw [BitVec.toNat_add, BitVec.toNat_sub, show (0x80000000#32 : BitVec 32).toNat = 2^31 by decide]; omega
      rw [this, BitVec.toNat_sub, show (0x80000000#32 : BitVec 32).toNat = 2^31 by decide]; omega
    have hxi : ((u ^^^ 0x80000000#32).toInt : ℝ) = (u.toNat : ℝ) - 2^31 := by
      have h1 := (sg_false_toInt (u := u ^^^ 0x80000000#32) (by omega)).2
      have h2 : ((u ^^^ 0x80000000#32).toInt : ℤ) = (u.toNat : ℤ) - 2^31 := by rw [h1, hx]; omega
      rw [h2]; push_cast; ring
    have hr := IEEE.ofI32_rounds (u ^^^ 0x80000000#32)
    rw [hxi] at hr
    have b1 : (2:ℝ)^31 ≤ u.toNat := by exact_mod_cast hbig
    have b2 : (u.toNat : ℝ) ≤ 2^32 - 1 := by
      have : (u.toNat : ℤ) ≤ 2^32 - 1 := by omega
      exact_mod_cast this
    have n1 := near_grid hr 7 (by norm_num) (by linarith) (by linarith [show (2:ℝ)^24 * 2^7 = 2^31 by norm_num, show (2:ℝ)^31 + 2^31 = 2^32 by norm_num])
    have f1 : IsFinite (IEEE.ofI32 (u ^^^ 0x80000000#32)) := hr.finite (by
      rw [abs_of_nonneg (by linarith)]; linarith [show (2:ℝ)^32 < 2^34 by norm_num, show (2:ℝ)^31 + 2^31 = 2^32 by norm_num, show (0:ℝ) < 2^31 by norm_num])
    -- the converted low part is nonnegative and at most 2^31
    have n0 : 0 ≤ value (IEEE.ofI32 (u ^^^ 0x80000000#32)) := by
      by_contra hc; push Not at hc
      have v0 : value 0#32 = 0 := by rw [IEEE.value_eq]; simp [IEEE.ival, IEEE.mag, IEEE.magN, IEEE.am, IEEE.sg]
      have := hr.nearest (by rw [abs_of_nonneg (by linarith)]; linarith [show (2:ℝ)^32 < 2^34 by norm_num, show (2:ℝ)^31 + 2^31 = 2^32 by norm_num, show (0:ℝ) < 2^31 by norm_num]) 0#32 (by decide)
      rw [v0, abs_of_nonpos (by linarith), abs_of_nonpos (by linarith)] at this; linarith
    have v31 : IsFinite 0x4F000000#32 ∧ value 0x4F000000#32 = 2^31 := by
      have := (IEEE.value_pow2 (e := 158) (by norm_num) (by norm_num))
      rw [show IEEE.mk false (158 * 2^23) = 0x4F000000#32 by decide] at this; exact ⟨this.1, by rw [this.2.1]; norm_num⟩
    have nT : value (IEEE.ofI32 (u ^^^ 0x80000000#32)) ≤ 2^31 := by
      by_contra hc; push Not at hc
      have := hr.nearest (by rw [abs_of_nonneg (by linarith)]; linarith [show (2:ℝ)^32 < 2^34 by norm_num, show (2:ℝ)^31 + 2^31 = 2^32 by norm_num, show (0:ℝ) < 2^31 by norm_num]) _ v31.1
      rw [v31.2, abs_of_nonneg (by linarith [show (2:ℝ)^31 + 2^31 = 2^32 by norm_num]), abs_of_nonneg (by linarith [show (2:ℝ)^31 + 2^31 = 2^32 by norm_num])] at this; linarith
    have hR := IEEE.add_rounds P f1 v31.1
    rw [v31.2] at hR
    set w := IEEE.ofI32 (u ^^^ 0x80000000#32) with hw
    have n2 := near_grid hR 8 (by norm_num) (by linarith) (by linarith [show (2:ℝ)^24 * 2^8 = 2^31 + 2^31 by norm_num])
    have hxr : |value w + 2^31| < overflow := by
      rw [abs_of_nonneg (by linarith)]; linarith [show (2:ℝ)^32 < 2^34 by norm_num, show (2:ℝ)^31 + 2^31 = 2^32 by norm_num, show (0:ℝ) < 2^31 by norm_num]
    have f2 := hR.finite hxr
    set r := IEEE.add P w 0x4F000000#32 with hrd
    have he : |value r - (u.toNat : ℝ)| ≤ 192 := by
      have e : value r - (u.toNat:ℝ) = (value r - (value w + 2^31)) + (value w - ((u.toNat:ℝ) - 2^31)) := by ring
      rw [e]
      refine (abs_add_le _ _).trans ?_
      norm_num at n1 n2 ⊢; linarith
    have hb : |value r| ≤ 2^33 := by
      have e : value r = (value r - u.toNat) + u.toNat := by ring
      rw [e]; refine (abs_add_le _ _).trans ?_
      rw [abs_of_nonneg (by positivity : (0:ℝ) ≤ u.toNat)]; linarith [show (2:ℝ)^32 + 192 ≤ 2^33 by norm_num]
    refine scale r (self r f2 hb) f2 ?_ he
    -- a finite number of this size is an integer
    have hge : 0x4B000000 ≤ IEEE.am r := by
      by_contra hc; push Not at hc
      have hm := IEEE.mag_lt hc
      have : |value r| < 2^23 := by
        rw [IEEE.value_sign, abs_mul]
        have h1 : |(if IEEE.sg r then (-1:ℝ) else 1)| = 1 := by cases IEEE.sg r <;> simp
        rw [h1, one_mul, abs_of_nonneg (mul_nonneg (Nat.cast_nonneg _) IEEE.u149.le)]
        have h2 : IEEE.magN 0x4B000000 = 2^23 * 2^149 := by decide +kernel
        rw [h2] at hm
        have h3 : (IEEE.mag r : ℝ) < 2^23 * 2^149 := by exact_mod_cast hm
        calc (IEEE.mag r : ℝ) * 2^(-149:ℤ) < (2^23 * 2^149) * 2^(-149:ℤ) := mul_lt_mul_of_pos_right h3 IEEE.u149
          _ = 2^23 := by rw [mul_assoc, IEEE.two149, mul_one]
      have h5 := (abs_le.1 he).1
      have h6 := (abs_lt.1 this).2
      linarith [le_abs_self (value r), show (2:ℝ)^23 + 192 < 2^31 by norm_num]
    obtain ⟨n, hn⟩ := IEEE.big_int hge f2
    refine ⟨n, ?_, hn⟩
    rw [hn, ← Int.cast_abs, Int.abs_eq_natAbs] at hb
    have h5 := (abs_le.1 he).2
    have h7 : |value r| < 2^33 := by
      have h8 := (abs_le.1 he).1
      rw [abs_lt]; constructor <;> linarith [show (2:ℝ)^32 + 192 < 2^33 by norm_num, show (192:ℝ) < 2^31 by norm_num, show (0:ℝ) < 2^33 by norm_num]
    rw [hn, ← Int.cast_abs, Int.abs_eq_natAbs] at h7
    exact_mod_cast h7

/-- C15 fails with SSE for large unsigned lanes: 0xC0000141 = 2^31 + 2^30 + 321 is rounded twice, to 2^31 + 2^30 + 512, although
2^31 + 2^30 + 256 is a float and nearer. -/
theorem C15_uintToFloat_fails (c : Cfg) (hs : c.sse = true) : ∃ V : V4 (F32 P), (V.lane 0).bits.toNat = 2^31 + 2^30 + 321 ∧
    value ((XMConvertVectorUIntToFloat c V 0).lane 0).bits = 2^31 + 2^30 + 512 ∧
    ¬ Rounds (((V.lane 0).bits.toNat : ℝ) / 2^0) ((XMConvertVectorUIntToFloat c V 0).lane 0).bits := by
  have e : ((XMConvertVectorUIntToFloat c (.splat (ofBV 0xC0000141#32) : V4 (F32 P)) 0).lane 0).bits = 0x4F400002#32 := by
    rw [u2f_lane _ _ (by norm_num), if_pos hs]
    show IEEE.mul P (IEEE.add P (IEEE.ofI32 (0xC0000141#32 ^^^ (if IEEE.sg 0xC0000141#32 then 0x80000000#32 else 0#32))) (if IEEE.sg 0xC0000141#32 then 0x4F000000#32 else 0#32)) (scaleBits 0) = _
    rw [show IEEE.ofI32 (0xC0000141#32 ^^^ (if IEEE.sg 0xC0000141#32 then 0x80000000#32 else 0#32)) = 0x4E800003#32 by decide +kernel,
      show (if IEEE.sg 0xC0000141#32 then 0x4F000000#32 else 0#32 : BitVec 32) = 0x4F000000#32 by decide]
    have h : IEEE.add P 0x4E800003#32 0x4F000000#32 = 0x4F400002#32 := by
      have z1 : IEEE.isNaN 0x4E800003#32 = false := by decide
      have z2 : IEEE.isInf 0x4E800003#32 = false := by decide
      have z3 : IEEE.isNaN 0x4F000000#32 = false := by decide
      have z4 : IEEE.isInf 0x4F000000#32 = false := by decide
      unfold IEEE.add IEEE.addCore
      simp only [z1, z2, z3, z4, Bool.or_false, Bool.false_eq_true, if_false]
      decide +kernel
    rw [h, IEEE.mul_scale P (by norm_num) (by decide) (Or.inr (by decide))]
    decide
  have val : ∀ (b : BitVec 32) (n : ℕ), IEEE.sg b = false → IEEE.mag b = n * 2^149 → value b = n := by
    intro b n h1 h2
    rw [IEEE.value_sign, h1, h2]; simp only [Bool.false_eq_true, if_false, one_mul]
    rw [Nat.cast_mul, Nat.cast_pow, mul_assoc, Nat.cast_ofNat, IEEE.two149, mul_one]
  have v1 : value 0x4F400002#32 = 2^31 + 2^30 + 512 := by
    rw [val _ (2^31 + 2^30 + 512) (by decide) (by decide +kernel)]; norm_num
  have v2 : value 0x4F400001#32 = 2^31 + 2^30 + 256 := by
    rw [val _ (2^31 + 2^30 + 256) (by decide) (by decide +kernel)]; norm_num
  refine ⟨.splat (ofBV 0xC0000141#32), by show (0xC0000141#32 : BitVec 32).toNat = _; decide, by rw [e]; exact v1, fun h => ?_⟩
  rw [e] at h
  have hx : (((.splat (ofBV 0xC0000141#32) : V4 (F32 P)).lane 0).bits.toNat : ℝ) / 2^0 = 2^31 + 2^30 + 321 := by
    show ((0xC0000141#32 : BitVec 32).toNat : ℝ) / 2^0 = _
    rw [show (0xC0000141#32 : BitVec 32).toNat = 2^31 + 2^30 + 321 by decide]; norm_num
  rw [hx] at h
  have := h.nearest (by rw [abs_of_pos (by norm_num)]; unfold overflow; norm_num) 0x4F400001#32 (by decide)
  rw [v1, v2] at this
  norm_num [abs_of_pos, abs_of_neg] at this

/-- n / 2^k with at most 24 bits in n is a number of the format. -/
theorem rep_div (n : ℤ) (h : n.natAbs ≤ 2^24) {k : ℕ} (hk : k < 32) : IEEE.Rep ((n:ℝ) / 2^k) := by
  obtain ⟨y, hy, hv⟩ := IEEE.rep_int n h
  have hb : |value y| ≤ 2^24 := by rw [hv, ← Int.cast_abs, Int.abs_eq_natAbs]; exact_mod_cast h
  have hself : Rounds (n:ℝ) y := by
    have hov : (2:ℝ)^34 < overflow := by unfold overflow; norm_num
    rw [← hv]
    refine ⟨fun _ => hy, fun _ y _ => by simp, fun _ z _ hne he => ?_, fun h => ?_, fun h => ?_⟩
    · exfalso; apply hne; rw [sub_self, abs_zero, abs_eq_zero, sub_eq_zero] at he; exact he
    · exfalso; norm_num at hb hov; linarith [(abs_le.1 hb).2]
    · exfalso; norm_num at hb hov; linarith [(abs_le.1 hb).1]
  have h' := IEEE.int_rounded (n := n) (by omega) hself hk
  obtain ⟨g1, g2, -⟩ := IEEE.value_scale hy h'
  exact ⟨_, g1, by rw [g2, hv]⟩

/-- C15: converting an integer of at most 24 bits to float and back, with the same exponent, is the identity (every build in which
the first step is right, see C15_intToFloat_partial). -/
theorem C15_roundtrip (c c' : Cfg) (V : V4 (F32 P)) {k : ℕ} (hk : k < 32) (i : Fin 4) (hn : (V.lane i).bits.toInt.natAbs ≤ 2^24)
    (h : c.sse = true ∨ (k = 0 ∧ 0 ≤ (V.lane i).bits.toInt)) :
    ((XMConvertVectorFloatToInt c' (XMConvertVectorIntToFloat c V k) k).lane i).bits = (V.lane i).bits := by
  obtain ⟨h1, h2⟩ := IEEE.exact_of (C15_intToFloat_partial c V hk i h) (rep_div _ hn hk)
  have := (C15_floatToInt c' (XMConvertVectorIntToFloat c V k) hk i).1 h1
  rw [h2, div_mul_cancel₀ _ (by positivity), IEEE.truncZ_int] at this
  apply BitVec.eq_of_toInt_eq
  rw [this]; omega

-- the hypotheses are met: the integer 5 with k = 3
example : ∃ V : V4 (F32 P), (V.lane 2).bits.toInt.natAbs ≤ 2^24 ∧ (V.lane 2).bits.toInt = 5 := ⟨.splat (ofBV 5#32), by rw [lane_splat]; decide, rfl⟩
example : ∃ V : V4 (F32 P), IsFinite (V.lane 2).bits ∧ IsNaN (V.lane 1).bits ∧ IsInf (V.lane 0).bits :=
  ⟨⟨ofBV 0x7F800000#32, ofBV 0x7FC00000#32, ofBV 0x3F800000#32, ofBV 0#32⟩, by show IsFinite 0x3F800000#32; decide,
    by show IsNaN 0x7FC00000#32; decide, by show IsInf 0x7F800000#32; decide⟩

/-! ### C20 -/

/-- C20 (partial): XMVectorSplatConstant(n, k) has exactly n / 2^k in every lane: with SSE for all n and k, without intrinsics only for
k = 0 and n ≥ 0 (see C20_splatConstant_fails). -/
theorem C20_splatConstant_partial (c : Cfg) {n : ℤ} (h1 : -16 ≤ n) (h2 : n ≤ 15) {k : ℕ} (hk : k < 32) (h : c.sse = true ∨ (k = 0 ∧ 0 ≤ n)) (i : Fin 4) :
    IsFinite ((XMVectorSplatConstant c n k : V4 (F32 P)).lane i).bits ∧ value ((XMVectorSplatConstant c n k : V4 (F32 P)).lane i).bits = (n:ℝ) / 2^k := by
  have ht : (BitVec.ofInt 32 n).toInt = n := by rw [BitVec.toInt_ofInt]; apply Int.bmod_eq_of_le <;> omega
  have hsc : (0x3F800000#32 - BitVec.ofNat 32 (k * 2^23)) = scaleBits k := by
    clear h; interval_cases k <;> decide
  apply IEEE.exact_of _ (rep_div n (by omega) hk)
  unfold XMVectorSplatConstant
  by_cases hs : c.sse = true <;> [rw [if_pos hs]; rw [if_neg hs]] <;> rw [V4.lane_splat, mul_bits]
  · rw [i2f_eq, bits_ofBV, ofBits_bits, ofBits_bits, hsc]
    have := IEEE.ofI32_rounds (BitVec.ofInt 32 n)
    rw [ht] at this
    exact IEEE.int_scaled P (by omega) this hk
  · obtain ⟨rfl, h0⟩ := h.resolve_left hs
    rw [if_pos rfl, u2f_eq, bits_ofBV, ofBits_bits, div_bits, c1_bits]
    have hd := IEEE.div_shl P (k := 0) (by norm_num)
    rw [show IEEE.ofU32 (shl1 0) = 0x3F800000#32 by decide +kernel] at hd
    rw [hd]
    have := IEEE.ofU32_rounds (BitVec.ofInt 32 n)
    have hu : ((BitVec.ofInt 32 n).toNat : ℝ) = (n:ℝ) := by
      have : ((BitVec.ofInt 32 n).toNat : ℤ) = n := by rw [BitVec.toNat_ofInt]; omega
      exact_mod_cast this
    rw [hu] at this
    exact IEEE.int_scaled P (by omega) this hk

/-- C20 fails without intrinsics: XMVectorSplatConstant(1, 1) is infinity, not 1/2; XMVectorSplatConstant(-1, 0) is 2^32, not -1. -/
theorem C20_splatConstant_fails (c : Cfg) (hs : c.sse = false) (i : Fin 4) :
    ((XMVectorSplatConstant c 1 1 : V4 (F32 P)).lane i).bits = 0x7F800000#32 ∧ ((XMVectorSplatConstant c (-1) 0 : V4 (F32 P)).lane i).bits = 0x4F800000#32 := by
  constructor
  · have e : ((XMVectorSplatConstant c 1 1 : V4 (F32 P)).lane i).bits = IEEE.mul P (IEEE.ofU32 1#32) (IEEE.div P 0x3F800000#32 0#32) := by
      unfold XMVectorSplatConstant
      rw [if_neg (by simp [hs]), if_neg (by norm_num), V4.lane_splat, mul_bits, u2f_eq, bits_ofBV, ofBits_bits, div_bits, c1_bits, c0_bits]; rfl
    rw [e, show IEEE.ofU32 1#32 = 0x3F800000#32 by decide +kernel]
    have a1 : IEEE.isNaN 0x3F800000#32 = false := by decide
    have a2 : IEEE.isInf 0x3F800000#32 = false := by decide
    have b1 : IEEE.isNaN 0#32 = false := by decide
    have b2 : IEEE.isInf 0#32 = false := by decide
    have hd : IEEE.div P 0x3F800000#32 0#32 = 0x7F800000#32 := by
      have b3 : IEEE.mag 0#32 = 0 := by decide
      have a3 : IEEE.mag 0x3F800000#32 ≠ 0 := by decide +kernel
      unfold IEEE.div
      simp only [a1, a2, a3, b1, b2, b3, Bool.or_false, Bool.false_eq_true, if_false, if_true]
      decide
    have c1 : IEEE.isNaN 0x7F800000#32 = false := by decide
    have c2 : IEEE.isInf 0x7F800000#32 = true := by decide
    rw [hd]
    have b3 : IEEE.mag 0x3F800000#32 ≠ 0 := by decide +kernel
    have b4 : IEEE.mag 0x7F800000#32 ≠ 0 := by decide +kernel
    unfold IEEE.mul
    simp only [a1, a2, c1, c2, b3, b4, decide_false, Bool.or_false, Bool.or_true, Bool.false_eq_true, if_false, if_true]
    decide
  · have e : ((XMVectorSplatConstant c (-1) 0 : V4 (F32 P)).lane i).bits = IEEE.mul P (IEEE.ofU32 (BitVec.ofInt 32 (-1))) (IEEE.div P 0x3F800000#32 0x3F800000#32) := by
      unfold XMVectorSplatConstant
      rw [if_neg (by simp [hs]), if_pos rfl, V4.lane_splat, mul_bits, u2f_eq, bits_ofBV, ofBits_bits, div_bits, c1_bits]
    have hd := IEEE.div_shl P (k := 0) (by norm_num)
    rw [show IEEE.ofU32 (shl1 0) = 0x3F800000#32 by decide +kernel] at hd
    rw [e, hd, show IEEE.ofU32 (BitVec.ofInt 32 (-1)) = 0x4F800000#32 by decide +kernel,
      IEEE.mul_scale P (by norm_num) (by decide) (Or.inr (by decide))]
    decide

/-- C20: XMVectorSplatConstantInt(n) has the integer n in every lane. -/
theorem C20_splatConstantInt (c : Cfg) {n : ℤ} (h1 : -16 ≤ n) (h2 : n ≤ 15) (i : Fin 4) :
    ((XMVectorSplatConstantInt c n : V4 (F32 P)).lane i).bits.toInt = n := by
  have ht : (BitVec.ofInt 32 n).toInt = n := by rw [BitVec.toInt_ofInt]; apply Int.bmod_eq_of_le <;> omega
  fin_cases i <;> exact ht

/-- The wanted lane of XMVectorSetBinaryConstant: 1.0 for 1, 0.0 for 0. -/
def binaryLane (C : BitVec 32) : BitVec 32 := if C = 1#32 then 0x3F800000#32 else 0#32

theorem binary_sse (C0 C1 C2 C3 : BitVec 32) :
    SSE.and (SSE.cmpeq_epi32 (SSE.and (⟨ofBV C0, ofBV C1, ofBV C2, ofBV C3⟩ : V4 (F32 P)) ⟨ofBV 1#32, ofBV 2#32, ofBV 3#32, ofBV 4#32⟩) ⟨ofBV 1#32, ofBV 2#32, ofBV 3#32, ofBV 4#32⟩) g_XMOne =
    ⟨ofBV (if C0 &&& 1#32 = 1#32 then 0x3F800000#32 else 0#32), ofBV (if C1 &&& 2#32 = 2#32 then 0x3F800000#32 else 0#32),
      ofBV (if C2 &&& 3#32 = 3#32 then 0x3F800000#32 else 0#32), ofBV (if C3 &&& 4#32 = 4#32 then 0x3F800000#32 else 0#32)⟩ := by
  have key : ∀ C m : BitVec 32, (Lane.band (Lane.mask (Lane.ieq (Lane.band (ofBV C) (ofBV m) : F32 P) (ofBV m))) (Lane.ofBits 0x3F800000#32) : F32 P) =
      ofBV (if C &&& m = m then 0x3F800000#32 else 0#32) := by
    intro C m
    rw [band_eq, bits_mask, and_mask, ofBits_bits]
    have : Lane.ieq (Lane.band (ofBV C) (ofBV m)) (ofBV m : F32 P) = decide (C &&& m = m) := rfl
    rw [this]
    by_cases h : C &&& m = m <;> simp [h]
  simp only [SSE.and, SSE.cmpeq_epi32, V4.map2, g_XMOne, key]

/-- C20 (partial): for 0/1 arguments XMVectorSetBinaryConstant is right without intrinsics in builds without overflow checks, and with SSE
when only the first argument is 1 (see C20_binaryConstant_fails). -/
theorem C20_binaryConstant_partial (c : Cfg) (debug : Bool) (C0 C1 C2 C3 : BitVec 32) (h0 : C0 = 0#32 ∨ C0 = 1#32) (h1 : C1 = 0#32 ∨ C1 = 1#32)
    (h2 : C2 = 0#32 ∨ C2 = 1#32) (h3 : C3 = 0#32 ∨ C3 = 1#32) (h : (c.sse = false ∧ debug = false) ∨ (c.sse = true ∧ C1 = 0#32 ∧ C2 = 0#32 ∧ C3 = 0#32)) :
    (XMVectorSetBinaryConstant c debug C0 C1 C2 C3 : Option (V4 (F32 P))) = some ⟨ofBV (binaryLane C0), ofBV (binaryLane C1), ofBV (binaryLane C2), ofBV (binaryLane C3)⟩ := by
  have hl : ∀ C : BitVec 32, C = 0#32 ∨ C = 1#32 → (0#32 - (C &&& 1#32)) &&& 0x3F800000#32 = binaryLane C := by
    rintro C (rfl | rfl) <;> decide
  unfold XMVectorSetBinaryConstant
  rcases h with ⟨hs, rfl⟩ | ⟨hs, rfl, rfl, rfl⟩
  · rw [if_neg (by simp [hs])]
    simp only [Bool.false_and, Bool.false_eq_true, if_false, hl _ h0, hl _ h1, hl _ h2, hl _ h3]
  · rw [if_pos hs]
    simp only [binary_sse]
    rcases h0 with rfl | rfl <;> rfl

/-- C20 fails: with SSE (1,1,1,1) gives (1,0,0,0) (the masks 1,2,3,4 are compared instead of 1,1,1,1); without intrinsics a build with
overflow checks panics as soon as one argument is 1. -/
theorem C20_binaryConstant_fails (c : Cfg) (debug : Bool) :
    (c.sse = true → (XMVectorSetBinaryConstant c debug 1#32 1#32 1#32 1#32 : Option (V4 (F32 P))) = some ⟨ofBV 0x3F800000#32, ofBV 0#32, ofBV 0#32, ofBV 0#32⟩) ∧
    (c.sse = false → debug = true → ∀ C0 C1 C2 C3 : BitVec 32, C0 = 1#32 ∨ C1 = 1#32 ∨ C2 = 1#32 ∨ C3 = 1#32 →
      (XMVectorSetBinaryConstant c debug C0 C1 C2 C3 : Option (V4 (F32 P))) = none) := by
  constructor
  · intro hs; unfold XMVectorSetBinaryConstant; rw [if_pos hs]; simp only [binary_sse]; rfl
  · rintro hs rfl C0 C1 C2 C3 h
    unfold XMVectorSetBinaryConstant
    rw [if_neg (by simp [hs])]
    have h1 : decide (0 < ((1#32 : BitVec 32) &&& 1#32).toNat) = true := by decide
    rcases h with rfl | rfl | rfl | rfl
    · simp only [h1, Bool.and_self, if_true]
    · simp only [h1, Bool.and_self, if_true]; split <;> simp_all
    · simp only [h1, Bool.and_self, if_true]; split <;> simp_all
    · simp only [h1, Bool.and_self, if_true]; split <;> simp_all

/-- C20: the named constants, every build: all lanes 0, 1, +infinity, a quiet NaN, 2^-23, -0 (only the sign bit), all ones / all zeros;
XMVectorReplicate has its argument in every lane. -/
theorem C20_named (c : Cfg) (v : F32 P) (i : Fin 4) :
    value ((XMVectorZero : V4 (F32 P)).lane i).bits = 0 ∧ value ((XMVectorSplatOne c : V4 (F32 P)).lane i).bits = 1 ∧
    evalue ((XMVectorSplatInfinity c : V4 (F32 P)).lane i).bits = ⊤ ∧ IsNaN ((XMVectorSplatQNaN c : V4 (F32 P)).lane i).bits ∧
    value ((XMVectorSplatEpsilon c : V4 (F32 P)).lane i).bits = 1 / 2^23 ∧
    (∀ j : ℕ, ((XMVectorSplatSignMask : V4 (F32 P)).lane i).bits.getLsbD j = decide (j = 31)) ∧
    (∀ j : ℕ, j < 32 → ((XMVectorTrueInt : V4 (F32 P)).lane i).bits.getLsbD j = true) ∧ ((XMVectorFalseInt : V4 (F32 P)).lane i).bits = 0#32 ∧
    (XMVectorReplicate v).lane i = v := by
  have e1 : ((XMVectorSplatOne c : V4 (F32 P)).lane i).bits = 0x3F800000#32 := by unfold XMVectorSplatOne; split_ifs <;> fin_cases i <;> rfl
  have e2 : ((XMVectorSplatInfinity c : V4 (F32 P)).lane i).bits = 0x7F800000#32 := by unfold XMVectorSplatInfinity; split_ifs <;> fin_cases i <;> rfl
  have e3 : ((XMVectorSplatQNaN c : V4 (F32 P)).lane i).bits = 0x7FC00000#32 := by unfold XMVectorSplatQNaN; split_ifs <;> fin_cases i <;> rfl
  have e4 : ((XMVectorSplatEpsilon c : V4 (F32 P)).lane i).bits = 0x34000000#32 := by unfold XMVectorSplatEpsilon; split_ifs <;> fin_cases i <;> rfl
  have e5 : ((XMVectorSplatSignMask : V4 (F32 P)).lane i).bits = 0x80000000#32 := by fin_cases i <;> rfl
  have e6 : ((XMVectorTrueInt : V4 (F32 P)).lane i).bits = 0xFFFFFFFF#32 := by fin_cases i <;> rfl
  have e0 : ((XMVectorZero : V4 (F32 P)).lane i).bits = 0#32 := by fin_cases i <;> rfl
  rw [e0, e1, e2, e3, e4, e5, e6]
  refine ⟨?_, ?_, ?_, by decide, ?_, ?_, ?_, by fin_cases i <;> rfl, by fin_cases i <;> rfl⟩
  · rw [IEEE.value_eq]; simp [IEEE.ival, IEEE.mag, IEEE.magN, IEEE.am, IEEE.sg]
  · have := (IEEE.value_pow2 (e := 127) (by norm_num) (by norm_num)).2.1
    rw [show IEEE.mk false (127 * 2^23) = 0x3F800000#32 by decide] at this; rw [this]; norm_num
  · unfold evalue; rw [if_pos (by decide)]; rfl
  · have := (IEEE.value_pow2 (e := 104) (by norm_num) (by norm_num)).2.1
    rw [show IEEE.mk false (104 * 2^23) = 0x34000000#32 by decide] at this; rw [this]; norm_num
  · intro j
    by_cases hj : j < 32
    · interval_cases j <;> decide
    · rw [BitVec.getLsbD_of_ge _ _ (by omega)]; symm; simp; omega
  · intro j hj; interval_cases j <;> decide

end DXM.Props
