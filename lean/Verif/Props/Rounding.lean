import Verif.Lemmas.Integral
import Verif.Props.Compare

/-
C14: Round, Truncate, Floor and Ceiling on all bit patterns (interpretation I), every build.
-/

set_option linter.all false

namespace DXM.Props
open DXM.Spec
variable {P : Env}

/-- What a rounding to integers must do to a lane `a`, giving `r`, when `S x n` says that `n` is the wanted integer for `x`:
a finite lane becomes exactly the wanted integer, an infinity stays, a NaN stays a NaN. -/
structure RoundsToInt (S : ℝ → ℤ → Prop) (a r : BitVec 32) : Prop where
  finite : IsFinite a → IsFinite r ∧ ∃ n : ℤ, S (value a) n ∧ value r = n
  inf : IsInf a → r = a
  nan : IsNaN a → IsNaN r

theorem pick (b : Bool) (x y : F32 P) : Lane.bor (Lane.band x (Lane.mask b)) (Lane.bandn (Lane.mask b) y) = if b then x else y := by
  cases b
  · show x.bits &&& 0#32 ||| (~~~0#32 &&& y.bits) = y.bits
    rw [BitVec.and_zero, BitVec.zero_or, BitVec.not_zero, BitVec.allOnes_and]
  · show x.bits &&& 0xFFFFFFFF#32 ||| (~~~0xFFFFFFFF#32 &&& y.bits) = x.bits
    rw [show (0xFFFFFFFF#32 : BitVec 32) = BitVec.allOnes 32 by decide, BitVec.and_allOnes, BitVec.not_allOnes, BitVec.zero_and, BitVec.or_zero]
theorem pickx (b : Bool) (x y : F32 P) : Lane.bxor (Lane.band x (Lane.mask b)) (Lane.bandn (Lane.mask b) y) = if b then x else y := by
  cases b
  · show x.bits &&& 0#32 ^^^ (~~~0#32 &&& y.bits) = y.bits
    rw [BitVec.and_zero, BitVec.zero_xor, BitVec.not_zero, BitVec.allOnes_and]
  · show x.bits &&& 0xFFFFFFFF#32 ^^^ (~~~0xFFFFFFFF#32 &&& y.bits) = x.bits
    rw [show (0xFFFFFFFF#32 : BitVec 32) = BitVec.allOnes 32 by decide, BitVec.and_allOnes, BitVec.not_allOnes, BitVec.zero_and, BitVec.xor_zero]

theorem small_test (a : F32 P) : Lane.ilt (Lane.band a (Lane.ofBits 0x7FFFFFFF#32)) (Lane.ofBits 0x4B000000#32) = decide (IEEE.am a.bits < 0x4B000000) :=
  IEEE.slt_abs a.bits

/-- A lane kept as it is because it is large: integral, infinite or NaN. -/
theorem keep {S : ℝ → ℤ → Prop} (hS : ∀ n : ℤ, S n n) {a : BitVec 32} (h : ¬ IEEE.am a < 0x4B000000) : RoundsToInt S a a := by
  refine ⟨fun hf => ⟨hf, ?_⟩, fun _ => rfl, id⟩
  obtain ⟨n, hn⟩ := IEEE.big_int (not_lt.1 h) hf
  exact ⟨n, by rw [hn]; exact hS n, hn⟩
theorem small_case {S : ℝ → ℤ → Prop} {a r : BitVec 32} (h : IEEE.am a < 0x4B000000) (hr : IsFinite r ∧ ∃ n : ℤ, S (value a) n ∧ value r = n) :
    RoundsToInt S a r := by
  have hf := IEEE.finite_of_small h
  exact ⟨fun _ => hr, fun hi => absurd hi (IEEE.not_inf_of_finite hf), fun hn => absurd hn (IEEE.not_nan_of_finite hf)⟩

/-- C14: XMVectorFloor returns the greatest integer not above the lane, in every build, for every lane pattern. -/
theorem C14_floor (c : Cfg) (V : V4 (F32 P)) (i : Fin 4) :
    RoundsToInt (fun x n => n = ⌊x⌋) (V.lane i).bits ((XMVectorFloor c V).lane i).bits := by
  have exact' : ∀ a : BitVec 32, RoundsToInt (fun x n => n = ⌊x⌋) a (IEEE.floor P a) := fun a =>
    ⟨fun h => ⟨(IEEE.floor_value P h).1, _, rfl, (IEEE.floor_value P h).2⟩, fun h => IEEE.toIntegral_inf P 9 _ h, fun h => IEEE.toIntegral_nan P 9 _ h⟩
  unfold XMVectorFloor
  by_cases hs : c.sse = true <;> [rw [if_pos hs]; rw [if_neg hs]]
  · by_cases h4 : c.sse4 = true <;> [rw [if_pos h4]; rw [if_neg h4]]
    · rw [V4.lane_map]; exact exact' _
    · dsimp only [SSE.or, SSE.and, SSE.andnot, SSE.add, SSE.cmpgt, SSE.cmplt_epi32, g_XMAbsMask, g_XMNoFraction, V4.map, V4.map2, V4.splat]
      have key : ∀ a : F32 P, RoundsToInt (fun x n => n = ⌊x⌋) a.bits (Lane.bor (Lane.band (Lane.add (Lane.cvttI a) (Lane.i2f (Lane.mask (Lane.gt (Lane.cvttI a) a))))
          (Lane.mask (Lane.ilt (Lane.band a (Lane.ofBits 0x7FFFFFFF#32)) (Lane.ofBits 0x4B000000#32))))
          (Lane.bandn (Lane.mask (Lane.ilt (Lane.band a (Lane.ofBits 0x7FFFFFFF#32)) (Lane.ofBits 0x4B000000#32))) a)).bits := by
        intro a
        rw [pick, small_test]
        by_cases h : IEEE.am a.bits < 0x4B000000
        · rw [if_pos (by simpa using h)]
          have := IEEE.floor_sse2 P h
          refine small_case h ⟨?_, ⌊value a.bits⌋, rfl, ?_⟩
          · rw [F32.add_eq, F32.bits_ofBV, F32.i2f_eq, F32.bits_ofBV, F32.bits_mask]; exact this.1
          · rw [F32.add_eq, F32.bits_ofBV, F32.i2f_eq, F32.bits_ofBV, F32.bits_mask]; exact this.2
        · rw [if_neg (by simpa using h)]; exact keep (fun n => by simp) h
      fin_cases i
      · exact key V.x
      · exact key V.y
      · exact key V.z
      · exact key V.w
  · rw [V4.lane_map]; exact exact' _

/-- C14: XMVectorCeiling returns the least integer not below the lane. -/
theorem C14_ceiling (c : Cfg) (V : V4 (F32 P)) (i : Fin 4) :
    RoundsToInt (fun x n => n = ⌈x⌉) (V.lane i).bits ((XMVectorCeiling c V).lane i).bits := by
  have exact' : ∀ a : BitVec 32, RoundsToInt (fun x n => n = ⌈x⌉) a (IEEE.ceil P a) := fun a =>
    ⟨fun h => ⟨(IEEE.ceil_value P h).1, _, rfl, (IEEE.ceil_value P h).2⟩, fun h => IEEE.toIntegral_inf P 10 _ h, fun h => IEEE.toIntegral_nan P 10 _ h⟩
  unfold XMVectorCeiling
  by_cases hs : c.sse = true <;> [rw [if_pos hs]; rw [if_neg hs]]
  · by_cases h4 : c.sse4 = true <;> [rw [if_pos h4]; rw [if_neg h4]]
    · rw [V4.lane_map]; exact exact' _
    · dsimp only [SSE.or, SSE.and, SSE.andnot, SSE.sub, SSE.cmplt, SSE.cmplt_epi32, g_XMAbsMask, g_XMNoFraction, V4.map, V4.map2, V4.splat]
      have key : ∀ a : F32 P, RoundsToInt (fun x n => n = ⌈x⌉) a.bits (Lane.bor (Lane.band (Lane.sub (Lane.cvttI a) (Lane.i2f (Lane.mask (Lane.lt (Lane.cvttI a) a))))
          (Lane.mask (Lane.ilt (Lane.band a (Lane.ofBits 0x7FFFFFFF#32)) (Lane.ofBits 0x4B000000#32))))
          (Lane.bandn (Lane.mask (Lane.ilt (Lane.band a (Lane.ofBits 0x7FFFFFFF#32)) (Lane.ofBits 0x4B000000#32))) a)).bits := by
        intro a
        rw [pick, small_test]
        by_cases h : IEEE.am a.bits < 0x4B000000
        · rw [if_pos (by simpa using h)]
          have := IEEE.ceil_sse2 P h
          refine small_case h ⟨?_, ⌈value a.bits⌉, rfl, ?_⟩
          · rw [F32.sub_eq, F32.bits_ofBV, F32.i2f_eq, F32.bits_ofBV, F32.bits_mask]; exact this.1
          · rw [F32.sub_eq, F32.bits_ofBV, F32.i2f_eq, F32.bits_ofBV, F32.bits_mask]; exact this.2
        · rw [if_neg (by simpa using h)]; exact keep (fun n => by simp) h
      fin_cases i
      · exact key V.x
      · exact key V.y
      · exact key V.z
      · exact key V.w
  · rw [V4.lane_map]; exact exact' _

/-- C14: XMVectorTruncate returns the integer part toward zero. -/
theorem C14_truncate (c : Cfg) (V : V4 (F32 P)) (i : Fin 4) :
    RoundsToInt (fun x n => n = truncZ x) (V.lane i).bits ((XMVectorTruncate c V).lane i).bits := by
  have exact' : ∀ a : BitVec 32, RoundsToInt (fun x n => n = truncZ x) a (IEEE.trunc P a) := fun a =>
    ⟨fun h => ⟨(IEEE.trunc_value P h).1, _, rfl, (IEEE.trunc_value P h).2⟩, fun h => IEEE.toIntegral_inf P 8 _ h, fun h => IEEE.toIntegral_nan P 8 _ h⟩
  unfold XMVectorTruncate
  by_cases hs : c.sse = true <;> [rw [if_pos hs]; rw [if_neg hs]]
  · by_cases h4 : c.sse4 = true <;> [rw [if_pos h4]; rw [if_neg h4]]
    · rw [V4.lane_map]; exact exact' _
    · dsimp only [SSE.or, SSE.and, SSE.andnot, SSE.cmplt_epi32, g_XMAbsMask, g_XMNoFraction, V4.map, V4.map2, V4.splat]
      have key : ∀ a : F32 P, RoundsToInt (fun x n => n = truncZ x) a.bits (Lane.bor (Lane.band (Lane.cvttI a)
          (Lane.mask (Lane.ilt (Lane.band a (Lane.ofBits 0x7FFFFFFF#32)) (Lane.ofBits 0x4B000000#32))))
          (Lane.bandn (Lane.mask (Lane.ilt (Lane.band a (Lane.ofBits 0x7FFFFFFF#32)) (Lane.ofBits 0x4B000000#32))) a)).bits := by
        intro a
        rw [pick, small_test]
        by_cases h : IEEE.am a.bits < 0x4B000000
        · rw [if_pos (by simpa using h)]
          exact small_case h ⟨(IEEE.cvttI_value h).1, _, rfl, (IEEE.cvttI_value h).2⟩
        · rw [if_neg (by simpa using h)]; exact keep (fun n => (IEEE.truncZ_int n).symm) h
      fin_cases i
      · exact key V.x
      · exact key V.y
      · exact key V.z
      · exact key V.w
  · rw [V4.lane_map]
    generalize V.lane i = a
    have hlt : Lane.lt (Lane.abs a) (Lane.ofBits 0x4B000000#32) = true ↔ IEEE.am a.bits < 0x4B000000 := by
      show IEEE.lt (IEEE.abs a.bits) 0x4B000000#32 = true ↔ _
      unfold IEEE.lt IEEE.key IEEE.isNaN
      rw [IEEE.am_abs, IEEE.sg_abs, show IEEE.sg 0x4B000000#32 = false by decide, show IEEE.am 0x4B000000#32 = 0x4B000000 by decide +kernel]
      simp; omega
    by_cases hn : Lane.isNaN a = true
    · rw [if_pos hn]
      have hn' : IsNaN a.bits := (IEEE.isNaN_iff _).1 hn
      exact ⟨fun h => absurd hn' (IEEE.not_nan_of_finite h), fun h => absurd hn' (IEEE.not_nan_of_inf h), fun _ => (by decide : IsNaN 0x7FC00000#32)⟩
    · rw [if_neg hn]
      by_cases h : IEEE.am a.bits < 0x4B000000
      · rw [if_pos (hlt.2 h)]
        exact small_case h ⟨(IEEE.castI_value h).1, _, rfl, (IEEE.castI_value h).2⟩
      · rw [if_neg (fun k => h (hlt.1 k))]; exact keep (fun n => (IEEE.truncZ_int n).symm) h

theorem ne_int (n : ℤ) : NearestEven n n := ⟨by norm_num, by norm_num⟩

/-- C14 (`_partial`, see `C14_round_fails`): XMVectorRound returns the nearest integer, ties to even, in every SSE build; without
intrinsics it does so for lane 0. -/
theorem C14_round_partial (c : Cfg) (V : V4 (F32 P)) (i : Fin 4) (h : c.sse = true ∨ i = 0) :
    RoundsToInt NearestEven (V.lane i).bits ((XMVectorRound c V).lane i).bits := by
  have exact' : ∀ a : BitVec 32, RoundsToInt NearestEven a (IEEE.rint P a) := fun a =>
    ⟨fun h => IEEE.rint_value P h, fun h => IEEE.toIntegral_inf P 7 _ h, fun h => IEEE.toIntegral_nan P 7 _ h⟩
  unfold XMVectorRound
  by_cases hs : c.sse = true <;> [rw [if_pos hs]; rw [if_neg hs]]
  · by_cases h4 : c.sse4 = true <;> [rw [if_pos h4]; rw [if_neg h4]]
    · rw [V4.lane_map]; exact exact' _
    · dsimp only [SSE.or, SSE.and, SSE.andnot, SSE.xor, SSE.cmple, g_XMAbsMask, g_XMNoFraction, g_XMNegativeZero, V4.map, V4.map2, V4.splat]
      have key : ∀ a : F32 P, RoundsToInt NearestEven a.bits (Lane.bxor (Lane.band (Lane.addSubMagic a (Lane.bor (Lane.ofBits 0x4B000000#32) (Lane.band a (Lane.ofBits 0x80000000#32))))
          (Lane.mask (Lane.le (Lane.band a (Lane.ofBits 0x7FFFFFFF#32)) (Lane.ofBits 0x4B000000#32))))
          (Lane.bandn (Lane.mask (Lane.le (Lane.band a (Lane.ofBits 0x7FFFFFFF#32)) (Lane.ofBits 0x4B000000#32))) a)).bits := by
        intro a
        rw [pickx]
        have hle : Lane.le (Lane.band a (Lane.ofBits 0x7FFFFFFF#32)) (Lane.ofBits 0x4B000000#32) = true ↔ IEEE.am a.bits ≤ 0x4B000000 := by
          show IEEE.le (IEEE.abs a.bits) 0x4B000000#32 = true ↔ _
          unfold IEEE.le IEEE.key IEEE.isNaN
          rw [IEEE.am_abs, IEEE.sg_abs, show IEEE.sg 0x4B000000#32 = false by decide, show IEEE.am 0x4B000000#32 = 0x4B000000 by decide +kernel]
          simp; omega
        by_cases h : IEEE.am a.bits ≤ 0x4B000000
        · rw [if_pos (hle.2 h)]
          have hmag := IEEE.magic_round P h
          have e : (0x4B000000#32 ||| (a.bits &&& 0x80000000#32)) = IEEE.mk (IEEE.sg a.bits) 0x4B000000 := by
            have h1 : (a.bits &&& 0x80000000#32) = if IEEE.sg a.bits then 0x80000000#32 else 0#32 := IEEE.and_sign a.bits
            rw [h1]; cases IEEE.sg a.bits <;> decide
          have hf : IsFinite a.bits := by rw [IEEE.finite_iff]; omega
          rw [← e] at hmag
          exact ⟨fun _ => hmag, fun hi => absurd hi (IEEE.not_inf_of_finite hf), fun hn => absurd hn (IEEE.not_nan_of_finite hf)⟩
        · rw [if_neg (fun k => h (hle.1 k))]; exact keep ne_int (by omega)
      fin_cases i
      · exact key V.x
      · exact key V.y
      · exact key V.z
      · exact key V.w
  · have h0 : i = 0 := h.resolve_left hs
    subst h0
    have e : ((⟨round_to_nearest V.x, round_to_nearest V.x, round_to_nearest V.x, round_to_nearest V.x⟩ : V4 (F32 P)).lane 0).bits = IEEE.rtn P (V.lane 0).bits := by
      show (round_to_nearest V.x).bits = _
      unfold round_to_nearest IEEE.rtn
      simp only [F32.bits_ite]; rfl
    rw [e]
    exact ⟨fun h => IEEE.rtn_finite P h, fun h => IEEE.rtn_inf P h, fun h => IEEE.rtn_nan P h⟩

/-- C14: without intrinsics every lane of XMVectorRound is the rounded lane 0: round(0, 2, 0, 0) is (0, 0, 0, 0). -/
theorem C14_round_fails : ∃ V : V4 (F32 P), ¬ RoundsToInt NearestEven (V.lane 1).bits ((XMVectorRound Cfg.noIntrinsics V).lane 1).bits := by
  refine ⟨⟨F32.ofBV 0#32, F32.ofBV 0x40000000#32, F32.ofBV 0#32, F32.ofBV 0#32⟩, fun h => ?_⟩
  have e' : ∀ a b : F32 P, ((XMVectorRound Cfg.noIntrinsics ⟨a, b, a, a⟩).lane 1).bits = IEEE.rtn P a.bits := by
    intro a b
    show (round_to_nearest a).bits = _
    unfold round_to_nearest IEEE.rtn
    simp only [F32.bits_ite]; rfl
  have e := e' (F32.ofBV 0#32) (F32.ofBV 0x40000000#32)
  rw [F32.bits_ofBV] at e
  rw [e] at h
  obtain ⟨_, n, hn, hv⟩ := h.finite (by decide : IsFinite 0x40000000#32)
  obtain ⟨_, m, hm, hv'⟩ := IEEE.rtn_finite P (a := 0#32) (by decide)
  have z : value 0#32 = 0 := by rw [IEEE.value_eq]; simp [IEEE.ival, IEEE.mag, IEEE.magN, IEEE.am, IEEE.sg]
  have hn1 := hn.near
  have hm1 := hm.near
  rw [show value ((⟨F32.ofBV 0#32, F32.ofBV 0x40000000#32, F32.ofBV 0#32, F32.ofBV 0#32⟩ : V4 (F32 P)).lane 1).bits = 2 from IEEE.two_value] at hn1
  rw [z] at hm1
  have : (n:ℝ) = m := by rw [← hv, ← hv']
  have : n = m := by exact_mod_cast this
  subst this
  rw [abs_le] at hn1 hm1
  linarith [hn1.1, hn1.2, hm1.1, hm1.2]

example : IsFinite 0xC0200000#32 ∧ NearestEven (-5/2) (-2) := by
  refine ⟨by decide, ⟨by norm_num [abs_of_neg, abs_le], fun _ => by decide⟩⟩

end DXM.Props
