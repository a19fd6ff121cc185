import Verif.Lemmas.Arc
import Verif.Lemmas.SpecSimp

/-
C21 (angle wrapping), C66 (scalar trigonometry), C67 (vector trigonometry).
Exact-real lanes: the polynomials and range reductions are evaluated with the code's literal binary32
coefficients, without intermediate rounding; the bounds below are the error of the method.
In the no-intrinsics build the vector functions call the Rust standard library, read as the true functions.
-/

namespace DXM.Props
open DXM.E DXM.Spec DXM.Trig Real

/-! ### C66 -/

/-- C66: sine and cosine of every |x| ≤ 10^8; SinCos returns exactly what Sin and Cos return. -/
theorem C66_sincos (x : ℝ) (hx : |x| ≤ 10^8) : ∃ s k : ℝ,
    XMScalarSin (num x) = num s ∧ XMScalarCos (num x) = num k ∧ XMScalarSinCos (num x) = (num s, num k) ∧
    |s - sin x| ≤ 3/10^7 + 29/10^9 * |x| ∧ |k - cos x| ≤ 3/10^7 + 29/10^9 * |x| := by
  obtain ⟨s, k, h1, h2, h3, h4, h5⟩ := XMScalarSinCos_num x hx
  exact ⟨s, k, h2, h3, h1, h4, h5⟩
example : |(1000 : ℝ)| ≤ 10^8 := by norm_num

/-- C66: the estimates. -/
theorem C66_sincosEst (x : ℝ) (hx : |x| ≤ 10^8) : ∃ s k : ℝ,
    XMScalarSinEst (num x) = num s ∧ XMScalarCosEst (num x) = num k ∧ XMScalarSinCosEst (num x) = (num s, num k) ∧
    |s - sin x| ≤ 4/10^6 + 29/10^9 * |x| ∧ |k - cos x| ≤ 21/10^6 + 29/10^9 * |x| := by
  obtain ⟨s, k, h1, h2, h3, h4, h5⟩ := XMScalarSinCosEst_num x hx
  exact ⟨s, k, h2, h3, h1, h4, h5⟩

/-- C66, for any lane type (every bit pattern): SinCos is exactly (Sin, Cos), and likewise for the estimates. -/
theorem C66_sincos_agree {α : Type} [Lane α] (x : α) :
    XMScalarSinCos x = (XMScalarSin x, XMScalarCos x) ∧ XMScalarSinCosEst x = (XMScalarSinEst x, XMScalarCosEst x) :=
  ⟨rfl, rfl⟩

/-- C66: arcsine and arccosine on all of [-1, 1]. -/
theorem C66_arc (x : ℝ) (hx : |x| ≤ 1) :
    (∃ r, XMScalarACos (num x) = num r ∧ |r - arccos x| ≤ 3/10^7) ∧
    (∃ r, XMScalarASin (num x) = num r ∧ |r - arcsin x| ≤ 35/10^8) ∧
    (∃ r, XMScalarACosEst (num x) = num r ∧ |r - arccos x| ≤ 104/10^6) ∧
    (∃ r, XMScalarASinEst (num x) = num r ∧ |r - arcsin x| ≤ 104/10^6) := by
  have h1 := acosF_close arcP _ arcP_arccos x hx
  have h2 := acosF_close arcEP _ arcEP_arccos x hx
  refine ⟨⟨_, XMScalarACos_num x hx, h1.1.trans ?_⟩, ⟨_, XMScalarASin_num x hx, h1.2.trans ?_⟩,
    ⟨_, XMScalarACosEst_num x hx, h2.1.trans ?_⟩, ⟨_, XMScalarASinEst_num x hx, h2.2.trans ?_⟩⟩ <;> norm_num
example : |(-1 : ℝ)| ≤ 1 := by norm_num

/-! ### C67 -/

/-- C67: lane-wise sine and cosine in every build, and SinCos agrees with Sin and Cos. -/
theorem C67_sincos (c : Cfg) (a : Fin 4 → ℝ) (ha : ∀ i, |a i| ≤ 10^7) : ∃ s k : Fin 4 → ℝ,
    XMVectorSin c (vec4 a) = vec4 s ∧ XMVectorCos c (vec4 a) = vec4 k ∧ XMVectorSinCos c (vec4 a) = (vec4 s, vec4 k) ∧
    ∀ i, |s i - sin (a i)| ≤ 3/10^7 + 29/10^9 * |a i| ∧ |k i - cos (a i)| ≤ 3/10^7 + 29/10^9 * |a i| := by
  by_cases hc : c.sse = true
  · refine ⟨fun i => vsin (a i), fun i => vcos (a i), ?_, ?_, ?_, fun i => ?_⟩
    · simp only [XMVectorSin, hc, if_true, vec4, trigReduce_num c hc _ _ _ _ (ha 0) (ha 1) (ha 2) (ha 3), sinPoly_num]; rfl
    · simp only [XMVectorCos, hc, if_true, vec4, trigReduce_num c hc _ _ _ _ (ha 0) (ha 1) (ha 2) (ha 3), cosPoly_num]; rfl
    · simp only [XMVectorSinCos, hc, if_true, vec4, trigReduce_num c hc _ _ _ _ (ha 0) (ha 1) (ha 2) (ha 3), sinPoly_num, cosPoly_num]; rfl
    · have := ha i
      exact ⟨vsin_close _ (by linarith), vcos_close _ (by linarith)⟩
  · refine ⟨fun i => sin (a i), fun i => cos (a i), ?_, ?_, ?_, fun i => ?_⟩
    · simp only [XMVectorSin, hc]; rfl
    · simp only [XMVectorCos, hc]; rfl
    · simp only [XMVectorSinCos, hc]; rfl
    · simp; positivity
example : ∀ i, |(![0, 1, -100, 9999999] : Fin 4 → ℝ) i| ≤ 10^7 := by
  intro i; fin_cases i <;> simp <;> norm_num

/-- C67: the estimates. -/
theorem C67_sincosEst (c : Cfg) (a : Fin 4 → ℝ) (ha : ∀ i, |a i| ≤ 10^7) : ∃ s k : Fin 4 → ℝ,
    XMVectorSinEst c (vec4 a) = vec4 s ∧ XMVectorCosEst c (vec4 a) = vec4 k ∧ XMVectorSinCosEst c (vec4 a) = (vec4 s, vec4 k) ∧
    ∀ i, |s i - sin (a i)| ≤ 4/10^6 + 29/10^9 * |a i| ∧ |k i - cos (a i)| ≤ 21/10^6 + 29/10^9 * |a i| := by
  by_cases hc : c.sse = true
  · refine ⟨fun i => vsinE (a i), fun i => vcosE (a i), ?_, ?_, ?_, fun i => ?_⟩
    · simp only [XMVectorSinEst, hc, if_true, vec4, trigReduce_num c hc _ _ _ _ (ha 0) (ha 1) (ha 2) (ha 3), sinEstPoly_num]; rfl
    · simp only [XMVectorCosEst, hc, if_true, vec4, trigReduce_num c hc _ _ _ _ (ha 0) (ha 1) (ha 2) (ha 3), cosEstPoly_num]; rfl
    · simp only [XMVectorSinCosEst, hc, if_true, vec4, trigReduce_num c hc _ _ _ _ (ha 0) (ha 1) (ha 2) (ha 3), sinEstPoly_num, cosEstPoly_num]; rfl
    · have := ha i
      exact ⟨vsinE_close _ (by linarith), vcosE_close _ (by linarith)⟩
  · refine ⟨fun i => sin (a i), fun i => cos (a i), ?_, ?_, ?_, fun i => ?_⟩
    · simp only [XMVectorSinEst, hc]; rfl
    · simp only [XMVectorCosEst, hc]; rfl
    · simp only [XMVectorSinCosEst, hc]; rfl
    · simp; constructor <;> positivity

/-- C67: lane-wise arcsine and arccosine. -/
theorem C67_arc (c : Cfg) (a : Fin 4 → ℝ) (ha : ∀ i, |a i| ≤ 1) :
    (∃ r, XMVectorACos c (vec4 a) = vec4 r ∧ ∀ i, |r i - arccos (a i)| ≤ 3/10^7) ∧
    (∃ r, XMVectorASin c (vec4 a) = vec4 r ∧ ∀ i, |r i - arcsin (a i)| ≤ 35/10^8) ∧
    (∃ r, XMVectorACosEst c (vec4 a) = vec4 r ∧ ∀ i, |r i - arccos (a i)| ≤ 104/10^6) ∧
    (∃ r, XMVectorASinEst c (vec4 a) = vec4 r ∧ ∀ i, |r i - arcsin (a i)| ≤ 104/10^6) := by
  have h1 := fun i => acosF_close arcP _ arcP_arccos (a i) (ha i)
  have h2 := fun i => acosF_close arcEP _ arcEP_arccos (a i) (ha i)
  by_cases hc : c.sse = true
  · refine ⟨⟨fun i => acosF arcP (a i), ?_, fun i => (h1 i).1.trans ?_⟩, ⟨fun i => piF/2 - acosF arcP (a i), ?_, fun i => (h1 i).2.trans ?_⟩,
      ⟨fun i => acosF arcEP (a i), ?_, fun i => (h2 i).1.trans ?_⟩, ⟨fun i => piF/2 - acosF arcEP (a i), ?_, fun i => (h2 i).2.trans ?_⟩⟩
    · simp only [XMVectorACos, hc, if_true, vec4, arcPoly_num c a ha]
    · norm_num
    · simp [XMVectorASin, hc, vec4, arcPoly_num c a ha]; norm_num
    · norm_num
    · simp only [XMVectorACosEst, hc, if_true, vec4, arcEstPoly_num c a ha]
    · norm_num
    · simp [XMVectorASinEst, hc, vec4, arcEstPoly_num c a ha]; norm_num
    · norm_num
  · have k1 : ∀ x : ℝ, |x| ≤ 1 → (Lane.acos (num x) : E) = num (arccos x) := fun x h => by simp [Lane.acos, lift1, h]
    have k2 : ∀ x : ℝ, |x| ≤ 1 → (Lane.asin (num x) : E) = num (arcsin x) := fun x h => by simp [Lane.asin, lift1, h]
    refine ⟨⟨fun i => arccos (a i), ?_, fun i => ?_⟩, ⟨fun i => arcsin (a i), ?_, fun i => ?_⟩,
      ⟨fun i => arccos (a i), ?_, fun i => ?_⟩, ⟨fun i => arcsin (a i), ?_, fun i => ?_⟩⟩
    · simp [XMVectorACos, hc, vec4, k1 _ (ha 0), k1 _ (ha 1), k1 _ (ha 2), k1 _ (ha 3)]
    · simp; norm_num
    · simp [XMVectorASin, hc, vec4, k2 _ (ha 0), k2 _ (ha 1), k2 _ (ha 2), k2 _ (ha 3)]
    · simp; norm_num
    · simp [XMVectorACosEst, hc, vec4, k1 _ (ha 0), k1 _ (ha 1), k1 _ (ha 2), k1 _ (ha 3)]
    · simp; norm_num
    · simp [XMVectorASinEst, hc, vec4, k2 _ (ha 0), k2 _ (ha 1), k2 _ (ha 2), k2 _ (ha 3)]
    · simp; norm_num

/-- C67: lane-wise arctangent of every real. -/
theorem C67_atan (c : Cfg) (a : Fin 4 → ℝ) :
    (∃ r, XMVectorATan c (vec4 a) = vec4 r ∧ ∀ i, |r i - arctan (a i)| ≤ 3/10^7) ∧
    (∃ r, XMVectorATanEst c (vec4 a) = vec4 r ∧ ∀ i, |r i - arctan (a i)| ≤ 135/10^6) := by
  by_cases hc : c.sse = true
  · refine ⟨⟨fun i => atanF atP (a i), XMVectorATan_num c hc a, fun i => (atanF_close atP _ atP_arctan (a i)).trans ?_⟩,
      ⟨fun i => atanF atEP (a i), XMVectorATanEst_num c hc a, fun i => (atanF_close atEP _ atEP_arctan (a i)).trans ?_⟩⟩ <;> norm_num
  · refine ⟨⟨fun i => arctan (a i), ?_, fun i => ?_⟩, ⟨fun i => arctan (a i), ?_, fun i => ?_⟩⟩
    · simp only [XMVectorATan, hc]; rfl
    · simp; norm_num
    · simp only [XMVectorATanEst, hc]; rfl
    · simp; norm_num

/-- C67: lane-wise two-argument arctangent of every pair of reals, against the argument of the complex number x + iy
(so all four quadrants, both half-axes of each axis and the origin). -/
theorem C67_atan2 (c : Cfg) (y x : Fin 4 → ℝ) :
    ∃ r, XMVectorATan2 c (vec4 y) (vec4 x) = vec4 r ∧ ∀ i, |r i - Complex.arg ⟨x i, y i⟩| ≤ 4/10^7 := by
  by_cases hc : c.sse = true
  · refine ⟨fun i => at2 atP (y i) (x i), XMVectorATan2_num c hc y x, fun i => ?_⟩
    refine (at2_close atP _ ?_ (atanF_close atP _ atP_arctan) (y i) (x i)).trans ?_ <;> norm_num
  · refine ⟨fun i => Complex.arg ⟨x i, y i⟩, ?_, fun i => ?_⟩
    · simp only [XMVectorATan2, hc]; rfl
    · simp; norm_num

/-! ### C21 -/

/-- C21, scalar: the result is congruent to the angle modulo the code's 2π and lies in [-π, π] (the code's π = 13176795/4194304),
as long as the number of turns fits an i32. -/
theorem C21_scalar (x : ℝ) (hx : |x| ≤ 10^10) : ∃ r, ∃ n : ℤ, XMScalarModAngle (num x) = num r ∧ r = x + n * (2 * piF) ∧ -piF ≤ r ∧ r ≤ piF := by
  have pp : (0:ℝ) < 2 * piF := by unfold piF; norm_num
  have hy0 : 0 ≤ |x + piF| / (2 * piF) := by positivity
  have hle : |x + piF| / (2*piF) < 2147483648 := by
    rw [div_lt_iff₀ pp]
    have := abs_add_le x piF
    have : |piF| = piF := abs_of_pos (by unfold piF; norm_num)
    unfold piF at *; norm_num at *; linarith
  set f : ℤ := ⌊|x + piF| / (2 * piF)⌋ with hf
  have f1 := Int.floor_le (|x + piF| / (2 * piF))
  have f2 := Int.lt_floor_add_one (|x + piF| / (2 * piF))
  rw [← hf] at f1 f2
  rw [le_div_iff₀ pp] at f1
  rw [div_lt_iff₀ pp] at f2
  have e2 : (XM_2PI : E) = num (2 * piF) := by simp [XM_2PI, piF]; norm_num
  have e1 : (XM_PI : E) = num piF := by simp [XM_PI, piF]
  have key : XMScalarModAngle (num x) = num (if x + piF < 0 then -(|x + piF| - 2 * piF * f - piF) else |x + piF| - 2 * piF * f - piF) := by
    unfold XMScalarModAngle
    simp only [e1, e2]
    have hd : (Lane.div (num |x + piF|) (num (2 * piF)) : E) = num (|x + piF| / (2 * piF)) := div_num _ _ pp.ne'
    simp [hd]
    rw [castI_num _ (by rw [abs_of_nonneg hy0]; exact hle)]
    rw [show truncR (|x + piF| / (2 * piF)) = (f : ℝ) by rw [truncR, if_pos hy0]]
    simp; split_ifs <;> rfl
  split_ifs at key with h
  · refine ⟨_, f + 1, key, ?_, ?_, ?_⟩
    · rw [abs_of_neg h]; push_cast; ring
    · linarith
    · linarith
  · refine ⟨_, -f, key, ?_, ?_, ?_⟩
    · rw [abs_of_nonneg (not_lt.1 h)]; push_cast; ring
    · linarith
    · linarith
example : ∃ r, XMScalarModAngle (num 7) = num r ∧ r = 7 - 2 * piF := by
  obtain ⟨r, n, h1, h2, h3, h4⟩ := C21_scalar 7 (by norm_num)
  refine ⟨r, h1, ?_⟩
  have : n = -1 := by
    have a : (-2 : ℝ) < n := by unfold piF at *; linarith
    have b : (n : ℝ) < 0 := by unfold piF at *; linarith
    have a' : -2 < n := by exact_mod_cast a
    have b' : n < 0 := by exact_mod_cast b
    omega
  rw [h2, this]; push_cast; ring

/-- C21: AddAngles and SubtractAngles of angles in [-π, π) are congruent to the sum / difference modulo 2π and lie in [-π, π) again; every build. -/
theorem C21_add_sub (c : Cfg) (a b : Fin 4 → ℝ) (ha : ∀ i, -piF ≤ a i ∧ a i < piF) (hb : ∀ i, -piF ≤ b i ∧ b i < piF) :
    (∃ (r : Fin 4 → ℝ) (n : Fin 4 → ℤ), XMVectorAddAngles c (vec4 a) (vec4 b) = vec4 r ∧
      ∀ i, r i = a i + b i + n i * (2 * piF) ∧ -piF ≤ r i ∧ r i < piF) ∧
    (∃ (r : Fin 4 → ℝ) (n : Fin 4 → ℤ), XMVectorSubtractAngles c (vec4 a) (vec4 b) = vec4 r ∧
      ∀ i, r i = a i - b i + n i * (2 * piF) ∧ -piF ≤ r i ∧ r i < piF) := by
  let w : ℝ → ℝ := fun x => if x < -piF then x + 2 * piF else if piF ≤ x then x - 2 * piF else x
  have pp : (0:ℝ) < piF := by unfold piF; norm_num
  have hw : ∀ x, -2 * piF ≤ x → x ≤ 2 * piF → ∃ n : ℤ, w x = x + n * (2 * piF) ∧ -piF ≤ w x ∧ w x < piF := by
    intro x h1 h2
    simp only [w]
    split_ifs
    · exact ⟨1, by push_cast; ring, by linarith, by linarith⟩
    · exact ⟨-1, by push_cast; ring, by linarith, by linarith⟩
    · exact ⟨0, by push_cast; ring, by linarith, by linarith⟩
  have k1 : ∀ x : ℝ, Lane.sub (Lane.add (num x) (if x < -13176795 / 4194304 then num (13176795 / 2097152) else num 0))
        (if Lane.ge (Lane.add (num x) (if x < -13176795 / 4194304 then num (13176795 / 2097152) else num 0))
                (num (13176795 / 4194304)) = true then num (13176795 / 2097152) else num 0) = num (w x) := by
    intro x
    by_cases h1 : x < -13176795/4194304
    · have h2 : ¬ (13176795/4194304 : ℝ) ≤ x + 13176795/2097152 := by linarith
      simp [h1, h2, w, piF, neg_div']; norm_num
    · by_cases h2 : (13176795/4194304 : ℝ) ≤ x <;> simp [h1, h2, w, piF, neg_div']; norm_num
  have k2 : ∀ x : ℝ, Lane.add (num x) (Lane.bor
          (if 13176795 / 4194304 ≤ x then num 0
          else if x < -13176795 / 4194304 then num (13176795 / 2097152) else num 0)
          (if 13176795 / 4194304 ≤ x then num (-13176795 / 2097152) else num 0)) = num (w x) := by
    intro x
    by_cases h1 : x < -13176795/4194304
    · have h2 : ¬ (13176795/4194304 : ℝ) ≤ x := by linarith
      simp [h1, h2, w, piF, neg_div']; norm_num
    · by_cases h2 : (13176795/4194304 : ℝ) ≤ x <;> simp [h1, h2, w, piF, neg_div']; norm_num; ring
  have hwrap : ∀ x : Fin 4 → ℝ, wrapAngles c (vec4 x) = vec4 (fun i => w (x i)) := by
    intro x
    unfold wrapAngles
    split_ifs
    · simp [vec4, k1]
    · simp [vec4, k2]
  have e1 : XMVectorAddAngles c (vec4 a) (vec4 b) = vec4 (fun i => w (a i + b i)) := by
    rw [← hwrap]; simp [XMVectorAddAngles, vec4]
  have e2 : XMVectorSubtractAngles c (vec4 a) (vec4 b) = vec4 (fun i => w (a i - b i)) := by
    rw [← hwrap]; simp [XMVectorSubtractAngles, vec4]
  have h1 : ∀ i, ∃ n : ℤ, w (a i + b i) = a i + b i + n * (2 * piF) ∧ -piF ≤ w (a i + b i) ∧ w (a i + b i) < piF := fun i => by
    have := ha i; have := hb i; exact hw _ (by linarith) (by linarith)
  have h2 : ∀ i, ∃ n : ℤ, w (a i - b i) = a i - b i + n * (2 * piF) ∧ -piF ≤ w (a i - b i) ∧ w (a i - b i) < piF := fun i => by
    have := ha i; have := hb i; exact hw _ (by linarith) (by linarith)
  choose n1 h1 using h1
  choose n2 h2 using h2
  exact ⟨⟨_, n1, e1, h1⟩, ⟨_, n2, e2, h2⟩⟩
example : ∀ i, -piF ≤ (![3, -3, 0, 1] : Fin 4 → ℝ) i ∧ (![3, -3, 0, 1] : Fin 4 → ℝ) i < piF := by
  intro i; fin_cases i <;> simp [piF] <;> norm_num

/-- C21 as stated: lane-wise, ModAngles is congruent to the angle modulo 2π and lies in [-π, π] up to a drift of 1.3e-8 per radian
(the f32 reciprocal of 2π). -/
def C21_mod_claim (c : Cfg) : Prop := ∀ a : Fin 4 → ℝ, (∀ i, |a i| ≤ 10^7) →
  ∃ (r : Fin 4 → ℝ) (n : Fin 4 → ℤ), XMVectorModAngles c (vec4 a) = vec4 r ∧
    ∀ i, r i = a i + n i * (2 * piF) ∧ |r i| ≤ piF + 13/10^9 * |a i|

/-- C21: the SSE builds satisfy the claim. -/
theorem C21_mod_partial (c : Cfg) (hc : c.sse = true) : C21_mod_claim c := by
  intro a ha
  have hq := fun i => rint_near (kF * a i)
  choose q hq1 hq2 using hq
  refine ⟨fun i => modR (a i), fun i => - q i, ?_, fun i => ⟨?_, ?_⟩⟩
  · exact XMVectorModAngles_num c hc _ _ _ _ (ha 0) (ha 1) (ha 2) (ha 3)
  · simp only [modR, hq1]; push_cast; ring
  · have := reflect_bound (a i) (q i) ((ha i).trans (by norm_num)) (hq2 i) (modR (a i)) (by rw [modR, hq1])
    exact this.1.trans (by norm_num)
/-- C21: the no-intrinsics build violates it (XMVectorRound rounds lane x into every lane): lane y of ModAngles(0, 7, 0, 0) stays 7. -/
theorem C21_mod_fails (c : Cfg) (hc : c.sse = false) : ¬ C21_mod_claim c := by
  intro h
  obtain ⟨r, n, h1, h2⟩ := h ![0, 7, 0, 0] (by intro i; fin_cases i <;> simp; norm_num)
  have e : rintR 0 = 0 := by simp [rintR]
  have : r 1 = 7 := by
    rw [vec4, ModAngles_noi c hc] at h1
    simp [vec4, e] at h1
    exact h1.2.1.symm
  have k := (h2 1).2
  rw [this] at k
  simp [piF] at k
  norm_num at k
/-- C21: in the no-intrinsics build it holds for vectors whose lanes are all equal. -/
theorem C21_mod_noi_partial (c : Cfg) (hc : c.sse = false) (x : ℝ) (hx : |x| ≤ 10^7) :
    ∃ (r : ℝ) (n : ℤ), XMVectorModAngles c (all x) = all r ∧ r = x + n * (2 * piF) ∧ |r| ≤ piF + 13/10^9 * |x| := by
  obtain ⟨q, hq1, hq2⟩ := rint_near (kF * x)
  refine ⟨modR x, - q, ?_, ?_, ?_⟩
  · rw [all, ModAngles_noi c hc]; rfl
  · simp only [modR, hq1]; push_cast; ring
  · have := reflect_bound x q (hx.trans (by norm_num)) hq2 (modR x) (by rw [modR, hq1])
    exact this.1.trans (by norm_num)

end DXM.Props
