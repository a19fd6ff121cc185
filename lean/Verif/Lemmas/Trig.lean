import Verif.Lemmas.TrigPoly
import Verif.Lemmas.Vec2
import Verif.Model.Misc

/-
Scalar and vector trigonometry on exact-real lanes: what the range reductions and polynomials compute.
-/

set_option linter.all false

namespace DXM.Trig
open DXM.E Real

/-- The f32 constants. -/
noncomputable abbrev piF : ℝ := 13176795/4194304
noncomputable abbrev kF : ℝ := 10680707/67108864

theorem piF_pi : |piF - π| ≤ 88/10^9 := by
  have := pi_gt_d20; have := pi_lt_d20
  rw [abs_le]; constructor <;> norm_num at * <;> linarith

theorem sin_lip (a b : ℝ) : |sin a - sin b| ≤ |a - b| := by
  rw [sin_sub_sin, abs_mul, abs_mul]
  have h1 : |sin ((a - b) / 2)| ≤ |(a - b)/2| := abs_sin_le_abs
  have h2 := abs_cos_le_one ((a + b) / 2)
  rw [abs_div] at h1
  norm_num at h1 ⊢
  nlinarith [abs_nonneg (sin ((a-b)/2)), abs_nonneg (cos ((a+b)/2)), abs_nonneg (a-b)]
theorem cos_lip (a b : ℝ) : |cos a - cos b| ≤ |a - b| := by
  have := sin_lip (π/2 - a) (π/2 - b)
  rw [sin_pi_div_two_sub, sin_pi_div_two_sub] at this
  calc _ ≤ _ := this
    _ = |a - b| := by rw [← abs_neg]; congr 1; ring

/-- One turn of `y` away is within the accumulated error of the f32 value of 2π. -/
theorem turn (v y : ℝ) (q : ℤ) (h : y = v - 2 * piF * q) : |sin y - sin v| ≤ |(q:ℝ)| * (176/10^9) ∧ |cos y - cos v| ≤ |(q:ℝ)| * (176/10^9) := by
  have e1 : sin v = sin (v - q * (2 * π)) := (sin_sub_int_mul_two_pi v q).symm
  have e2 : cos v = cos (v - q * (2 * π)) := (cos_sub_int_mul_two_pi v q).symm
  have hd : |y - (v - q * (2 * π))| ≤ |(q:ℝ)| * (176/10^9) := by
    have : y - (v - q * (2 * π)) = (q:ℝ) * (2 * (π - piF)) := by rw [h]; ring
    rw [this, abs_mul]
    apply mul_le_mul_of_nonneg_left _ (abs_nonneg _)
    have := piF_pi
    rw [abs_mul, abs_sub_comm]; norm_num at *; linarith
  exact ⟨by rw [e1]; exact (sin_lip _ _).trans hd, by rw [e2]; exact (cos_lip _ _).trans hd⟩

theorem trunc_near (v x : ℝ) (h : 0 ≤ v → 0 ≤ x) (h' : v < 0 → x < 0) :
    ∃ q : ℤ, (if 0 ≤ v then truncR (x + 1/2) else truncR (x - 1/2)) = q ∧ |(q:ℝ) - x| ≤ 1/2 := by
  split_ifs with hv
  · have hx := h hv
    refine ⟨⌊x + 1/2⌋, ?_, ?_⟩
    · rw [truncR, if_pos (by linarith)]
    · have := Int.floor_le (x + 1/2); have := Int.lt_floor_add_one (x + 1/2)
      rw [abs_le]; constructor <;> linarith
  · have hx := h' (not_le.1 hv)
    refine ⟨⌈x - 1/2⌉, ?_, ?_⟩
    · rw [truncR, if_neg (by linarith)]
    · have := Int.le_ceil (x - 1/2); have := Int.ceil_lt_add_one (x - 1/2)
      rw [abs_le]; constructor <;> linarith

/-- Reduced angle, before and after reflection into the half turn around zero. -/
theorem reflect_bound (v : ℝ) (q : ℤ) (hv : |v| ≤ 10^8) (hq : |(q:ℝ) - kF * v| ≤ 1/2) (y : ℝ) (hy : y = v - 2 * piF * q) :
    |y| ≤ piF + 13/1000000000 * |v| ∧ |(q:ℝ)| ≤ 1/2 + 15916/100000 * |v| := by
  constructor
  · have e : y = v * (1 - 2 * piF * kF) + 2 * piF * (kF * v - q) := by rw [hy]; ring
    rw [e]
    refine (abs_add_le _ _).trans ?_
    rw [abs_mul, abs_mul, abs_sub_comm (kF * v)]
    have h1 : |1 - 2 * piF * kF| ≤ 13/1000000000 := by rw [abs_le]; constructor <;> norm_num
    have h2 : |2 * piF| = 2 * piF := abs_of_pos (by norm_num)
    rw [h2]
    have := mul_le_mul_of_nonneg_left h1 (abs_nonneg v)
    have := mul_le_mul_of_nonneg_left hq (show (0:ℝ) ≤ 2 * piF by norm_num)
    linarith
  · have : (q:ℝ) = (q - kF * v) + kF * v := by ring
    rw [this]
    refine (abs_add_le _ _).trans ?_
    have h3 : |kF * v| = kF * |v| := by rw [abs_mul, abs_of_pos]; norm_num
    rw [h3]
    have := abs_nonneg v
    have : kF * |v| ≤ 15916/100000 * |v| := mul_le_mul_of_nonneg_right (by norm_num) this
    linarith

/-- `s` is +1 or -1, `y` is in the half turn around zero, and (sin y, s cos y) is close to (sin v, cos v). -/
structure Reduced (v y s : ℝ) : Prop where
  small : |y| ≤ 15708/10000
  sign : |s| = 1
  sin : |Real.sin y - Real.sin v| ≤ 18/10^8 + 29/10^9 * |v|
  cos : |s * Real.cos y - Real.cos v| ≤ 18/10^8 + 29/10^9 * |v|

theorem reduced_of (v : ℝ) (q : ℤ) (hv : |v| ≤ 10^8) (hq : |(q:ℝ) - kF * v| ≤ 1/2) (y : ℝ) (hy : y = v - 2 * piF * q) :
    (y ≤ piF / 2 → -(piF / 2) ≤ y → Reduced v y 1) ∧ (piF / 2 < y → Reduced v (piF - y) (-1)) ∧
    (y < -(piF / 2) → Reduced v (-piF - y) (-1)) := by
  obtain ⟨hb, hq'⟩ := reflect_bound v q hv hq y hy
  obtain ⟨t1, t2⟩ := turn v y q hy
  have hs : |(q:ℝ)| * (176/10^9) ≤ 9/10^8 + 29/10^9 * |v| := by
    have := mul_le_mul_of_nonneg_right hq' (show (0:ℝ) ≤ 176/10^9 by norm_num)
    have := abs_nonneg v
    linarith
  have hpp := piF_pi
  have hb' := abs_le.1 hb
  have hv0 := abs_nonneg v
  refine ⟨fun h1 h2 => ⟨?_, by simp, ?_, ?_⟩, fun h1 => ⟨?_, by simp, ?_, ?_⟩, fun h1 => ⟨?_, by simp, ?_, ?_⟩⟩
  · rw [abs_le]; constructor <;> norm_num [piF] at * <;> linarith
  · linarith
  · rw [one_mul]; linarith
  · rw [abs_le]; constructor <;> norm_num [piF] at * <;> linarith
  · have : Real.sin (piF - y) - Real.sin v = (Real.sin (piF - y) - Real.sin (π - y)) + (Real.sin y - Real.sin v) := by
      rw [Real.sin_pi_sub]; ring
    rw [this]
    have a := sin_lip (piF - y) (π - y)
    rw [show piF - y - (π - y) = piF - π by ring] at a
    have := abs_add_le (Real.sin (piF - y) - Real.sin (π - y)) (Real.sin y - Real.sin v)
    norm_num at *; linarith
  · have : -1 * Real.cos (piF - y) - Real.cos v = -(Real.cos (piF - y) - Real.cos (π - y)) + (Real.cos y - Real.cos v) := by
      rw [Real.cos_pi_sub]; ring
    rw [this]
    have a := cos_lip (piF - y) (π - y)
    rw [show piF - y - (π - y) = piF - π by ring] at a
    have := abs_add_le (-(Real.cos (piF - y) - Real.cos (π - y))) (Real.cos y - Real.cos v)
    rw [abs_neg] at this
    norm_num at *; linarith
  · rw [abs_le]; constructor <;> norm_num [piF] at * <;> linarith
  · have : Real.sin (-piF - y) - Real.sin v = (Real.sin (-piF - y) - Real.sin (-π - y)) + (Real.sin y - Real.sin v) := by
      rw [show -π - y = -(y + π) by ring, Real.sin_neg, Real.sin_add_pi]; ring
    rw [this]
    have a := sin_lip (-piF - y) (-π - y)
    rw [show -piF - y - (-π - y) = -(piF - π) by ring, abs_neg] at a
    have := abs_add_le (Real.sin (-piF - y) - Real.sin (-π - y)) (Real.sin y - Real.sin v)
    norm_num at *; linarith
  · have : -1 * Real.cos (-piF - y) - Real.cos v = -(Real.cos (-piF - y) - Real.cos (-π - y)) + (Real.cos y - Real.cos v) := by
      rw [show -π - y = -(y + π) by ring, Real.cos_neg, Real.cos_add_pi]; ring
    rw [this]
    have a := cos_lip (-piF - y) (-π - y)
    rw [show -piF - y - (-π - y) = -(piF - π) by ring, abs_neg] at a
    have := abs_add_le (-(Real.cos (-piF - y) - Real.cos (-π - y))) (Real.cos y - Real.cos v)
    rw [abs_neg] at this
    norm_num at *; linarith

/-! ### The model's scalar functions -/

theorem castI_num (x : ℝ) (h : |x| < 2147483648) : (Lane.castI (num x) : E) = num (truncR x) := by
  have := abs_lt.1 h
  show E.castI (num x) = _
  simp only [E.castI]
  rw [if_neg (by linarith), if_neg (by linarith)]

theorem scalarReduce_num (v : ℝ) (hv : |v| ≤ 10^8) : ∃ y s, scalarReduce (num v) = (num y, num s) ∧ Reduced v y s := by
  obtain ⟨q, hq1, hq2⟩ := trunc_near v (kF * v) (fun h => mul_nonneg (by norm_num) h) (fun h => mul_neg_of_pos_of_neg (by norm_num) h)
  have hx : |kF * v| ≤ 10^8/6 := by
    rw [abs_mul, abs_of_pos (by norm_num : (0:ℝ) < kF)]
    have := mul_le_mul_of_nonneg_left hv (show (0:ℝ) ≤ kF by norm_num)
    norm_num at *; linarith
  have hx' := abs_le.1 hx
  have c1 : (Lane.castI (num (kF * v + 1/2)) : E) = num (truncR (kF * v + 1/2)) := castI_num _ (by rw [abs_lt]; constructor <;> norm_num at * <;> linarith)
  have c2 : (Lane.castI (num (kF * v - 1/2)) : E) = num (truncR (kF * v - 1/2)) := castI_num _ (by rw [abs_lt]; constructor <;> norm_num at * <;> linarith)
  have hc : (if Lane.ge (num v) (Lane.c0 : E) then Lane.castI (num (kF * v + 1/2)) else Lane.castI (num (kF * v - 1/2))) = (num (q : ℝ) : E) := by
    rw [c1, c2]
    by_cases h : 0 ≤ v <;> simp [h] at hq1 ⊢ <;> exact hq1
  obtain ⟨r1, r2, r3⟩ := reduced_of v q hv hq2 _ rfl
  have e : scalarReduce (num v) = if piF/2 < v - 2 * piF * q then (num (piF - (v - 2 * piF * q)), num (-1)) else
      if v - 2 * piF * q < -(piF/2) then (num (-piF - (v - 2 * piF * q)), num (-1)) else (num (v - 2 * piF * q), num 1) := by
    unfold scalarReduce
    simp [XM_1DIV2PI, XM_2PI, XM_PI, XM_PIDIV2] at hc ⊢
    rw [hc]
    simp
    rw [show (13176795/2097152:ℝ) = 2*piF by norm_num, show (13176795/8388608:ℝ) = piF/2 by norm_num]
  rw [e]
  split_ifs with h1 h2
  · exact ⟨_, _, rfl, r2 h1⟩
  · exact ⟨_, _, rfl, r3 h2⟩
  · exact ⟨_, _, rfl, r1 (not_lt.1 h1) (not_lt.1 h2)⟩

theorem scalarSinPoly_num (y : ℝ) : scalarSinPoly (num y) = num (y * sinP (y^2)) := by
  simp [scalarSinPoly, sinP]; ring
theorem scalarCosPoly_num (y : ℝ) : scalarCosPoly (num y) = num (cosP (y^2)) := by
  simp [scalarCosPoly, cosP]; ring
theorem scalarSinEstPoly_num (y : ℝ) : scalarSinEstPoly (num y) = num (y * sinEP (y^2)) := by
  simp [scalarSinEstPoly, sinEP]; ring
theorem scalarCosEstPoly_num (y : ℝ) : scalarCosEstPoly (num y) = num (cosEP (y^2)) := by
  simp [scalarCosEstPoly, cosEP]; ring

theorem XMScalarSinCos_num (v : ℝ) (hv : |v| ≤ 10^8) : ∃ s k : ℝ, XMScalarSinCos (num v) = (num s, num k) ∧
    XMScalarSin (num v) = num s ∧ XMScalarCos (num v) = num k ∧
    |s - Real.sin v| ≤ 3/10^7 + 29/10^9 * |v| ∧ |k - Real.cos v| ≤ 3/10^7 + 29/10^9 * |v| := by
  obtain ⟨y, g, e, r⟩ := scalarReduce_num v hv
  refine ⟨y * sinP (y^2), g * cosP (y^2), ?_, ?_, ?_, ?_, ?_⟩
  · simp [XMScalarSinCos, e, scalarSinPoly_num, scalarCosPoly_num]
  · simp [XMScalarSin, e, scalarSinPoly_num]
  · simp [XMScalarCos, e, scalarCosPoly_num]
  · have := sinP_sin y r.small
    have := r.sin
    have := abs_add_le (y * sinP (y^2) - Real.sin y) (Real.sin y - Real.sin v)
    rw [sub_add_sub_cancel] at this
    norm_num at *; linarith
  · have h1 := cosP_cos y r.small
    have := r.cos
    have := abs_add_le (g * (cosP (y^2) - Real.cos y)) (g * Real.cos y - Real.cos v)
    rw [show g * (cosP (y^2) - Real.cos y) + (g * Real.cos y - Real.cos v) = g * cosP (y^2) - Real.cos v by ring, abs_mul, r.sign, one_mul] at this
    norm_num at *; linarith
theorem XMScalarSinCosEst_num (v : ℝ) (hv : |v| ≤ 10^8) : ∃ s k : ℝ, XMScalarSinCosEst (num v) = (num s, num k) ∧
    XMScalarSinEst (num v) = num s ∧ XMScalarCosEst (num v) = num k ∧
    |s - Real.sin v| ≤ 4/10^6 + 29/10^9 * |v| ∧ |k - Real.cos v| ≤ 21/10^6 + 29/10^9 * |v| := by
  obtain ⟨y, g, e, r⟩ := scalarReduce_num v hv
  refine ⟨y * sinEP (y^2), g * cosEP (y^2), ?_, ?_, ?_, ?_, ?_⟩
  · simp [XMScalarSinCosEst, e, scalarSinEstPoly_num, scalarCosEstPoly_num]
  · simp [XMScalarSinEst, e, scalarSinEstPoly_num]
  · simp [XMScalarCosEst, e, scalarCosEstPoly_num]
  · have := sinEP_sin y r.small
    have := r.sin
    have := abs_add_le (y * sinEP (y^2) - Real.sin y) (Real.sin y - Real.sin v)
    rw [sub_add_sub_cancel] at this
    norm_num at *; linarith
  · have h1 := cosEP_cos y r.small
    have := r.cos
    have := abs_add_le (g * (cosEP (y^2) - Real.cos y)) (g * Real.cos y - Real.cos v)
    rw [show g * (cosEP (y^2) - Real.cos y) + (g * Real.cos y - Real.cos v) = g * cosEP (y^2) - Real.cos v by ring, abs_mul, r.sign, one_mul] at this
    norm_num at *; linarith

/-! ### The vector range reduction -/

theorem rint_near (r : ℝ) : ∃ q : ℤ, rintR r = q ∧ |(q:ℝ) - r| ≤ 1/2 := by
  have h1 := Int.floor_le r
  have h2 := Int.lt_floor_add_one r
  have h3 : Int.fract r = r - ⌊r⌋ := rfl
  unfold rintR
  split_ifs with a b d
  · exact ⟨⌊r⌋, rfl, by rw [abs_le]; constructor <;> linarith⟩
  · exact ⟨⌊r⌋ + 1, by push_cast; rfl, by push_cast; rw [abs_le]; constructor <;> linarith⟩
  · exact ⟨⌊r⌋, rfl, by rw [abs_le]; constructor <;> linarith⟩
  · exact ⟨⌊r⌋ + 1, by push_cast; rfl, by push_cast; rw [abs_le]; constructor <;> linarith⟩

/-- One lane of the SSE2 (pre-SSE4.1) rounding. -/
theorem magic_num (r : ℝ) (h : |r| ≤ 8388608) :
    (Lane.addSubMagic (num r) (Lane.bor (num 8388608) (Lane.band (num r) negZero)) : E) = num (rintR r) := by
  have := abs_le.1 h
  rw [band_num_negZero]
  split_ifs with hr
  · rw [bor_num_negZero _ (by norm_num)]
    show E.addSubMagic _ _ = _
    simp only [E.addSubMagic]
    rw [if_pos]; right; norm_num; constructor <;> linarith
  · simp
    show E.addSubMagic _ _ = _
    simp only [E.addSubMagic]
    rw [if_pos]; left; norm_num; constructor <;> linarith

theorem XMVectorRound_num (c : Cfg) (hc : c.sse = true) (a1 a2 a3 a4 : ℝ) (h1 : |a1| ≤ 8388608) (h2 : |a2| ≤ 8388608)
    (h3 : |a3| ≤ 8388608) (h4 : |a4| ≤ 8388608) :
    XMVectorRound c ⟨num a1, num a2, num a3, num a4⟩ = ⟨num (rintR a1), num (rintR a2), num (rintR a3), num (rintR a4)⟩ := by
  unfold XMVectorRound
  rw [if_pos hc]
  split_ifs
  · simp
  · simp [magic_num, h1, h2, h3, h4]

theorem trunc_half (i : ℤ) : 2 * truncR ((i:ℝ)/2) = i ↔ Even i := by
  have two : (2:ℝ) ≠ 0 := by norm_num
  constructor
  · intro h
    unfold truncR at h
    split_ifs at h
    · have : 2 * ⌊(i:ℝ)/2⌋ = i := by exact_mod_cast h
      exact ⟨⌊(i:ℝ)/2⌋, by omega⟩
    · have : 2 * ⌈(i:ℝ)/2⌉ = i := by exact_mod_cast h
      exact ⟨⌈(i:ℝ)/2⌉, by omega⟩
  · rintro ⟨k, rfl⟩
    have : ((k + k : ℤ) : ℝ)/2 = k := by push_cast; ring
    rw [this]; unfold truncR; simp; ring
theorem round_to_nearest_num (r : ℝ) : round_to_nearest (num r) = num (rintR r) := by
  have h2 : (Lane.div (num (⌊r⌋:ℝ)) (num 2) : E) = num ((⌊r⌋:ℝ)/2) := div_num _ _ (by norm_num)
  have h3 : (Lane.trunc (num ((⌊r⌋:ℝ)/2)) : E) = num (truncR ((⌊r⌋:ℝ)/2)) := rfl
  have h4 : (Lane.floor (num r) : E) = num (⌊r⌋:ℝ) := rfl
  have h5 : r - ⌊r⌋ = Int.fract r := rfl
  unfold round_to_nearest
  simp [h2, h3, h4, rintR, h5, trunc_half]
  split_ifs <;> rfl
theorem ModAngles_noi (c : Cfg) (hc : c.sse = false) (a1 a2 a3 a4 : ℝ) : XMVectorModAngles c ⟨num a1, num a2, num a3, num a4⟩ =
    ⟨num (a1 - 2 * piF * rintR (kF * a1)), num (a2 - 2 * piF * rintR (kF * a1)), num (a3 - 2 * piF * rintR (kF * a1)), num (a4 - 2 * piF * rintR (kF * a1))⟩ := by
  have e : a1 * (10680707/67108864) = kF * a1 := by unfold kF; ring
  simp [XMVectorModAngles, hc, XMVectorRound, round_to_nearest_num, e]
  norm_num

noncomputable def modR (a : ℝ) : ℝ := a - 2 * piF * rintR (kF * a)
noncomputable def redR (x : ℝ) : ℝ := if |x| ≤ piF/2 then x else if x < 0 then -piF - x else piF - x
noncomputable def sgR (x : ℝ) : ℝ := if |x| ≤ piF/2 then 1 else -1

theorem kF_small {a : ℝ} (h : |a| ≤ 10^7) : |kF * a| ≤ 8388608 := by
  rw [abs_mul, abs_of_pos (by norm_num : (0:ℝ) < kF)]
  have := mul_le_mul_of_nonneg_left h (show (0:ℝ) ≤ kF by norm_num)
  norm_num at *; linarith
theorem XMVectorModAngles_num (c : Cfg) (hc : c.sse = true) (a1 a2 a3 a4 : ℝ) (h1 : |a1| ≤ 10^7) (h2 : |a2| ≤ 10^7)
    (h3 : |a3| ≤ 10^7) (h4 : |a4| ≤ 10^7) :
    XMVectorModAngles c ⟨num a1, num a2, num a3, num a4⟩ = ⟨num (modR a1), num (modR a2), num (modR a3), num (modR a4)⟩ := by
  unfold XMVectorModAngles
  simp only [hc, if_true]
  have := XMVectorRound_num c hc (kF * a1) (kF * a2) (kF * a3) (kF * a4) (kF_small h1) (kF_small h2) (kF_small h3) (kF_small h4)
  simp [g_XMReciprocalTwoPi, mul_comm _ a1, mul_comm _ a2, mul_comm _ a3, mul_comm _ a4] at this ⊢
  rw [this]
  simp [modR, mul_comm, kF]
  norm_num
theorem bandn_sign (x : ℝ) : (Lane.bandn (if x < 0 then negZero else num 0) (num x) : E) = num |x| := by
  split_ifs with h
  · show E.andn negZero (num x) = _
    have : ¬ (num x : E) = num 0 := by simp; linarith
    simp [E.andn, this]
  · simp [abs_of_nonneg (not_lt.1 h)]
theorem trigReduce_num (c : Cfg) (hc : c.sse = true) (a1 a2 a3 a4 : ℝ) (h1 : |a1| ≤ 10^7) (h2 : |a2| ≤ 10^7)
    (h3 : |a3| ≤ 10^7) (h4 : |a4| ≤ 10^7) :
    trigReduce c ⟨num a1, num a2, num a3, num a4⟩ =
      (⟨num (redR (modR a1)), num (redR (modR a2)), num (redR (modR a3)), num (redR (modR a4))⟩,
       ⟨num (sgR (modR a1)), num (sgR (modR a2)), num (sgR (modR a3)), num (sgR (modR a4))⟩) := by
  have key : ∀ x : ℝ, (Lane.bor (if |x| ≤ 13176795/8388608 then num x else num 0)
      (if |x| ≤ 13176795/8388608 then num 0 else Lane.sub (Lane.bor (num (13176795/4194304)) (if x < 0 then negZero else num 0)) (num x)) : E) = num (redR x) := by
    intro x
    have e : (13176795/8388608 : ℝ) = piF/2 := by norm_num
    unfold redR
    rw [e]
    by_cases h : |x| ≤ piF/2
    · simp only [h, if_true]; simp
    · simp only [h, if_false]
      by_cases g : x < 0
      · simp only [g, if_true]; rw [bor_num_negZero _ (by norm_num)]; simp; norm_num
      · simp only [g, if_false]; simp
  have key2 : ∀ x : ℝ, (Lane.bor (if |x| ≤ 13176795/8388608 then num 1 else num 0)
      (if |x| ≤ 13176795/8388608 then num 0 else num (-1)) : E) = num (sgR x) := by
    intro x
    have e : (13176795/8388608 : ℝ) = piF/2 := by norm_num
    unfold sgR
    rw [e]
    by_cases h : |x| ≤ piF/2 <;> simp [h]
  unfold trigReduce
  rw [XMVectorModAngles_num c hc a1 a2 a3 a4 h1 h2 h3 h4]
  simp [band_num_negZero, bandn_sign, key, key2]

theorem modR_reduced (v : ℝ) (hv : |v| ≤ 10^8) : Reduced v (redR (modR v)) (sgR (modR v)) := by
  obtain ⟨q, hq1, hq2⟩ := rint_near (kF * v)
  obtain ⟨r1, r2, r3⟩ := reduced_of v q hv hq2 (modR v) (by rw [modR, hq1])
  unfold redR sgR
  split_ifs with h g
  · have := abs_le.1 h; exact r1 this.2 this.1
  · refine r3 ?_
    rw [abs_of_neg g] at h; linarith
  · refine r2 ?_
    rw [abs_of_nonneg (not_lt.1 g)] at h; linarith

section
variable (c : Cfg) (a1 a2 a3 a4 s1 s2 s3 s4 : ℝ)
theorem sinPoly_num : sinPoly c ⟨num a1, num a2, num a3, num a4⟩ =
    ⟨num (a1 * sinP (a1^2)), num (a2 * sinP (a2^2)), num (a3 * sinP (a3^2)), num (a4 * sinP (a4^2))⟩ := by
  simp [sinPoly, sinP]; refine ⟨?_, ?_, ?_, ?_⟩ <;> ring
theorem cosPoly_num : cosPoly c ⟨num a1, num a2, num a3, num a4⟩ ⟨num s1, num s2, num s3, num s4⟩ =
    ⟨num (s1 * cosP (a1^2)), num (s2 * cosP (a2^2)), num (s3 * cosP (a3^2)), num (s4 * cosP (a4^2))⟩ := by
  simp [cosPoly, cosP]; refine ⟨?_, ?_, ?_, ?_⟩ <;> ring
theorem sinEstPoly_num : sinEstPoly c ⟨num a1, num a2, num a3, num a4⟩ =
    ⟨num (a1 * sinEP (a1^2)), num (a2 * sinEP (a2^2)), num (a3 * sinEP (a3^2)), num (a4 * sinEP (a4^2))⟩ := by
  simp [sinEstPoly, sinEP]; refine ⟨?_, ?_, ?_, ?_⟩ <;> ring
theorem cosEstPoly_num : cosEstPoly c ⟨num a1, num a2, num a3, num a4⟩ ⟨num s1, num s2, num s3, num s4⟩ =
    ⟨num (s1 * cosEP (a1^2)), num (s2 * cosEP (a2^2)), num (s3 * cosEP (a3^2)), num (s4 * cosEP (a4^2))⟩ := by
  simp [cosEstPoly, cosEP]; refine ⟨?_, ?_, ?_, ?_⟩ <;> ring
end

/-- What the vector functions return per lane in the SSE builds. -/
noncomputable def vsin (v : ℝ) : ℝ := let y := redR (modR v); y * sinP (y^2)
noncomputable def vcos (v : ℝ) : ℝ := let y := redR (modR v); sgR (modR v) * cosP (y^2)
noncomputable def vsinE (v : ℝ) : ℝ := let y := redR (modR v); y * sinEP (y^2)
noncomputable def vcosE (v : ℝ) : ℝ := let y := redR (modR v); sgR (modR v) * cosEP (y^2)

theorem vsin_close (v : ℝ) (hv : |v| ≤ 10^8) : |vsin v - Real.sin v| ≤ 3/10^7 + 29/10^9 * |v| := by
  have r := modR_reduced v hv
  have := sinP_sin _ r.small
  have := r.sin
  have := abs_add_le (vsin v - Real.sin (redR (modR v))) (Real.sin (redR (modR v)) - Real.sin v)
  rw [sub_add_sub_cancel] at this
  unfold vsin at *; norm_num at *; linarith
theorem vcos_close (v : ℝ) (hv : |v| ≤ 10^8) : |vcos v - Real.cos v| ≤ 3/10^7 + 29/10^9 * |v| := by
  have r := modR_reduced v hv
  have h1 := cosP_cos _ r.small
  have := r.cos
  have := abs_add_le (sgR (modR v) * (cosP (redR (modR v)^2) - Real.cos (redR (modR v)))) (sgR (modR v) * Real.cos (redR (modR v)) - Real.cos v)
  rw [show sgR (modR v) * (cosP (redR (modR v)^2) - Real.cos (redR (modR v))) + (sgR (modR v) * Real.cos (redR (modR v)) - Real.cos v) = vcos v - Real.cos v by unfold vcos; ring, abs_mul, r.sign, one_mul] at this
  norm_num at *; linarith
theorem vsinE_close (v : ℝ) (hv : |v| ≤ 10^8) : |vsinE v - Real.sin v| ≤ 4/10^6 + 29/10^9 * |v| := by
  have r := modR_reduced v hv
  have := sinEP_sin _ r.small
  have := r.sin
  have := abs_add_le (vsinE v - Real.sin (redR (modR v))) (Real.sin (redR (modR v)) - Real.sin v)
  rw [sub_add_sub_cancel] at this
  unfold vsinE at *; norm_num at *; linarith
theorem vcosE_close (v : ℝ) (hv : |v| ≤ 10^8) : |vcosE v - Real.cos v| ≤ 21/10^6 + 29/10^9 * |v| := by
  have r := modR_reduced v hv
  have h1 := cosEP_cos _ r.small
  have := r.cos
  have := abs_add_le (sgR (modR v) * (cosEP (redR (modR v)^2) - Real.cos (redR (modR v)))) (sgR (modR v) * Real.cos (redR (modR v)) - Real.cos v)
  rw [show sgR (modR v) * (cosEP (redR (modR v)^2) - Real.cos (redR (modR v))) + (sgR (modR v) * Real.cos (redR (modR v)) - Real.cos v) = vcosE v - Real.cos v by unfold vcosE; ring, abs_mul, r.sign, one_mul] at this
  norm_num at *; linarith

end DXM.Trig
