import Verif.Lemmas.TanPoly
import Verif.Lemmas.Trig
import Verif.Lemmas.SpecSimp

/-
C107: the vector tangent.  Exact-real lanes: the range reduction and the rational approximation are evaluated with the
code's literal binary32 coefficients, without intermediate rounding.
-/

set_option linter.all false

namespace DXM.Props
open DXM.E DXM.Spec DXM.Trig Real

noncomputable abbrev twoPiF : ℝ := 10680707/16777216
noncomputable def tanQ (a : ℝ) : ℝ := rintR (a * twoPiF)
noncomputable def tanV (a : ℝ) : ℝ := a - tanQ a * (13176795 / 8388608) - tanQ a * (8758025 / 144115188075855872)
noncomputable def tanN (v : ℝ) : ℝ := if |v| ≤ 1/4096 then v else v * tanNp (v^2)
noncomputable def tanDn (v : ℝ) : ℝ := if |v| ≤ 1/4096 then 1 else tanD (v^2)
noncomputable def tanE (c : Cfg) (a : ℝ) : E := (XMVectorTan c ⟨num a, num a, num a, num a⟩).x

theorem twoPi_small {a : ℝ} (h : |a| ≤ 10^4) : |a * twoPiF| ≤ 8388608 := by
  rw [abs_mul, abs_of_pos (by norm_num : (0:ℝ) < twoPiF)]
  norm_num at *; linarith

theorem tan_lanes (c : Cfg) (hc : c.sse = true) (a : Fin 4 → ℝ) (ha : ∀ i, |a i| ≤ 10^4) :
    XMVectorTan c (vec4 a) = ⟨tanE c (a 0), tanE c (a 1), tanE c (a 2), tanE c (a 3)⟩ := by
  have hs := fun i => twoPi_small (ha i)
  have := XMVectorRound_num c hc _ _ _ _ (hs 0) (hs 1) (hs 2) (hs 3)
  have h' := fun i => XMVectorRound_num c hc _ _ _ _ (hs i) (hs i) (hs i) (hs i)
  unfold tanE XMVectorTan
  rw [if_pos hc]
  simp [vec4, TanConstants, this, h', hc]

theorem evenI_num (q : ℤ) (h : |(q:ℝ)| < 2147483648) : (Lane.evenI (num |(q:ℝ)|) : Bool) = decide (Even q) := by
  show E.evenI (num |(q:ℝ)|) = _
  unfold E.evenI
  simp only
  rw [if_pos ⟨abs_nonneg _, h⟩, show |(q:ℝ)| = ((|q| : ℤ) : ℝ) by push_cast; rfl, Int.floor_intCast]
  simp [even_abs]

theorem tanE_eq (c : Cfg) (hc : c.sse = true) (a : ℝ) (ha : |a| ≤ 10^4) (q : ℤ) (hq : rintR (a * twoPiF) = q) (hq' : |(q:ℝ)| < 2147483648)
    (v : ℝ) (hv : v = a - q * (13176795 / 8388608) - q * (8758025 / 144115188075855872)) (hd : tanDn v ≠ 0) (hn : ¬ Even q → tanN v ≠ 0) :
    tanE c a = num (if a = 0 then 0 else if Even q then tanN v / tanDn v else tanDn v / (-tanN v)) := by
  have h' := XMVectorRound_num c hc _ _ _ _ (twoPi_small ha) (twoPi_small ha) (twoPi_small ha) (twoPi_small ha)
  rw [hq] at h'
  have hs : (⟨num a, num a, num a, num a⟩ : V4 E) = vec4 (fun _ => a) := rfl
  unfold tanE XMVectorTan
  rw [if_pos hc]
  have hb : (v ≤ 4096⁻¹ ∧ -4096⁻¹ ≤ v) = (|v| ≤ 4096⁻¹) := by rw [abs_le, and_comm]
  have eN : v * (v * v * (v * v * (v * v * (-9819577 / 549755813888) + 14709781 / 4294967296) + -8951215 / 67108864)) + v = v * tanNp (v^2) := by
    unfold tanNp; ring
  have eD : v * v * (v * v * (v * v * (v * v * (1095541 / 2199023255552) + -10713893 / 34359738368) + 13778165 / 536870912) + -7830209 / 16777216) + 1 =
      tanD (v^2) := by unfold tanD; ring
  simp [TanConstants, TanCoefficients0, TanCoefficients1, h', evenI_num _ hq', ← hv, hb]
  rw [show (4096⁻¹ : ℝ) = 1/4096 by norm_num]
  by_cases h0 : a = 0
  · simp [h0]
  simp only [tanN, tanDn] at *
  by_cases h1 : Even q <;> by_cases h2 : |v| ≤ 1/4096 <;> simp only [h0, h1, h2, if_true, if_false, not_true, not_false_iff, forall_true_left] at *
  · simp [div_num _ _ one_ne_zero]
  · simp [eN, eD, div_num _ _ hd]
  · have : -v ≠ 0 := neg_ne_zero.2 hn
    simp [div_num _ _ this]
  · have : -(v * tanNp (v^2)) ≠ 0 := neg_ne_zero.2 hn
    simp [eN, eD, div_num _ _ this]

/-- The quotient is the tangent of an angle close to the reduced argument. -/
theorem tan_quot (v : ℝ) (h : |v| ≤ 7856/10000) : 0 < tanDn v ∧
    |arctan (tanN v / tanDn v) - v| ≤ 6/10^8 * |v| ∧ |arctan (tanN v / tanDn v) - v| ≤ 2/10^8 := by
  unfold tanDn tanN
  have h0 := abs_nonneg v
  split_ifs with h1
  · have := arctan_backward v h1
    refine ⟨one_pos, by rwa [div_one], ?_⟩
    rw [div_one]; refine this.trans ?_; norm_num at *; linarith
  · have := tan_backward v h
    exact ⟨tanD_pos v h, this.trans (by norm_num at *; linarith), this.trans (by norm_num at *; linarith)⟩

/-- Turning an angle by q right angles. -/
theorem tan_turn (z : ℝ) (q : ℤ) : tan (z + q * (π/2)) = if Even q then tan z else -(tan z)⁻¹ := by
  split_ifs with h
  · obtain ⟨k, rfl⟩ := h
    rw [show z + ((k + k : ℤ):ℝ) * (π/2) = z + k * π by push_cast; ring, tan_add_int_mul_pi]
  · obtain ⟨k, rfl⟩ := Int.not_even_iff_odd.1 h
    rw [show z + ((2 * k + 1 : ℤ):ℝ) * (π/2) = (z + π/2) + k * π by push_cast; ring, tan_add_int_mul_pi, tan_eq_sin_div_cos, tan_eq_sin_div_cos,
      sin_add_pi_div_two, cos_add_pi_div_two, inv_div, div_neg]

theorem pole_dist (x p : ℝ) (hp : cos p = 0) : |cos x| ≤ |x - p| := by
  have := cos_lip x p
  rwa [hp, sub_zero] at this

theorem tan_lane (c : Cfg) (hc : c.sse = true) (a : ℝ) (ha : |a| ≤ 10^4) (hp : 9/10^8 * |a| < |cos a|) :
    ∃ y, tanE c a = num (tan y) ∧ |y - a| ≤ 9/10^8 * |a| := by
  obtain ⟨q, hq, hn⟩ := rint_near (a * twoPiF)
  have hn' := abs_le.1 hn
  have hal := abs_le.1 ha
  have p1 := pi_gt_d20; have p2 := pi_lt_d20
  have hq1 : |(q:ℝ)| ≤ 6367/10000 * |a| + 1/2 := by
    have : |(q:ℝ)| ≤ |a * twoPiF| + |q - a * twoPiF| := by
      have := abs_add_le (a * twoPiF) (q - a * twoPiF); rwa [add_sub_cancel] at this
    rw [abs_mul, abs_of_pos (by norm_num : (0:ℝ) < twoPiF)] at this
    norm_num at *; linarith [abs_nonneg a]
  have hqs : |(q:ℝ)| < 2147483648 := by norm_num at *; linarith
  set v := a - q * (13176795 / 8388608) - q * (8758025 / 144115188075855872) with hv
  have hql := abs_le.1 (le_refl |(q:ℝ)|)
  have hvb : |v| ≤ 7856/10000 := by
    have hq2 : |(q:ℝ)| ≤ 6368 := by norm_num at *; linarith
    have := abs_le.1 hq2
    rw [abs_le]; norm_num at *; constructor <;> linarith
  obtain ⟨hd, b1, b2⟩ := tan_quot v hvb
  set z := arctan (tanN v / tanDn v) with hz
  have hzt : tan z = tanN v / tanDn v := tan_arctan _
  set δ : ℝ := 13176795 / 8388608 + 8758025 / 144115188075855872 - π/2 with hδ
  have hδ1 : |δ| ≤ 44/10^9 := by rw [abs_le, hδ]; constructor <;> norm_num at * <;> linarith
  have hya : |z + q * (π/2) - a| ≤ 9/10^8 * |a| := by
    have e : z + q * (π/2) - a = (z - v) - q * δ := by rw [hv, hδ]; ring
    rw [e]
    have h1 := abs_sub (z - v) (q * δ)
    rw [abs_mul] at h1
    by_cases h0 : q = 0
    · subst h0
      have : v = a := by rw [hv]; push_cast; ring
      rw [this] at b1
      rw [this] at h1 ⊢
      norm_num at *; linarith [abs_nonneg a]
    · have h2 : (1:ℝ) ≤ |(q:ℝ)| := by exact_mod_cast Int.one_le_abs h0
      have h3 := mul_le_mul_of_nonneg_left hδ1 (abs_nonneg (q:ℝ))
      norm_num at *; linarith
  refine ⟨z + q * (π/2), ?_, hya⟩
  have hodd : ¬ Even q → tanN v ≠ 0 := by
    intro ho h0
    have hz0 : z = 0 := by rw [hz, h0, zero_div, arctan_zero]
    have hc0 : cos (z + q * (π/2)) = 0 := by
      obtain ⟨k, rfl⟩ := Int.not_even_iff_odd.1 ho
      rw [hz0, show (0:ℝ) + ((2 * k + 1 : ℤ):ℝ) * (π/2) = (π/2) + k * π by push_cast; ring, cos_add_int_mul_pi, cos_pi_div_two, mul_zero]
    have := pole_dist a _ hc0
    rw [abs_sub_comm] at this
    linarith
  rw [tanE_eq c hc a ha q hq hqs v hv hd.ne' hodd, tan_turn, hzt]
  congr 1
  by_cases h0 : a = 0
  · have hq0 : q = 0 := by
      rw [h0, abs_zero, mul_zero, zero_add] at hq1
      by_contra h
      have : (1:ℝ) ≤ |(q:ℝ)| := by exact_mod_cast Int.one_le_abs h
      linarith
    have : v = 0 := by rw [hv, h0, hq0]; push_cast; ring
    simp [h0, hq0, this, tanN]
  · rw [if_neg h0, inv_div, ← div_neg]

/-- C107: in every lane the result is the tangent of an angle that differs from the argument by at most 9e-8 of its magnitude
(backward error), for every |x| ≤ 10^4 that is not that close to a pole of the tangent. -/
theorem C107_tan (c : Cfg) (a : Fin 4 → ℝ) (ha : ∀ i, |a i| ≤ 10^4) (hp : ∀ i, 9/10^8 * |a i| < |cos (a i)|) :
    ∃ y : Fin 4 → ℝ, XMVectorTan c (vec4 a) = vec4 (fun i => tan (y i)) ∧ ∀ i, |y i - a i| ≤ 9/10^8 * |a i| := by
  by_cases hc : c.sse = true
  · choose y h1 h2 using fun i => tan_lane c hc (a i) (ha i) (hp i)
    refine ⟨y, ?_, h2⟩
    rw [tan_lanes c hc a ha, h1, h1, h1, h1]; rfl
  · refine ⟨a, ?_, fun i => by rw [sub_self, abs_zero]; positivity⟩
    have h : ∀ i, (Lane.tan (num (a i)) : E) = num (tan (a i)) := fun i => by
      have h0 : cos (a i) ≠ 0 := abs_pos.1 (lt_of_le_of_lt (by positivity) (hp i))
      show (if cos (a i) = 0 then bad else num (tan (a i))) = _
      rw [if_neg h0]
    unfold XMVectorTan; rw [if_neg hc]
    simp [vec4, V4.map, h]

/-- C107, forward form: away from the poles the error is at most 1e-7 |x| times the slope of the tangent. -/
theorem C107_tan_forward (c : Cfg) (a : Fin 4 → ℝ) (ha : ∀ i, |a i| ≤ 10^4) (hp : ∀ i, 1/10^6 * |a i| < |cos (a i)|) :
    ∃ r : Fin 4 → ℝ, XMVectorTan c (vec4 a) = vec4 r ∧ ∀ i, |r i - tan (a i)| ≤ 1/10^7 * |a i| / cos (a i)^2 := by
  obtain ⟨y, h1, h2⟩ := C107_tan c a ha (fun i => lt_of_le_of_lt (by norm_num; linarith [abs_nonneg (a i)]) (hp i))
  refine ⟨_, h1, fun i => ?_⟩
  have hy := h2 i
  have hc := hp i
  have h0 := abs_nonneg (a i)
  have hcx : 0 < |cos (a i)| := lt_of_le_of_lt (by positivity) hc
  have hl := cos_lip (y i) (a i)
  have hcy : 91/100 * |cos (a i)| ≤ |cos (y i)| := by
    have := abs_sub_abs_le_abs_sub (cos (a i)) (cos (y i))
    rw [abs_sub_comm] at this
    norm_num at *; linarith
  have hcy0 : 0 < |cos (y i)| := lt_of_lt_of_le (by positivity) hcy
  have n1 : cos (a i) ≠ 0 := abs_pos.1 hcx
  have n2 : cos (y i) ≠ 0 := abs_pos.1 hcy0
  have e : tan (y i) - tan (a i) = sin (y i - a i) / (cos (y i) * cos (a i)) := by
    rw [tan_eq_sin_div_cos, tan_eq_sin_div_cos, sin_sub]; field_simp
  have hs : |sin (y i - a i)| ≤ |y i - a i| := by simpa using sin_lip (y i - a i) 0
  show |tan (y i) - tan (a i)| ≤ _
  rw [e, abs_div, abs_mul, ← sq_abs (cos (a i)), div_le_div_iff₀ (by positivity) (by positivity)]
  have k1 : |sin (y i - a i)| * |cos (a i)|^2 ≤ (9/10^8 * |a i|) * |cos (a i)|^2 := mul_le_mul_of_nonneg_right (hs.trans hy) (by positivity)
  have k2 : (1/10^7 * |a i| * |cos (a i)|) * (91/100 * |cos (a i)|) ≤ (1/10^7 * |a i| * |cos (a i)|) * |cos (y i)| :=
    mul_le_mul_of_nonneg_left hcy (by positivity)
  have k3 : (9/10^8 * |a i|) * |cos (a i)|^2 ≤ (1/10^7 * |a i| * |cos (a i)|) * (91/100 * |cos (a i)|) := by
    have : 0 ≤ |a i| * |cos (a i)|^2 := by positivity
    rw [show (1/10^7 * |a i| * |cos (a i)|) * (91/100 * |cos (a i)|) = 91/10^9 * (|a i| * |cos (a i)|^2) by ring, mul_assoc]
    exact mul_le_mul_of_nonneg_right (by norm_num) this
  linarith

/-- The hypotheses of C107 hold at -2, 1, 0.5 and 0. -/
example : ∀ x ∈ ({-2, 1, 1/2, 0} : Set ℝ), |x| ≤ 10^4 ∧ 1/10^6 * |x| < |cos x| := by
  have c1 : 1/2 ≤ cos 1 := by rw [← cos_pi_div_three]; exact cos_le_cos_of_nonneg_of_le_pi (by norm_num) (by linarith [pi_pos]) (by linarith [pi_gt_three])
  have c2 : cos (1/2) ≥ cos 1 := cos_le_cos_of_nonneg_of_le_pi (by norm_num) (by linarith [pi_gt_three]) (by norm_num)
  have c3 : cos 2 ≤ -(1/8) := by
    have h := cos_one_le
    have := cos_two_mul (1:ℝ)
    rw [mul_one] at this
    have : 0 < cos 1 := by linarith
    nlinarith
  rintro x (rfl | rfl | rfl | rfl)
  · rw [abs_neg, cos_neg, abs_of_nonpos (by linarith : cos 2 ≤ 0)]; norm_num; linarith
  · rw [abs_of_nonneg (by linarith : 0 ≤ cos 1)]; norm_num; linarith
  · rw [abs_of_nonneg (by linarith : 0 ≤ cos (1/2))]; norm_num at *; linarith
  · simp

end DXM.Props
