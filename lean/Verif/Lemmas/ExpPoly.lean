import Mathlib.Analysis.SpecialFunctions.Pow.Deriv
import Mathlib.Analysis.Complex.ExponentialBounds
import Mathlib.Analysis.Calculus.MeanValue
import Mathlib.Analysis.Calculus.Deriv.Pow
import Mathlib.Tactic.Positivity
import Mathlib.Tactic.Linarith

/-
Generated (script genexp.py, not part of the build).  The degree-7 polynomial of XMVectorExp2 approximates 2^-y:
within 3e-8 (relative) on [0,1], within 2e-5 on [-1,0].
-/

set_option linter.all false
set_option maxRecDepth 4000

namespace DXM.Trig
open Real

/-- The polynomial of g_XMExpEst1..7 (globals.rs:125-131). -/
noncomputable def expP (y : ℝ) : ℝ := ((((((((0) * y + (-11944545/1099511627776)) * y + (10135511/68719476736)) * y + (-2852373/2147483648)) * y + (2581269/268435456)) * y + (-7449573/134217728)) * y + (16121325/67108864)) * y + (-1453635/2097152)) * y + (1)
/-- `expP' + (287209/414355) expP` -/
noncomputable def expD (y : ℝ) : ℝ := ((((((((0) * y + (-686116164981/91117628105424896)) * y + (11931186056459/455588140527124480)) * y + (-508536170097/14237129391472640)) * y + (21434433693/889820586967040)) * y + (-460978767/55613786685440)) * y + (15160521/11122757337088)) * y + (-251013/2780689334272)) * y + (-1657/868965416960)
/-- An upper bound of `expD (-t)` for t ≥ 0. -/
noncomputable def expA (t : ℝ) : ℝ := ((((((((0) * t + (686116164981/91117628105424896)) * t + (11931186056459/455588140527124480)) * t + (508536170097/14237129391472640)) * t + (21434433693/889820586967040)) * t + (460978767/55613786685440)) * t + (15160521/11122757337088)) * t + (251013/2780689334272)) * t + (0)
theorem expD_U (t d : ℝ) (ht : 0 ≤ t) (hd : 0 ≤ d) (h : d = 1 - t) : 0 ≤ (7/500000000) - expD t := by
  have e : (7/500000000) - expD t = (5399420249/339439616000000000) * t^0 * d^16 + (1872511349369/5431033856000000000) * t^1 * d^15 + (8254548174339/4344827084800000000) * t^2 * d^14 + (32989731610457/4344827084800000000) * t^3 * d^13 + (2061624693665639/69517233356800000000) * t^4 * d^12 + (499160659807943313/5561378668544000000000) * t^5 * d^11 + (32317589563842960821/177964117393408000000000) * t^6 * d^10 + (8624888432220254431/35592823478681600000000) * t^7 * d^9 + (3905216146067003469/17796411739340800000000) * t^8 * d^8 + (1302990473838208139/8898205869670400000000) * t^9 * d^7 + (7758348113738863223/88982058696704000000000) * t^10 * d^6 + (4717925975263421133/88982058696704000000000) * t^11 * d^5 + (1522379534240399/56317758668800000000) * t^12 * d^4 + (76001188225325311/8898205869670400000000) * t^13 * d^3 + (42369264408325713/35592823478681600000000) * t^14 * d^2 + (2548807747295267/177964117393408000000000) * t^15 * d^1 + (362935340113231/88982058696704000000000) * t^16 * d^0 := by rw [h]; unfold expD; ring
  rw [e]; positivity
theorem expD_L (t d : ℝ) (ht : 0 ≤ t) (hd : 0 ≤ d) (h : d = 1 - t) : 0 ≤ (7/500000000) + expD t := by
  have e : (7/500000000) + expD t = (4104888999/339439616000000000) * t^0 * d^16 + (560591818119/5431033856000000000) * t^1 * d^15 + (6344070830589/4344827084800000000) * t^2 * d^14 + (35137157079207/4344827084800000000) * t^3 * d^13 + (1480973518196889/69517233356800000000) * t^4 * d^12 + (181018196869662063/5561378668544000000000) * t^5 * d^11 + (7586236694576554571/177964117393408000000000) * t^6 * d^10 + (2776204784471035681/35592823478681600000000) * t^7 * d^9 + (2507898788321847219/17796411739340800000000) * t^8 * d^8 + (1547282830334614389/8898205869670400000000) * t^9 * d^7 + (12193565015470894473/88982058696704000000000) * t^10 * d^6 + (6164935731578264883/88982058696704000000000) * t^11 * d^5 + (1347573447521649/56317758668800000000) * t^12 * d^4 + (63522679811106561/8898205869670400000000) * t^13 * d^3 + (77222622480044463/35592823478681600000000) * t^14 * d^2 + (77179116844951517/177964117393408000000000) * t^15 * d^1 + (2128562303394481/88982058696704000000000) * t^16 * d^0 := by rw [h]; unfold expD; ring
  rw [e]; positivity
theorem expP_hasDerivAt (y : ℝ) : HasDerivAt expP (expD y - (287209/414355) * expP y) y := by
  have e : expP = fun y => (1) * y^0 + (-1453635/2097152) * y^1 + (16121325/67108864) * y^2 + (-7449573/134217728) * y^3 + (2581269/268435456) * y^4 + (-2852373/2147483648) * y^5 + (10135511/68719476736) * y^6 + (-11944545/1099511627776) * y^7 := by funext y; unfold expP; ring
  have h := (((((((((hasDerivAt_pow 0 y).const_mul (1))).add ((hasDerivAt_pow 1 y).const_mul (-1453635/2097152))).add ((hasDerivAt_pow 2 y).const_mul (16121325/67108864))).add ((hasDerivAt_pow 3 y).const_mul (-7449573/134217728))).add ((hasDerivAt_pow 4 y).const_mul (2581269/268435456))).add ((hasDerivAt_pow 5 y).const_mul (-2852373/2147483648))).add ((hasDerivAt_pow 6 y).const_mul (10135511/68719476736))).add ((hasDerivAt_pow 7 y).const_mul (-11944545/1099511627776))
  rw [e]
  refine h.congr_deriv ?_
  unfold expD; norm_num; ring
theorem log2_near : |log 2 - 287209/414355| ≤ 1/10^10 := Real.log_two_near_10
theorem pow2_hasDerivAt (y : ℝ) : HasDerivAt (fun y : ℝ => (2:ℝ)^y) ((2:ℝ)^y * log 2) y := by
  have := (hasDerivAt_id y).const_rpow (a := 2) (by norm_num)
  simpa [mul_comm] using this
theorem exp_hasDerivAt (y : ℝ) : HasDerivAt (fun y => expP y * (2:ℝ)^y) ((expD y + (log 2 - 287209/414355) * expP y) * (2:ℝ)^y) y := by
  refine ((expP_hasDerivAt y).mul (pow2_hasDerivAt y)).congr_deriv ?_
  ring
theorem expP_bound {y : ℝ} (h : |y| ≤ 1) : |expP y| ≤ 2 := by
  obtain ⟨h1, h2⟩ := abs_le.1 h
  have k : ∀ {a y c A : ℝ}, |y| ≤ 1 → |a| ≤ A → |a * y + c| ≤ A + |c| := by
    intro a y c A hy ha
    refine (abs_add_le _ _).trans (add_le_add_left ?_ _)
    rw [abs_mul]
    calc |a| * |y| ≤ |a| * 1 := mul_le_mul_of_nonneg_left hy (abs_nonneg _)
      _ ≤ A := by rw [mul_one]; exact ha
  unfold expP
  refine (k h (k h (k h (k h (k h (k h (k h (k h (le_of_eq abs_zero))))))))).trans ?_
  norm_num [abs_div]
theorem expP_pos_err {y : ℝ} (h0 : 0 ≤ y) (h1 : y ≤ 1) : |expP y * (2:ℝ)^y - 1| ≤ 3/10^8 := by
  have e0 : expP 0 * (2:ℝ)^(0:ℝ) = 1 := by unfold expP; norm_num
  have := (convex_Icc (0:ℝ) 1).norm_image_sub_le_of_norm_hasDerivWithin_le (f := fun y => expP y * (2:ℝ)^y) (C := 3/10^8) (x := 0) (y := y)
    (fun x _ => (exp_hasDerivAt x).hasDerivWithinAt) (fun x hx => ?_) (by simp) ⟨h0, h1⟩
  · simp only [e0, Real.norm_eq_abs, sub_zero] at this
    rw [abs_of_nonneg h0] at this
    nlinarith
  · have a := expD_U x (1 - x) hx.1 (by linarith [hx.2]) rfl
    have b := expD_L x (1 - x) hx.1 (by linarith [hx.2]) rfl
    have c1 : |expD x| ≤ 14/10^9 := by rw [abs_le]; constructor <;> norm_num at a b ⊢ <;> linarith
    have c2 := expP_bound (y := x) (by rw [abs_le]; constructor <;> linarith [hx.1, hx.2])
    have c3 : |(log 2 - 287209/414355) * expP x| ≤ 1/10^10 * 2 := by rw [abs_mul]; exact mul_le_mul log2_near c2 (abs_nonneg _) (by norm_num)
    have c4 : (2:ℝ)^x ≤ 2 := by
      calc (2:ℝ)^x ≤ (2:ℝ)^(1:ℝ) := rpow_le_rpow_of_exponent_le (by norm_num) hx.2
        _ = 2 := rpow_one 2
    have c5 : (0:ℝ) < (2:ℝ)^x := rpow_pos_of_pos (by norm_num) x
    rw [Real.norm_eq_abs, abs_mul, abs_of_pos c5]
    have c6 := (abs_add_le (expD x) ((log 2 - 287209/414355) * expP x)).trans (add_le_add c1 c3)
    calc _ ≤ (14/10^9 + 1/10^10 * 2) * 2 := mul_le_mul c6 c4 c5.le (by norm_num)
      _ ≤ _ := by norm_num
theorem expD_neg {t : ℝ} (h0 : 0 ≤ t) (h1 : t ≤ 1) : -(2/10^9) ≤ expD (-t) ∧ expD (-t) ≤ expA t := by
  have e : expA t - expD (-t) = -expD 0 := by unfold expA expD; ring
  have e0 : |expD 0| ≤ 2/10^9 := by unfold expD; norm_num [abs_div]
  have hA : 0 ≤ expA t := by unfold expA; positivity
  obtain ⟨a, b⟩ := abs_le.1 e0
  have e1 : expD 0 ≤ 0 := by unfold expD; norm_num
  constructor <;> linarith
/-- An antiderivative of `expA`. -/
noncomputable def expB (t : ℝ) : ℝ := (((((((((0) * t + (686116164981/728941024843399168)) * t + (11931186056459/3189116983689871360)) * t + (169512056699/28474258782945280)) * t + (21434433693/4449102934835200)) * t + (460978767/222455146741760)) * t + (5053507/11122757337088)) * t + (251013/5561378668544)) * t + (0)) * t + (0)
theorem expB_hasDerivAt (t : ℝ) : HasDerivAt expB (expA t) t := by
  have e : expB = fun t => (0) * t^0 + (0) * t^1 + (251013/5561378668544) * t^2 + (5053507/11122757337088) * t^3 + (460978767/222455146741760) * t^4 + (21434433693/4449102934835200) * t^5 + (169512056699/28474258782945280) * t^6 + (11931186056459/3189116983689871360) * t^7 + (686116164981/728941024843399168) * t^8 := by funext t; unfold expB; ring
  have h := ((((((((((hasDerivAt_pow 0 t).const_mul (0))).add ((hasDerivAt_pow 1 t).const_mul (0))).add ((hasDerivAt_pow 2 t).const_mul (251013/5561378668544))).add ((hasDerivAt_pow 3 t).const_mul (5053507/11122757337088))).add ((hasDerivAt_pow 4 t).const_mul (460978767/222455146741760))).add ((hasDerivAt_pow 5 t).const_mul (21434433693/4449102934835200))).add ((hasDerivAt_pow 6 t).const_mul (169512056699/28474258782945280))).add ((hasDerivAt_pow 7 t).const_mul (11931186056459/3189116983689871360))).add ((hasDerivAt_pow 8 t).const_mul (686116164981/728941024843399168))
  rw [e]
  refine h.congr_deriv ?_
  unfold expA; norm_num; ring
theorem exp_neg_hasDerivAt (t : ℝ) : HasDerivAt (fun t => expP (-t) * (2:ℝ)^(-t)) (-((expD (-t) + (log 2 - 287209/414355) * expP (-t)) * (2:ℝ)^(-t))) t := by
  have := (exp_hasDerivAt (-t)).comp t (hasDerivAt_neg t)
  refine this.congr_deriv ?_
  ring
theorem expP_neg_err {y : ℝ} (h0 : -1 ≤ y) (h1 : y ≤ 0) : |expP y * (2:ℝ)^y - 1| ≤ 2/10^5 := by
  have key : ∀ t ∈ Set.Icc (0:ℝ) 1, -(3/10^9) ≤ (expD (-t) + (log 2 - 287209/414355) * expP (-t)) * (2:ℝ)^(-t) ∧ (expD (-t) + (log 2 - 287209/414355) * expP (-t)) * (2:ℝ)^(-t) ≤ expA t + 3/10^9 := by
    intro t ht
    obtain ⟨a, b⟩ := expD_neg ht.1 ht.2
    have c2 := expP_bound (y := -t) (by rw [abs_le]; constructor <;> linarith [ht.1, ht.2])
    have c3 : |(log 2 - 287209/414355) * expP (-t)| ≤ 1/10^10 * 2 := by rw [abs_mul]; exact mul_le_mul log2_near c2 (abs_nonneg _) (by norm_num)
    have c4 : (2:ℝ)^(-t) ≤ 1 := rpow_le_one_of_one_le_of_nonpos (by norm_num) (by linarith [ht.1])
    have c5 : (0:ℝ) < (2:ℝ)^(-t) := rpow_pos_of_pos (by norm_num) _
    have c6 := abs_le.1 c3
    have hA : 0 ≤ expA t := by have := ht.1; unfold expA; positivity
    generalize (log 2 - 287209/414355) * expP (-t) = z at *
    generalize (2:ℝ)^(-t) = w at *
    generalize expD (-t) = u at *
    generalize expA t = v at *
    have l1 : -(3/10^9) ≤ u + z := by norm_num at a c6 ⊢; linarith [c6.1]
    have l2 : u + z ≤ v + 3/10^9 := by norm_num at c6 ⊢; linarith [c6.2]
    constructor
    · nlinarith
    · rcases le_total 0 (u + z) with hz | hz
      · nlinarith
      · have : (u + z) * w ≤ 0 := mul_nonpos_of_nonpos_of_nonneg hz c5.le
        have h3 : (0:ℝ) ≤ 3/10^9 := by norm_num
        linarith
  have t0 : 0 ≤ -y := by linarith
  have t1 : -y ≤ 1 := by linarith
  have e0 : expP (-0) * (2:ℝ)^(-0:ℝ) = 1 := by unfold expP; norm_num
  have hi : interior (Set.Icc (0:ℝ) 1) ⊆ Set.Icc 0 1 := interior_subset
  have M1 : MonotoneOn (fun t => (expB t + 3/10^9 * t) + expP (-t) * (2:ℝ)^(-t)) (Set.Icc 0 1) := by
    have hd : ∀ t, HasDerivAt (fun t => (expB t + 3/10^9 * t) + expP (-t) * (2:ℝ)^(-t)) ((expA t + 3/10^9 * 1) + -((expD (-t) + (log 2 - 287209/414355) * expP (-t)) * (2:ℝ)^(-t))) t :=
      fun t => ((expB_hasDerivAt t).add ((hasDerivAt_id t).const_mul _)).add (exp_neg_hasDerivAt t)
    refine monotoneOn_of_hasDerivWithinAt_nonneg (convex_Icc 0 1) (fun t _ => (hd t).continuousAt.continuousWithinAt) (fun t _ => (hd t).hasDerivWithinAt) (fun t ht => ?_)
    linarith [(key t (hi ht)).2]
  have M2 : MonotoneOn (fun t => 3/10^9 * t - expP (-t) * (2:ℝ)^(-t)) (Set.Icc 0 1) := by
    have hd : ∀ t, HasDerivAt (fun t => 3/10^9 * t - expP (-t) * (2:ℝ)^(-t)) (3/10^9 * 1 - -((expD (-t) + (log 2 - 287209/414355) * expP (-t)) * (2:ℝ)^(-t))) t :=
      fun t => ((hasDerivAt_id t).const_mul _).sub (exp_neg_hasDerivAt t)
    refine monotoneOn_of_hasDerivWithinAt_nonneg (convex_Icc 0 1) (fun t _ => (hd t).continuousAt.continuousWithinAt) (fun t _ => (hd t).hasDerivWithinAt) (fun t ht => ?_)
    linarith [(key t (hi ht)).1]
  have m1 := M1 ⟨le_rfl, zero_le_one⟩ ⟨t0, t1⟩ t0
  have m2 := M2 ⟨le_rfl, zero_le_one⟩ ⟨t0, t1⟩ t0
  simp only [e0, neg_neg] at m1 m2
  have b0 : expB 0 = 0 := by unfold expB; norm_num
  have b1 : expB (-y) ≤ 19/10^6 := by
    have k : ∀ {a c A : ℝ}, (0 ≤ a ∧ a ≤ A) → 0 ≤ c → 0 ≤ a * -y + c ∧ a * -y + c ≤ A + c := by
      intro a c A h h4
      exact ⟨by have := mul_nonneg h.1 t0; linarith, by have := mul_le_mul_of_nonneg_left t1 h.1; linarith [h.2]⟩
    unfold expB
    refine (k (k (k (k (k (k (k (k (k ⟨le_rfl, le_rfl⟩ ?_) ?_) ?_) ?_) ?_) ?_) ?_) ?_) ?_).2.trans ?_
    all_goals norm_num
  rw [abs_le]
  constructor <;> norm_num at * <;> linarith
end DXM.Trig

