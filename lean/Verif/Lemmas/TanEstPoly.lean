import Verif.Lemmas.TrigPoly
import Mathlib.Analysis.Calculus.MeanValue
import Mathlib.Analysis.SpecialFunctions.Trigonometric.Deriv
import Mathlib.Analysis.Calculus.Deriv.Pow

/-
Generated (script gentanest.py, not part of the build).  The rational approximation of the tangent used by XMVectorTanEst on
|y| ≤ 1.562, by Bernstein certificates on [0, 2.44].
-/

set_option linter.all false
set_option maxRecDepth 4000

namespace DXM.Trig


noncomputable def teT0 : ℝ := (10418651/4194304)
noncomputable def teT1 : ℝ := (-13119267/67108864)
noncomputable def teT2 : ℝ := (5174515/2097152)
theorem tanE_U (t d : ℝ) (ht : 0 ≤ t) (hd : 0 ≤ d) (h : d = (61/25) - t) : 0 ≤ (1 + 68/10000) * (sinS t * (teT2 - t)) - (teT0 + teT1 * t) * cosS t - 1/10^7 := by
  have e : (1 + 68/10000) * (sinS t * (teT2 - t)) - (teT0 + teT1 * t) * cosS t - 1/10^7 = (5737186962890625/98097607467517217865728) * t^0 * d^9 + (10821081280419921875/784780859740137742925824) * t^1 * d^8 + (392951571172744140625/4708685158440826457554944) * t^2 * d^7 + (85375815562581748671875/395529553309029422434615296) * t^3 * d^6 + (90756935079341306646875/296647164981772066825961472) * t^4 * d^5 + (159767997391693964729316125/626518812441502605136430628864) * t^5 * d^4 + (6062812089807113783993357323/48868467370437203200641589051392) * t^6 * d^3 + (368388361646153566082756149271/11402642386435347413483037445324800) * t^7 * d^2 + (385888797048640515513346624897/111064698569175461819639975116800000) * t^8 * d^1 + (98984019005826678333501146273/2850660596608836853370759361331200000) * t^9 * d^0 := by rw [h]; unfold sinS cosS teT0 teT1 teT2; ring
  rw [e]; positivity
theorem tanE_L (t d : ℝ) (ht : 0 ≤ t) (hd : 0 ≤ d) (h : d = (61/25) - t) : 0 ≤ (teT0 + teT1 * t) * cosS t - (1 - 68/10000) * (sinS t * (teT2 - t)) - 1/10^7 := by
  have e : (teT0 + teT1 * t) * cosS t - (1 - 68/10000) * (sinS t * (teT2 - t)) - 1/10^7 = (17509333447265625/1608157499467495374848) * t^0 * d^9 + (2680544915966796875/38595779987219888996352) * t^1 * d^8 + (4974971388017578125/25730519991479925997568) * t^2 * d^7 + (2009731719557457265625/6484091037852941351387136) * t^3 * d^6 + (18574209650401008934375/58356819340676472162484224) * t^4 * d^5 + (250601196022674729721375/1141200022662117677844135936) * t^5 * d^4 + (897772653496026456133423/8803543031964907800511905792) * t^6 * d^3 + (49895803476379423003723454749/1682357073408493880677825196851200) * t^7 * d^2 + (195962875355015252406920278693/46732140928013718907717366579200000) * t^8 * d^1 + (18098208482136028457946395987/420589268352123470169456299212800000) * t^9 * d^0 := by rw [h]; unfold sinS cosS teT0 teT1 teT2; ring
  rw [e]; positivity
/-- The Taylor polynomial of the sine, relative error. -/
theorem taylor_rel (y : ℝ) (h : |y| ≤ 8/5) : |Real.sin y - y * sinS (y^2)| ≤ 1/10^9 * |y| := by
  have hx := abs_le.1 h
  have hd : ∀ s : ℝ, HasDerivAt (fun s => s * sinS (s^2)) (cosS (s^2)) s := by
    intro s
    have e : (fun s : ℝ => s * sinS (s^2)) = fun s => (1) * s^1 + (-1/6) * s^3 + (1/120) * s^5 + (-1/5040) * s^7 + (1/362880) * s^9 + (-1/39916800) * s^11 + (1/6227020800) * s^13 + (-1/1307674368000) * s^15 := by funext s; unfold sinS; ring
    rw [e]
    refine ((((((((((hasDerivAt_pow 1 s).const_mul (1)).add ((hasDerivAt_pow 3 s).const_mul (-1/6))).add ((hasDerivAt_pow 5 s).const_mul (1/120))).add ((hasDerivAt_pow 7 s).const_mul (-1/5040))).add ((hasDerivAt_pow 9 s).const_mul (1/362880))).add ((hasDerivAt_pow 11 s).const_mul (-1/39916800))).add ((hasDerivAt_pow 13 s).const_mul (1/6227020800))).add ((hasDerivAt_pow 15 s).const_mul (-1/1307674368000)))).congr_deriv ?_
    unfold cosS; norm_num; ring
  have key := (convex_Icc (-(8/5:ℝ)) (8/5)).norm_image_sub_le_of_norm_hasDerivWithin_le
    (f := fun u => Real.sin u - u * sinS (u^2)) (f' := fun u => Real.cos u - cosS (u^2)) (C := 1/10^9)
    (fun u hu => ((Real.hasDerivAt_sin u).sub (hd u)).hasDerivWithinAt)
    (fun u hu => (taylor u (abs_le.2 ⟨by linarith [hu.1], hu.2⟩)).2)
    (x := 0) (y := y) ⟨by norm_num, by norm_num⟩ ⟨by linarith [hx.1], hx.2⟩
  simpa using key
/-- The rational function of `XMVectorTanEst` approximates the tangent. -/
theorem tanE_close (y : ℝ) (h : |y| ≤ 1562/1000) : 0 < Real.cos y ∧
    |y * (teT0 + teT1 * y^2) / (teT2 - y^2) - Real.tan y| ≤ 68/10000 * |Real.tan y| := by
  have hs : y^2 ≤ 244/100 := by rw [← sq_abs]; nlinarith [abs_nonneg y]
  have hD : 27/1000 ≤ teT2 - y^2 := by unfold teT2; norm_num; linarith
  have hc : 0 < Real.cos y := by
    apply Real.cos_pos_of_mem_Ioo
    have hpi := Real.pi_gt_d4
    norm_num at hpi
    have := abs_le.1 h
    constructor <;> norm_num at this ⊢ <;> linarith [this.1, this.2]
  refine ⟨hc, ?_⟩
  obtain ⟨-, t2⟩ := taylor y (h.trans (by norm_num))
  have t1 := taylor_rel y (h.trans (by norm_num))
  have hU := tanE_U (y^2) (61/25 - y^2) (sq_nonneg y) (by linarith) rfl
  have hL := tanE_L (y^2) (61/25 - y^2) (sq_nonneg y) (by linarith) rfl
  have hN : 0 ≤ teT0 + teT1 * y^2 ∧ teT0 + teT1 * y^2 ≤ 5/2 := by
    have := sq_nonneg y
    unfold teT0 teT1; constructor <;> linarith
  have hD2 : teT2 - y^2 ≤ 5/2 := by have := sq_nonneg y; unfold teT2; linarith
  -- with sin y = y S, |S - sinS| ≤ 1e-9
  rcases eq_or_ne y 0 with rfl | hy
  · simp
  obtain ⟨S, hS⟩ : ∃ S, Real.sin y = y * S := ⟨Real.sin y / y, by field_simp⟩
  have hS1 : |S - sinS (y^2)| ≤ 1/10^9 := by
    rw [hS, ← mul_sub, abs_mul, mul_comm] at t1
    exact le_of_mul_le_mul_right t1 (abs_pos.2 hy)
  set s := y^2
  set K := cosS s
  set Z := sinS s
  set D := teT2 - s
  set N := teT0 + teT1 * s
  set C := Real.cos y
  have a1 := abs_le.1 hS1
  have a2 := abs_le.1 t2
  have p1 : |(S - Z) * D| ≤ 1/10^9 * (5/2) := by
    rw [abs_mul, abs_of_pos (show 0 < D by linarith)]; exact mul_le_mul hS1 hD2 (by linarith) (by norm_num)
  have p2 : |N * (C - K)| ≤ 5/2 * (1/10^9) := by
    rw [abs_mul, abs_of_nonneg hN.1]; exact mul_le_mul hN.2 t2 (abs_nonneg _) (by norm_num)
  have q1 := abs_le.1 p1; have q2 := abs_le.1 p2
  have eU : N * C ≤ (1 + 68/10000) * (S * D) := by norm_num at q1 q2 hU ⊢; nlinarith [q1.1, q1.2, q2.1, q2.2]
  have eL : (1 - 68/10000) * (S * D) ≤ N * C := by norm_num at q1 q2 hL ⊢; nlinarith [q1.1, q1.2, q2.1, q2.2]
  have e : y * N / D - Real.tan y = y * (N * C - S * D) / (D * C) := by
    rw [Real.tan_eq_sin_div_cos, hS]; change y * N / D - y * S / C = _; field_simp
  have eT : Real.tan y = y * S / C := by rw [Real.tan_eq_sin_div_cos, hS]
  have hDp : 0 < D := by linarith
  have hSD : 0 ≤ S * D := by linarith
  have hS0 : 0 ≤ S := by by_contra g; push Not at g; nlinarith
  rw [e, eT, abs_div, abs_div, abs_of_pos (mul_pos hDp hc), abs_of_pos hc, abs_mul, abs_mul, abs_of_nonneg hS0]
  rw [div_le_iff₀ (mul_pos hDp hc)]
  have g : |N * C - S * D| ≤ 68/10000 * (S * D) := by rw [abs_le]; constructor <;> linarith
  calc |y| * |N * C - S * D| ≤ |y| * (68/10000 * (S * D)) := mul_le_mul_of_nonneg_left g (abs_nonneg _)
    _ = 68/10000 * (|y| * S / C) * (D * C) := by field_simp

end DXM.Trig
