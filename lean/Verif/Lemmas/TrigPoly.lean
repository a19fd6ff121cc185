import Mathlib.Analysis.SpecialFunctions.Trigonometric.Bounds
import Mathlib.Analysis.Complex.Exponential
import Mathlib.Analysis.Real.Pi.Bounds
import Mathlib.Tactic.NormNum.NatFactorial

/-
Generated (script gentrig.py, not part of the build).  Polynomial approximations of sine and cosine on |y| ≤ 1.5708:
Taylor remainder from `Complex.exp_bound'`, polynomial differences by Bernstein certificates on [0, 2.4675].
-/

set_option linter.all false
set_option maxRecDepth 4000

namespace DXM.Trig

noncomputable def sinS (t : ℝ) : ℝ := ((((((((-1/1307674368000) * t + (1/6227020800)) * t + (-1/39916800)) * t + (1/362880)) * t + (-1/5040)) * t + (1/120)) * t + (-1/6)) * t + (1))
noncomputable def cosS (t : ℝ) : ℝ := ((((((((-1/87178291200) * t + (1/479001600)) * t + (-1/3628800)) * t + (1/40320)) * t + (-1/720)) * t + (1/24)) * t + (-1/2)) * t + (1))

theorem taylor (y : ℝ) (h : |y| ≤ 8/5) : |Real.sin y - y * sinS (y^2)| ≤ 1/10^9 ∧ |Real.cos y - cosS (y^2)| ≤ 1/10^9 := by
  have hb := Complex.exp_bound' (x := (y : ℂ) * Complex.I) (n := 16) (by
    rw [norm_mul, Complex.norm_I, mul_one, Complex.norm_real, Real.norm_eq_abs]; push_cast; linarith)
  rw [norm_mul, Complex.norm_I, mul_one, Complex.norm_real, Real.norm_eq_abs] at hb
  have hle : |y| ^ 16 / (Nat.factorial 16 : ℝ) * 2 ≤ 1/10^9 := by
    have : |y| ^ 16 ≤ (8/5)^16 := pow_le_pow_left₀ (abs_nonneg y) h 16
    norm_num [Nat.factorial] at this ⊢
    linarith
  have hb := hb.trans hle
  set z := Complex.exp (y * Complex.I) - ∑ m ∈ Finset.range 16, (y * Complex.I) ^ m / (m.factorial : ℂ) with hz
  have hI : ∀ k : ℕ, Complex.I ^ (k + 2) = - Complex.I ^ k := fun k => by rw [pow_add, Complex.I_sq]; ring
  have hs : (∑ m ∈ Finset.range 16, (y * Complex.I) ^ m / (m.factorial : ℂ)) = ((cosS (y^2) : ℝ) : ℂ) + ((y * sinS (y^2) : ℝ) : ℂ) * Complex.I := by
    simp only [Finset.sum_range_succ, Finset.sum_range_zero, mul_pow, hI, pow_one, pow_zero]
    simp only [Nat.factorial, cosS, sinS]
    push_cast
    ring
  have he : Complex.exp (y * Complex.I) = ((Real.cos y : ℝ) : ℂ) + ((Real.sin y : ℝ) : ℂ) * Complex.I := by
    rw [Complex.exp_mul_I, Complex.ofReal_cos, Complex.ofReal_sin]
  have hre : z.re = Real.cos y - cosS (y^2) := by
    rw [hz, hs, he]; simp; rfl
  have him : z.im = Real.sin y - y * sinS (y^2) := by
    rw [hz, hs, he]; simp; rfl
  exact ⟨by rw [← him]; exact (Complex.abs_im_le_norm z).trans hb, by rw [← hre]; exact (Complex.abs_re_le_norm z).trans hb⟩
noncomputable def sinP (t : ℝ) : ℝ := ((((((-13448795/562949953421312) * t + (6052935/2199023255552)) * t + (-13634545/68719476736)) * t + (4473923/536870912)) * t + (-11184811/67108864)) * t + (1))
theorem sinP_ub (t d : ℝ) (ht : 0 ≤ t) (hd : 0 ≤ d) (h : d = (987/400) - t) : 0 ≤ (29/2000000000) - (sinP t - sinS t) := by
  have e : (29/2000000000) - (sinP t - sinS t) = (23756800000/912473096871571914483) * t^0 * d^7 + (11833534375/57934799801369645364) * t^1 * d^6 + (5224934621875/7415654374575314606592) * t^2 * d^5 + (172717651994703125/136685341432172198828703744) * t^3 * d^4 + (97549431767026034375/69982894813272165800296316928) * t^4 * d^3 + (328577452102866182008525/350349923189643411366461206167552) * t^5 * d^2 + (977690013674096074717319/2927924358084877080705425794400256) * t^6 * d^1 + (1863277984772337540420771323/35867073386539744238641465981403136000) * t^7 * d^0 := by rw [h]; unfold sinP sinS; ring
  rw [e]; positivity
theorem sinP_lb (t d : ℝ) (ht : 0 ≤ t) (hd : 0 ≤ d) (h : d = (987/400) - t) : 0 ≤ (29/2000000000) + (sinP t - sinS t) := by
  have e : (29/2000000000) + (sinP t - sinS t) = (23756800000/912473096871571914483) * t^0 * d^7 + (11936084375/74487599744618115468) * t^1 * d^6 + (8652159334375/22246963123725943819776) * t^2 * d^5 + (76390451173296875/136685341432172198828703744) * t^3 * d^4 + (3332657450554440625/7775877201474685088921812992) * t^4 * d^3 + (163586268596352033174425/1051049769568930234099383618502656) * t^5 * d^2 + (626740966163506241778767/20495470506594139564937980560801792) * t^6 * d^1 + (4364780698207150779228677/35867073386539744238641465981403136000) * t^7 * d^0 := by rw [h]; unfold sinP sinS; ring
  rw [e]; positivity
theorem sinP_close (y : ℝ) (h : |y| ≤ 15708/10000) : |sinP (y^2) - sinS (y^2)| ≤ (29/2000000000) := by
  have h2 : y^2 ≤ (987/400) := by
    have := pow_le_pow_left₀ (abs_nonneg y) h 2; rw [sq_abs] at this; norm_num at this ⊢; linarith
  have a := sinP_ub (y^2) _ (sq_nonneg y) (sub_nonneg.2 h2) rfl
  have b := sinP_lb (y^2) _ (sq_nonneg y) (sub_nonneg.2 h2) rfl
  rw [abs_le]; constructor <;> linarith
noncomputable def cosP (t : ℝ) : ℝ := ((((((-9166097/35184372088832) * t + (6806113/274877906944)) * t + (-5965013/4294967296)) * t + (11184803/268435456)) * t + (-1/2)) * t + (1))
theorem cosP_ub (t d : ℝ) (ht : 0 ≤ t) (hd : 0 ≤ d) (h : d = (987/400) - t) : 0 ≤ (7/400000000) - (cosP t - cosS t) := by
  have e : (7/400000000) - (cosP t - cosS t) = (4096000000/130353299553081702069) * t^0 * d^7 + (4096000000/18621899936154528867) * t^1 * d^6 + (514912703125/529689598183951043328) * t^2 * d^5 + (1566066850859375/1220404834215823203827712) * t^3 * d^4 + (1807639579862684375/1249694550237002960719577088) * t^4 * d^3 + (1065150904363593113225/853124812961794021184564625408) * t^5 * d^2 + (5291945969182309815209/14076559413869601349545316319232) * t^6 * d^1 + (4018347348353079444986587/64048345333106686140431189252505600) * t^7 * d^0 := by rw [h]; unfold cosP cosS; ring
  rw [e]; positivity
theorem cosP_lb (t d : ℝ) (ht : 0 ≤ t) (hd : 0 ≤ d) (h : d = (987/400) - t) : 0 ≤ (7/400000000) + (cosP t - cosS t) := by
  have e : (7/400000000) + (cosP t - cosS t) = (4096000000/130353299553081702069) * t^0 * d^7 + (4096000000/18621899936154528867) * t^1 * d^6 + (552413890625/1589068794551853129984) * t^2 * d^5 + (1118287709140625/1220404834215823203827712) * t^3 * d^4 + (941139489577315625/1249694550237002960719577088) * t^4 * d^3 + (60749002479030886775/853124812961794021184564625408) * t^5 * d^2 + (900503518452122184791/14076559413869601349545316319232) * t^6 * d^1 + (6744818609301355013413/64048345333106686140431189252505600) * t^7 * d^0 := by rw [h]; unfold cosP cosS; ring
  rw [e]; positivity
theorem cosP_close (y : ℝ) (h : |y| ≤ 15708/10000) : |cosP (y^2) - cosS (y^2)| ≤ (7/400000000) := by
  have h2 : y^2 ≤ (987/400) := by
    have := pow_le_pow_left₀ (abs_nonneg y) h 2; rw [sq_abs] at this; norm_num at this ⊢; linarith
  have a := cosP_ub (y^2) _ (sq_nonneg y) (sub_nonneg.2 h2) rfl
  have b := cosP_lb (y^2) _ (sq_nonneg y) (sub_nonneg.2 h2) rfl
  rw [abs_le]; constructor <;> linarith
noncomputable def sinEP (t : ℝ) : ℝ := ((((-1591257/8589934592) * t + (2231759/268435456)) * t + (-1398033/8388608)) * t + (1))
theorem sinEP_ub (t d : ℝ) (ht : 0 ≤ t) (hd : 0 ≤ d) (h : d = (987/400) - t) : 0 ≤ (11/5000000) - (sinEP t - sinS t) := by
  have e : (11/5000000) - (sinEP t - sinS t) = (230686720000000000000/877347265250300669935309761849) * t^0 * d^10 + (22134550000000000000/97483029472255629992812195761) * t^1 * d^9 + (1262276057324218750000/292449088416766889978436587283) * t^2 * d^8 + (320689553192847900390625/9358370829336540479309970793056) * t^3 * d^7 + (381360981937243701171875/4010730355429945919704273197024) * t^4 * d^6 + (637138412761816504296875/4902003767747711679638556129696) * t^5 * d^5 + (18014306277827128507296875/191178146942160755505903689058144) * t^6 * d^4 + (135229769574279442597850375/4014741085785375865623977470221024) * t^7 * d^3 + (5707614940279122529662875/1338247028595125288541325823407008) * t^8 * d^2 + (1079763535615041266894875/4014741085785375865623977470221024) * t^9 * d^1 + (1063533068699064036194125/4014741085785375865623977470221024) * t^10 * d^0 := by rw [h]; unfold sinEP sinS; ring
  rw [e]; positivity
theorem sinEP_lb (t d : ℝ) (ht : 0 ≤ t) (hd : 0 ≤ d) (h : d = (987/400) - t) : 0 ≤ (11/5000000) + (sinEP t - sinS t) := by
  have e : (11/5000000) + (sinEP t - sinS t) = (230686720000000000000/877347265250300669935309761849) * t^0 * d^10 + (4414523450000000000000/877347265250300669935309761849) * t^1 * d^9 + (5658325542675781250000/292449088416766889978436587283) * t^2 * d^8 + (89956150002384033203125/3119456943112180159769990264352) * t^3 * d^7 + (61557520462756298828125/4010730355429945919704273197024) * t^4 * d^6 + (1386154528687055078125/544667085305301297737617347744) * t^5 * d^5 + (1032714112190957164234375/63726048980720251835301229686048) * t^6 * d^4 + (118119613798520557402149625/4014741085785375865623977470221024) * t^7 * d^3 + (25961057981320877470337125/1338247028595125288541325823407008) * t^8 * d^2 + (20032685078784958733105125/4014741085785375865623977470221024) * t^9 * d^1 + (1047711792740935963805875/4014741085785375865623977470221024) * t^10 * d^0 := by rw [h]; unfold sinEP sinS; ring
  rw [e]; positivity
theorem sinEP_close (y : ℝ) (h : |y| ≤ 15708/10000) : |sinEP (y^2) - sinS (y^2)| ≤ (11/5000000) := by
  have h2 : y^2 ≤ (987/400) := by
    have := pow_le_pow_left₀ (abs_nonneg y) h 2; rw [sq_abs] at this; norm_num at this ⊢; linarith
  have a := sinEP_ub (y^2) _ (sq_nonneg y) (sub_nonneg.2 h2) rfl
  have b := sinEP_lb (y^2) _ (sq_nonneg y) (sub_nonneg.2 h2) rfl
  rw [abs_le]; constructor <;> linarith
noncomputable def cosEP (t : ℝ) : ℝ := ((((-10919899/8589934592) * t + (11138439/268435456)) * t + (-8387391/16777216)) * t + (1))
theorem cosEP_ub (t d : ℝ) (ht : 0 ≤ t) (hd : 0 ≤ d) (h : d = (987/400) - t) : 0 ≤ (19/1000000) - (cosEP t - cosS t) := by
  have e : (19/1000000) - (cosEP t - cosS t) = (1992294400000000000000/877347265250300669935309761849) * t^0 * d^10 + (1154522125000000000000/877347265250300669935309761849) * t^1 * d^9 + (10341715597167968750000/292449088416766889978436587283) * t^2 * d^8 + (2777424497583406982421875/9358370829336540479309970793056) * t^3 * d^7 + (1110835249459506982421875/1336910118476648639901424399008) * t^4 * d^6 + (1519562333206889747265625/1336910118476648639901424399008) * t^5 * d^5 + (12069923259288575761203125/14706011303243135038915668389088) * t^6 * d^4 + (11739812157228902224744375/40552940260458342077009873436576) * t^7 * d^3 + (5097716697955739101125625/148694114288347254282369535934112) * t^8 * d^2 + (6492141844101767816610625/4014741085785375865623977470221024) * t^9 * d^1 + (9123969087527112812224375/4014741085785375865623977470221024) * t^10 * d^0 := by rw [h]; unfold cosEP cosS; ring
  rw [e]; positivity
theorem cosEP_lb (t d : ℝ) (ht : 0 ≤ t) (hd : 0 ≤ d) (h : d = (987/400) - t) : 0 ≤ (19/1000000) + (cosEP t - cosS t) := by
  have e : (19/1000000) + (cosEP t - cosS t) = (1992294400000000000000/877347265250300669935309761849) * t^0 * d^10 + (38691365875000000000000/877347265250300669935309761849) * t^1 * d^9 + (49427116402832031250000/292449088416766889978436587283) * t^2 * d^8 + (2322849166416593017578125/9358370829336540479309970793056) * t^3 * d^7 + (54744388846831005859375/445636706158882879967141466336) * t^4 * d^6 + (10519765993110252734375/1336910118476648639901424399008) * t^5 * d^5 + (651943105570474746265625/4902003767747711679638556129696) * t^6 * d^4 + (31084121160313293325766875/121658820781375026231029620309728) * t^7 * d^3 + (75874241650132782696623125/446082342865041762847108607802336) * t^8 * d^2 + (175842641643898232183389375/4014741085785375865623977470221024) * t^9 * d^1 + (9109509261272887187775625/4014741085785375865623977470221024) * t^10 * d^0 := by rw [h]; unfold cosEP cosS; ring
  rw [e]; positivity
theorem cosEP_close (y : ℝ) (h : |y| ≤ 15708/10000) : |cosEP (y^2) - cosS (y^2)| ≤ (19/1000000) := by
  have h2 : y^2 ≤ (987/400) := by
    have := pow_le_pow_left₀ (abs_nonneg y) h 2; rw [sq_abs] at this; norm_num at this ⊢; linarith
  have a := cosEP_ub (y^2) _ (sq_nonneg y) (sub_nonneg.2 h2) rfl
  have b := cosEP_lb (y^2) _ (sq_nonneg y) (sub_nonneg.2 h2) rfl
  rw [abs_le]; constructor <;> linarith
theorem sinP_sin (y : ℝ) (h : |y| ≤ 15708/10000) : |y * sinP (y^2) - Real.sin y| ≤ (1/40000000) := by
  have a := (taylor y (by linarith)).1
  have b := sinP_close y h
  have e : y * sinP (y^2) - Real.sin y = y * (sinP (y^2) - sinS (y^2)) - (Real.sin y - y * sinS (y^2)) := by ring
  rw [e]
  refine (abs_sub _ _).trans ?_
  rw [abs_mul]
  have := mul_le_mul h b (abs_nonneg _) (by norm_num)
  norm_num at *; linarith
theorem sinEP_sin (y : ℝ) (h : |y| ≤ 15708/10000) : |y * sinEP (y^2) - Real.sin y| ≤ (7/2000000) := by
  have a := (taylor y (by linarith)).1
  have b := sinEP_close y h
  have e : y * sinEP (y^2) - Real.sin y = y * (sinEP (y^2) - sinS (y^2)) - (Real.sin y - y * sinS (y^2)) := by ring
  rw [e]
  refine (abs_sub _ _).trans ?_
  rw [abs_mul]
  have := mul_le_mul h b (abs_nonneg _) (by norm_num)
  norm_num at *; linarith
theorem cosP_cos (y : ℝ) (h : |y| ≤ 15708/10000) : |cosP (y^2) - Real.cos y| ≤ (19/1000000000) := by
  have a := (taylor y (by linarith)).2
  have b := cosP_close y h
  have e : cosP (y^2) - Real.cos y = (cosP (y^2) - cosS (y^2)) - (Real.cos y - cosS (y^2)) := by ring
  rw [e]
  refine (abs_sub _ _).trans ?_
  norm_num at *; linarith
theorem cosEP_cos (y : ℝ) (h : |y| ≤ 15708/10000) : |cosEP (y^2) - Real.cos y| ≤ (1/50000) := by
  have a := (taylor y (by linarith)).2
  have b := cosEP_close y h
  have e : cosEP (y^2) - Real.cos y = (cosEP (y^2) - cosS (y^2)) - (Real.cos y - cosS (y^2)) := by ring
  rw [e]
  refine (abs_sub _ _).trans ?_
  norm_num at *; linarith

end DXM.Trig
