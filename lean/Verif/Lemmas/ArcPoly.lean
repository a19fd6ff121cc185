import Mathlib.Analysis.SpecialFunctions.Trigonometric.InverseDeriv
import Mathlib.Analysis.SpecialFunctions.Trigonometric.ArctanDeriv
import Mathlib.Analysis.Calculus.MeanValue
import Mathlib.Analysis.Calculus.Deriv.Pow
import Mathlib.Tactic.Positivity
import Mathlib.Tactic.Linarith

/-
Generated (script genarc.py, not part of the build).  Polynomial approximations of arccos on [0,1] and arctan on [-1,1]:
the derivative of the difference is bounded by Bernstein certificates, then the mean value inequality.
-/

set_option linter.all false
set_option maxRecDepth 4000

namespace DXM.Trig
open Real

theorem le_of_sq_le_sq {a b : ℝ} (h : a^2 ≤ b^2) (hb : 0 ≤ b) : a ≤ b := (le_abs_self a).trans (abs_le_of_sq_le_sq h hb)
noncomputable def arcH (x : ℝ) : ℝ := (((((((((((((0) * x + (-19983403729045/144115188075855872)) * x + (144165394672693/144115188075855872)) * x + (-490577807262591/144115188075855872)) * x + (1077280300813759/144115188075855872)) * x + (-896589025180345/72057594037927936)) * x + (1280655366607945/72057594037927936)) * x + (-1739957521760943/72057594037927936)) * x + (2424287239395935/72057594037927936)) * x + (-7319478669188873/144115188075855872)) * x + (12833230988099529/144115188075855872)) * x + (-30927383464695315/144115188075855872)) * x + (226375608062905587/144115188075855872))
noncomputable def arcHQ (t : ℝ) : ℝ := ((((((((((((((0) * t + (0)) * t + (459618285768035/70368744177664)) * t + (-794346486641421/70368744177664)) * t + (175763140439349/17592186044416)) * t + (-156972495793975/35184372088832)) * t + (122261789217735/70368744177664)) * t + (1376649597661/35184372088832)) * t + (26906968793573/70368744177664)) * t + (13516013297601/35184372088832)) * t + (1944143199761/4398046511104)) * t + (4664814789105/8796093022208)) * t + (49758217104141/70368744177664)) * t + (49758216191343/35184372088832))
theorem arcH_U (t d : ℝ) (ht : 0 ≤ t) (hd : 0 ≤ d) (h : d = (1/2) - t) : 0 ≤ (arcHQ t + (3/100000000))^2 * (1 - t) - 2 := by
  have e : (arcHQ t + (3/100000000))^2 * (1 - t) - 2 = (16024225589950768996607228083681/22517998136852480000000000000000) * t^0 * d^23 + (9200383442485134197292027374219/562949953421312000000000000000) * t^1 * d^22 + (60285320543885031584711413982590957/360287970189639680000000000000000) * t^2 * d^21 + (946838183760793924794063362233350281/720575940379279360000000000000000) * t^3 * d^20 + (221523234416814481803132526224325541/36028797018963968000000000000000) * t^4 * d^19 + (3692585457154706338549007172949140317/180143985094819840000000000000000) * t^5 * d^18 + (36096493569642177415009113525329656033/576460752303423488000000000000000) * t^6 * d^17 + (992326303707908242063388208230427639393/5764607523034234880000000000000000) * t^7 * d^16 + (4161014975384179672778956570977696214349/11529215046068469760000000000000000) * t^8 * d^15 + (2499561661273135294021213384709315179709/4611686018427387904000000000000000) * t^9 * d^14 + (57822714015262953037387913419084190598981/92233720368547758080000000000000000) * t^10 * d^13 + (25361614627729630265884162516097071660627/36893488147419103232000000000000000) * t^11 * d^12 + (147990785892784053431580405963742461447599/184467440737095516160000000000000000) * t^12 * d^11 + (152048555116811764577593698799027301710111/184467440737095516160000000000000000) * t^13 * d^10 + (178750952133136548665209847081010330337761/295147905179352825856000000000000000) * t^14 * d^9 + (854863295133180819621385844287781385239603/2951479051793528258560000000000000000) * t^15 * d^8 + (3566878658561823132471409806164111834079/36893488147419103232000000000000000) * t^16 * d^7 + (28960136931456793022284355824822608532999/737869762948382064640000000000000000) * t^17 * d^6 + (32308083645097839654069707096648141281837/1475739525896764129280000000000000000) * t^18 * d^5 + (35883359606494552514175775295539431763987/4722366482869645213696000000000000000) * t^19 * d^4 + (89391788541576138656758228057523953655149/94447329657392904273920000000000000000) * t^20 * d^3 + (26142612231230543805317393256013817639/7555786372591432341913600000000000000) * t^21 * d^2 + (8272035705918628398935094890521520529527/377789318629571617095680000000000000000) * t^22 * d^1 + (278311913327205948718971884930413852721/755578637259143234191360000000000000000) * t^23 * d^0 := by rw [h]; unfold arcHQ; ring
  rw [e]; positivity
theorem arcH_L (t d : ℝ) (ht : 0 ≤ t) (hd : 0 ≤ d) (h : d = (1/2) - t) : 0 ≤ 2 - (arcHQ t - (3/100000000))^2 * (1 - t) := by
  have e : 2 - (arcHQ t - (3/100000000))^2 * (1 - t) = (16032261097416610501171971916319/22517998136852480000000000000000) * t^0 * d^23 + (9031743364630473102558212625781/562949953421312000000000000000) * t^1 * d^22 + (66642338359995348432882134817409043/360287970189639680000000000000000) * t^2 * d^21 + (809945445027032981546303383366649719/720575940379279360000000000000000) * t^3 * d^20 + (212561540870968543662825546095674459/36028797018963968000000000000000) * t^4 * d^19 + (4456726323021957393534588500650859683/180143985094819840000000000000000) * t^5 * d^18 + (41181389916910989254281302848430343967/576460752303423488000000000000000) * t^6 * d^17 + (860918097777858525052254288383972360607/5764607523034234880000000000000000) * t^7 * d^16 + (3156701040901432391085226281835103785651/11529215046068469760000000000000000) * t^8 * d^15 + (2314543111796159282600874483542844820291/4611686018427387904000000000000000) * t^9 * d^14 + (75144519862206200135437329914343009401019/92233720368547758080000000000000000) * t^10 * d^13 + (36619139103505954375103485409191888339373/36893488147419103232000000000000000) * t^11 * d^12 + (157465264522011067049959788838331138552401/184467440737095516160000000000000000) * t^12 * d^11 + (102592896452700548389441324567526298289889/184467440737095516160000000000000000) * t^13 * d^10 + (107831105292915568322730761810934629662239/295147905179352825856000000000000000) * t^14 * d^9 + (837570172936736299997739137321485814760397/2951479051793528258560000000000000000) * t^15 * d^8 + (6838825108715056222416422909755248165921/36893488147419103232000000000000000) * t^16 * d^7 + (55292266976597766139825926004758191467001/737869762948382064640000000000000000) * t^17 * d^6 + (22881378330446737807586283444049458718163/1475739525896764129280000000000000000) * t^18 * d^5 + (9751876715197653795718991490447128236013/4722366482869645213696000000000000000) * t^19 * d^4 + (89721298952146506486014006369253646344851/94447329657392904273920000000000000000) * t^20 * d^3 + (1980865172419466372402631629238706182361/7555786372591432341913600000000000000) * t^21 * d^2 + (664901139032532375858589849164879470473/377789318629571617095680000000000000000) * t^22 * d^1 + (482278443750233644113756731210386147279/755578637259143234191360000000000000000) * t^23 * d^0 := by rw [h]; unfold arcHQ; ring
  rw [e]; positivity
theorem arcH_pos (t d : ℝ) (ht : 0 ≤ t) (hd : 0 ≤ d) (h : d = (1/2) - t) : 0 ≤ arcHQ t - (3/100000000) := by
  have e : arcHQ t - (3/100000000) = (19436802787426498959/838860800000000) * t^0 * d^14 + (1107897759652189019829/3355443200000000) * t^1 * d^13 + (7334963433963188199201/3355443200000000) * t^2 * d^12 + (14953279268465061945277/1677721600000000) * t^3 * d^11 + (335598712350019573342969/13421772800000000) * t^4 * d^10 + (2741307076713721432446877/53687091200000000) * t^5 * d^9 + (2101316405558798959198439/26843545600000000) * t^6 * d^8 + (19656972498866723644870103/214748364800000000) * t^7 * d^7 + (8809736174560041005934381/107374182400000000) * t^8 * d^6 + (6024623610917743015284379/107374182400000000) * t^9 * d^5 + (49516275676673775398446907/1717986918400000000) * t^10 * d^4 + (37063222852103564830724171/3435973836800000000) * t^11 * d^3 + (9556074527857746246059949/3435973836800000000) * t^12 * d^2 + (1519964888678626556695521/3435973836800000000) * t^13 * d^1 + (112589988542515849501689/3435973836800000000) * t^14 * d^0 := by rw [h]; unfold arcHQ; ring
  rw [e]; positivity
theorem arcH_hasDerivAt (s : ℝ) : HasDerivAt (fun s => s * arcH (1 - 2 * s^2)) (arcHQ (s^2)) s := by
  have e : (fun s : ℝ => s * arcH (1 - 2 * s^2)) = fun s => (49758216191343/35184372088832) * s^1 + (16586072368047/70368744177664) * s^3 + (932962957821/8796093022208) * s^5 + (277734742823/4398046511104) * s^7 + (1501779255289/35184372088832) * s^9 + (2446088072143/70368744177664) * s^11 + (105896122897/35184372088832) * s^13 + (8150785947849/70368744177664) * s^15 + (-9233676223175/35184372088832) * s^17 + (9250691602071/17592186044416) * s^19 + (-37826023173401/70368744177664) * s^21 + (19983403729045/70368744177664) * s^23 + (0) * s^25 + (0) * s^27 := by funext s; unfold arcH; ring
  rw [e]
  refine (((((((((((((((hasDerivAt_pow 1 s).const_mul (49758216191343/35184372088832)).add ((hasDerivAt_pow 3 s).const_mul (16586072368047/70368744177664))).add ((hasDerivAt_pow 5 s).const_mul (932962957821/8796093022208))).add ((hasDerivAt_pow 7 s).const_mul (277734742823/4398046511104))).add ((hasDerivAt_pow 9 s).const_mul (1501779255289/35184372088832))).add ((hasDerivAt_pow 11 s).const_mul (2446088072143/70368744177664))).add ((hasDerivAt_pow 13 s).const_mul (105896122897/35184372088832))).add ((hasDerivAt_pow 15 s).const_mul (8150785947849/70368744177664))).add ((hasDerivAt_pow 17 s).const_mul (-9233676223175/35184372088832))).add ((hasDerivAt_pow 19 s).const_mul (9250691602071/17592186044416))).add ((hasDerivAt_pow 21 s).const_mul (-37826023173401/70368744177664))).add ((hasDerivAt_pow 23 s).const_mul (19983403729045/70368744177664))).add ((hasDerivAt_pow 25 s).const_mul (0))).add ((hasDerivAt_pow 27 s).const_mul (0))).congr_deriv ?_
  unfold arcHQ; norm_num; ring
theorem arcH_deriv_bound (s : ℝ) (h0 : 0 ≤ s) (h : s^2 ≤ 1/2) : |√2 * arcHQ (s^2) - 2 * (1 / √(1 - s^2))| ≤ √2 * (3/100000000) := by
  have hU := arcH_U (s^2) _ (sq_nonneg s) (sub_nonneg.2 h) rfl
  have hL := arcH_L (s^2) _ (sq_nonneg s) (sub_nonneg.2 h) rfl
  have hp := arcH_pos (s^2) _ (sq_nonneg s) (sub_nonneg.2 h) rfl
  set w := √(1 - s^2) with hw
  have hw0 : 0 < w := Real.sqrt_pos.2 (by linarith)
  have hw2 : w^2 = 1 - s^2 := Real.sq_sqrt (by linarith)
  have h2 : √(2:ℝ)^2 = 2 := Real.sq_sqrt (by norm_num)
  have h20 : 0 < √(2:ℝ) := Real.sqrt_pos.2 (by norm_num)
  rw [← hw2, ← mul_pow] at hU hL
  have a1 : √2 ≤ (arcHQ (s^2) + (3/100000000)) * w := by
    refine le_of_sq_le_sq ?_ (mul_nonneg (by linarith) hw0.le); linarith
  have a2 : (arcHQ (s^2) - (3/100000000)) * w ≤ √2 := by
    refine le_of_sq_le_sq ?_ h20.le; linarith
  have b1 : √2 / w ≤ arcHQ (s^2) + (3/100000000) := (div_le_iff₀ hw0).2 a1
  have b2 : arcHQ (s^2) - (3/100000000) ≤ √2 / w := (le_div_iff₀ hw0).2 a2
  have e : 2 * (1 / w) = √2 * (√2 / w) := by rw [show √2 * (√2 / w) = √2^2 / w by ring, h2]; ring
  rw [e, ← mul_sub, abs_mul, abs_of_pos h20]
  refine mul_le_mul_of_nonneg_left ?_ h20.le
  rw [abs_le]; constructor <;> linarith
theorem arcH_arccos (x : ℝ) (h0 : 0 ≤ x) (h1 : x ≤ 1) : |√(1 - x) * arcH x - arccos x| ≤ (3/100000000) := by
  set s := √((1 - x)/2) with hs
  have s0 : 0 ≤ s := Real.sqrt_nonneg _
  have s2 : s^2 = (1 - x)/2 := Real.sq_sqrt (by linarith)
  have h2 : √(2:ℝ)^2 = 2 := Real.sq_sqrt (by norm_num)
  have h20 : 0 < √(2:ℝ) := Real.sqrt_pos.2 (by norm_num)
  have e1 : √(1 - x) = √2 * s := by
    rw [hs, ← Real.sqrt_mul (by norm_num)]; congr 1; ring
  have e2 : arccos x = 2 * arcsin s := by
    have hh : s = sin (arccos x / 2) := by
      rw [sin_half_eq_sqrt (arccos_nonneg x) (by linarith [arccos_le_pi x, pi_pos]), cos_arccos (by linarith) h1]
    rw [hh, arcsin_sin (by linarith [arccos_nonneg x, pi_pos]) (by linarith [arccos_le_pi x])]; ring
  have key := (convex_Icc (0:ℝ) s).norm_image_sub_le_of_norm_hasDerivWithin_le
    (f := fun u => √2 * (u * arcH (1 - 2 * u^2)) - 2 * arcsin u) (f' := fun u => √2 * arcHQ (u^2) - 2 * (1 / √(1 - u^2))) (C := √2 * (3/100000000))
    (fun u hu => by
      have hu2 : u^2 ≤ 1/2 := by
        have := pow_le_pow_left₀ hu.1 hu.2 2; linarith
      have hul : u < 1 := by nlinarith [hu.1]
      exact (((arcH_hasDerivAt u).const_mul _).sub ((hasDerivAt_arcsin (by linarith [hu.1]) hul.ne).const_mul 2)).hasDerivWithinAt)
    (fun u hu => by
      have hu2 : u^2 ≤ 1/2 := by
        have := pow_le_pow_left₀ hu.1 hu.2 2; linarith
      exact arcH_deriv_bound u hu.1 hu2)
    (Set.left_mem_Icc.2 s0) (Set.right_mem_Icc.2 s0)
  simp only [Real.norm_eq_abs, arcsin_zero, mul_zero, zero_mul, sub_zero] at key
  rw [e1, e2, show x = 1 - 2 * s^2 by rw [s2]; ring, show √2 * s * arcH (1 - 2 * s^2) = √2 * (s * arcH (1 - 2 * s^2)) by ring]
  refine key.trans ?_
  rw [abs_of_nonneg s0]
  have : √2 * s ≤ 1 := by
    rw [← e1]; exact Real.sqrt_le_one.2 (by linarith)
  nlinarith
noncomputable def atH (t : ℝ) : ℝ := (((((((((((((7375133125/17592186044416) * t + (-224858025803/70368744177664)) * t + (201037025931/17592186044416)) * t + (-915004560141/35184372088832)) * t + (3071355527285/70368744177664)) * t + (-2118871931559/35184372088832)) * t + (5274321959697/70368744177664)) * t + (-6367793671667/70368744177664)) * t + (7814664881601/70368744177664)) * t + (-5026166931501/35184372088832)) * t + (7036866795485/35184372088832)) * t + (-1466015486915/4398046511104)) * t + (8796093022109/8796093022208))
noncomputable def atHD (t : ℝ) : ℝ := (((((((((((((184378328125/17592186044416) * t + (-5171734593469/70368744177664)) * t + (4221777544551/17592186044416)) * t + (-17385086642679/35184372088832)) * t + (52213043963845/70368744177664)) * t + (-31783078973385/35184372088832)) * t + (68566185476061/70368744177664)) * t + (-70045730388337/70368744177664)) * t + (70331983934409/70368744177664)) * t + (-35183168520507/35184372088832)) * t + (35184333977425/35184372088832)) * t + (-4398046460745/4398046511104)) * t + (8796093022109/8796093022208))
theorem atH_U (t d : ℝ) (ht : 0 ≤ t) (hd : 0 ≤ d) (h : d = (1) - t) : 0 ≤ (21/500000000) * (1 + t) - (atHD t * (1 + t) - 1) := by
  have e : (21/500000000) * (1 + t) - (atHD t * (1 + t) - 1) = (721747865103/17179869184000000000) * t^0 * d^20 + (14959990323413/17179869184000000000) * t^1 * d^19 + (662080369522983/68719476736000000000) * t^2 * d^18 + (674925123025033/17179869184000000000) * t^3 * d^17 + (44284032730967611/137438953472000000000) * t^4 * d^16 + (3032316174748603/3435973836800000000) * t^5 * d^15 + (45635325882916803/34359738368000000000) * t^6 * d^14 + (548508242827338873/137438953472000000000) * t^7 * d^13 + (708735367356198871/68719476736000000000) * t^8 * d^12 + (1712380436540427983/137438953472000000000) * t^9 * d^11 + (1029709978523779041/137438953472000000000) * t^10 * d^10 + (917340268873900387/137438953472000000000) * t^11 * d^9 + (1450827905339559473/137438953472000000000) * t^12 * d^8 + (570430728911737471/68719476736000000000) * t^13 * d^7 + (166767860866108129/68719476736000000000) * t^14 * d^6 + (48802158488656143/137438953472000000000) * t^15 * d^5 + (7262581401094513/17179869184000000000) * t^16 * d^4 + (22827549962439691/137438953472000000000) * t^17 * d^3 + (48407082464339/137438953472000000000) * t^18 * d^2 + (327274226490261/137438953472000000000) * t^19 * d^1 + (5223527842699/68719476736000000000) * t^20 * d^0 := by rw [h]; unfold atHD; ring
  rw [e]; positivity
theorem atH_L (t d : ℝ) (ht : 0 ≤ t) (hd : 0 ≤ d) (h : d = (1) - t) : 0 ≤ (21/500000000) * (1 + t) + (atHD t * (1 + t) - 1) := by
  have e : (21/500000000) * (1 + t) + (atHD t * (1 + t) - 1) = (721361146353/17179869184000000000) * t^0 * d^20 + (15345298917163/17179869184000000000) * t^1 * d^19 + (544358764054233/68719476736000000000) * t^2 * d^18 + (1216990790993783/17179869184000000000) * t^3 * d^17 + (22837853609873861/137438953472000000000) * t^4 * d^16 + (2561174353654853/3435973836800000000) * t^5 * d^15 + (99795427855573053/34359738368000000000) * t^6 * d^14 + (659685711307807623/137438953472000000000) * t^7 * d^13 + (309279908813230121/68719476736000000000) * t^8 * d^12 + (1099280802403709233/137438953472000000000) * t^9 * d^11 + (2169766603722997791/137438953472000000000) * t^10 * d^10 + (2088228641721556637/137438953472000000000) * t^11 * d^9 + (876064154476278223/137438953472000000000) * t^12 * d^8 + (167910020837518721/68719476736000000000) * t^13 * d^7 + (213589495065326879/68719476736000000000) * t^14 * d^6 + (264433311101937393/137438953472000000000) * t^15 * d^5 + (5322772287813263/17179869184000000000) * t^16 * d^4 + (1520585278845941/137438953472000000000) * t^17 * d^3 + (4119291742620589/137438953472000000000) * t^18 * d^2 + (122975785084011/137438953472000000000) * t^19 * d^1 + (6321344248949/68719476736000000000) * t^20 * d^0 := by rw [h]; unfold atHD; ring
  rw [e]; positivity
theorem atH_hasDerivAt (s : ℝ) : HasDerivAt (fun s => s * atH (s^2)) (atHD (s^2)) s := by
  have e : (fun s : ℝ => s * atH (s^2)) = fun s => (8796093022109/8796093022208) * s^1 + (-1466015486915/4398046511104) * s^3 + (7036866795485/35184372088832) * s^5 + (-5026166931501/35184372088832) * s^7 + (7814664881601/70368744177664) * s^9 + (-6367793671667/70368744177664) * s^11 + (5274321959697/70368744177664) * s^13 + (-2118871931559/35184372088832) * s^15 + (3071355527285/70368744177664) * s^17 + (-915004560141/35184372088832) * s^19 + (201037025931/17592186044416) * s^21 + (-224858025803/70368744177664) * s^23 + (7375133125/17592186044416) * s^25 := by funext s; unfold atH; ring
  rw [e]
  refine ((((((((((((((hasDerivAt_pow 1 s).const_mul (8796093022109/8796093022208)).add ((hasDerivAt_pow 3 s).const_mul (-1466015486915/4398046511104))).add ((hasDerivAt_pow 5 s).const_mul (7036866795485/35184372088832))).add ((hasDerivAt_pow 7 s).const_mul (-5026166931501/35184372088832))).add ((hasDerivAt_pow 9 s).const_mul (7814664881601/70368744177664))).add ((hasDerivAt_pow 11 s).const_mul (-6367793671667/70368744177664))).add ((hasDerivAt_pow 13 s).const_mul (5274321959697/70368744177664))).add ((hasDerivAt_pow 15 s).const_mul (-2118871931559/35184372088832))).add ((hasDerivAt_pow 17 s).const_mul (3071355527285/70368744177664))).add ((hasDerivAt_pow 19 s).const_mul (-915004560141/35184372088832))).add ((hasDerivAt_pow 21 s).const_mul (201037025931/17592186044416))).add ((hasDerivAt_pow 23 s).const_mul (-224858025803/70368744177664))).add ((hasDerivAt_pow 25 s).const_mul (7375133125/17592186044416))).congr_deriv ?_
  unfold atHD; norm_num; ring
theorem atH_arctan (x : ℝ) (h1 : |x| ≤ 1) : |x * atH (x^2) - arctan x| ≤ (21/500000000) := by
  have hx := abs_le.1 h1
  have key := (convex_Icc (-1:ℝ) 1).norm_image_sub_le_of_norm_hasDerivWithin_le
    (f := fun u => u * atH (u^2) - arctan u) (f' := fun u => atHD (u^2) - 1 / (1 + u^2)) (C := (21/500000000)) (x := 0) (y := x)
    (fun u hu => ((atH_hasDerivAt u).sub (hasDerivAt_arctan u)).hasDerivWithinAt)
    (fun u hu => by
      have hu2 : u^2 ≤ (1) := by nlinarith [hu.1, hu.2]
      have hU := atH_U (u^2) _ (sq_nonneg u) (sub_nonneg.2 hu2) rfl
      have hL := atH_L (u^2) _ (sq_nonneg u) (sub_nonneg.2 hu2) rfl
      have hp : 0 < 1 + u^2 := by positivity
      have e : atHD (u^2) - 1 / (1 + u^2) = (atHD (u^2) * (1 + u^2) - 1) / (1 + u^2) := by field_simp
      rw [Real.norm_eq_abs, e, abs_div, abs_of_pos hp, div_le_iff₀ hp, abs_le]
      constructor <;> linarith)
    (by simp) ⟨hx.1, hx.2⟩
  simp only [Real.norm_eq_abs, arctan_zero, zero_mul, sub_zero] at key
  refine key.trans ?_
  linarith
noncomputable def arcP (t : ℝ) : ℝ := ((((((((-2711179/2147483648) * t + (14323909/2147483648)) * t + (-4587059/268435456)) * t + (2073119/67108864)) * t + (-6734281/134217728)) * t + (5971279/67108864)) * t + (-7200741/33554432)) * t + (6588397/4194304))
theorem arcP_cu (t d : ℝ) (ht : 0 ≤ t) (hd : 0 ≤ d) (h : d = (1) - t) : 0 ≤ (179/1000000000) - (arcP t - arcH t) := by
  have e : (179/1000000000) - (arcP t - arcH t) = (71630875305816799/281474976710656000000000) * t^0 * d^20 + (116069310215845321/56294995342131200000000) * t^1 * d^19 + (1696159697829269181/28147497671065600000000) * t^2 * d^18 + (5734138758791713793/14073748835532800000000) * t^3 * d^17 + (34436777216386012553/28147497671065600000000) * t^4 * d^16 + (314001416179377372723/140737488355328000000000) * t^5 * d^15 + (1991662165890390241/439804651110400000000) * t^6 * d^14 + (189641380804957241049/14073748835532800000000) * t^7 * d^13 + (1881889615382141012131/56294995342131200000000) * t^8 * d^12 + (3141209869801607677633/56294995342131200000000) * t^9 * d^11 + (8776123937012558711147/140737488355328000000000) * t^10 * d^10 + (166275650759081314813/3518437208883200000000) * t^11 * d^9 + (43753530449869604383/1759218604441600000000) * t^12 * d^8 + (36944596294651321981/3518437208883200000000) * t^13 * d^7 + (2313497242406015241/439804651110400000000) * t^14 * d^6 + (13913273259264295339/4398046511104000000000) * t^15 * d^5 + (317735861601328101/219902325555200000000) * t^16 * d^4 + (21271446222964153/54975581388800000000) * t^17 * d^3 + (2750473070298713/54975581388800000000) * t^18 * d^2 + (136290018481279/54975581388800000000) * t^19 * d^1 + (17483503132619/68719476736000000000) * t^20 * d^0 := by rw [h]; unfold arcP arcH; ring
  rw [e]; positivity
theorem arcP_cl (t d : ℝ) (ht : 0 ≤ t) (hd : 0 ≤ d) (h : d = (1) - t) : 0 ≤ (179/1000000000) + (arcP t - arcH t) := by
  have e : (179/1000000000) + (arcP t - arcH t) = (29137166356598049/281474976710656000000000) * t^0 * d^20 + (287002856433814071/56294995342131200000000) * t^1 * d^19 + (218433093756612931/28147497671065600000000) * t^2 * d^18 + (9639615965932543/14073748835532800000000) * t^3 * d^17 + (14385338969053981303/28147497671065600000000) * t^4 * d^16 + (467152442787662528973/140737488355328000000000) * t^5 * d^15 + (4111102357289608991/439804651110400000000) * t^6 * d^14 + (200935548678562709799/14073748835532800000000) * t^7 * d^13 + (656860426260738668381/56294995342131200000000) * t^8 * d^12 + (243790185722231896383/56294995342131200000000) * t^9 * d^11 + (532626215678000117397/140737488355328000000000) * t^10 * d^10 + (45286852711158658563/3518437208883200000000) * t^11 * d^9 + (35582408351470385633/1759218604441600000000) * t^12 * d^8 + (60699636076228665731/3518437208883200000000) * t^13 * d^7 + (3789267280773983991/439804651110400000000) * t^14 * d^6 + (10497784833455701589/4398046511104000000000) * t^15 * d^5 + (63686921097421851/219902325555200000000) * t^16 * d^4 + (1165188053432903/54975581388800000000) * t^17 * d^3 + (988965975767463/54975581388800000000) * t^18 * d^2 + (257335144262529/54975581388800000000) * t^19 * d^1 + (7118069538869/68719476736000000000) * t^20 * d^0 := by rw [h]; unfold arcP arcH; ring
  rw [e]; positivity
theorem arcP_arccos (x : ℝ) (h0 : 0 ≤ x) (h1 : x ≤ 1) : |√(1 - x) * arcP x - arccos x| ≤ (209/1000000000) := by
  have a := arcP_cu x _ h0 (sub_nonneg.2 h1) (by ring)
  have b := arcP_cl x _ h0 (sub_nonneg.2 h1) (by ring)
  have h := arcH_arccos x h0 h1
  have e : √(1 - x) * arcP x - arccos x = √(1 - x) * (arcP x - arcH x) + (√(1 - x) * arcH x - arccos x) := by ring
  rw [e]
  refine (abs_add_le _ _).trans ?_
  rw [abs_mul, abs_of_nonneg (Real.sqrt_nonneg _)]
  have h2 : √(1 - x) ≤ 1 := Real.sqrt_le_one.2 (by linarith)
  have h3 : |arcP x - arcH x| ≤ (179/1000000000) := by rw [abs_le]; constructor <;> linarith
  have h4 := mul_le_mul h2 h3 (abs_nonneg _) (by norm_num)
  linarith
noncomputable def arcEP (t : ℝ) : ℝ := ((((-628451/33554432) * t + (9967143/134217728)) * t + (-3558689/16777216)) * t + (3294057/2097152))
theorem arcEP_cu (t d : ℝ) (ht : 0 ≤ t) (hd : 0 ≤ d) (h : d = (1) - t) : 0 ≤ (517/5000000) - (arcEP t - arcH t) := by
  have e : (517/5000000) - (arcEP t - arcH t) = (1924702718334257591/11258999068426240000000) * t^0 * d^20 + (2097596476064733489/2251799813685248000000) * t^1 * d^19 + (6976461847644229/1125899906842624000000) * t^2 * d^18 + (2050538370811088937/562949953421312000000) * t^3 * d^17 + (190297419680864513777/1125899906842624000000) * t^4 * d^16 + (6922176792576792267307/5629499534213120000000) * t^5 * d^15 + (85211135043061749769/17592186044416000000) * t^6 * d^14 + (7149761765259598875841/562949953421312000000) * t^7 * d^13 + (54117346556318701450779/2251799813685248000000) * t^8 * d^12 + (76810019343434357387497/2251799813685248000000) * t^9 * d^11 + (208086630065975960319523/5629499534213120000000) * t^10 * d^10 + (4320704341064826570117/140737488355328000000) * t^11 * d^9 + (1363319456152526528247/70368744177664000000) * t^12 * d^8 + (1276111919422380199429/140737488355328000000) * t^13 * d^7 + (52699537256618374769/17592186044416000000) * t^14 * d^6 + (111128007996651108451/175921860444160000000) * t^15 * d^5 + (605364760296686509/8796093022208000000) * t^16 * d^4 + (13315068770838177/2199023255552000000) * t^17 * d^3 + (9357886652465217/2199023255552000000) * t^18 * d^2 + (3272875029965911/2199023255552000000) * t^19 * d^1 + (469695704451971/2748779069440000000) * t^20 * d^0 := by rw [h]; unfold arcEP arcH; ring
  rw [e]; positivity
theorem arcEP_cl (t d : ℝ) (ht : 0 ≤ t) (hd : 0 ≤ d) (h : d = (1) - t) : 0 ≤ (517/5000000) + (arcEP t - arcH t) := by
  have e : (517/5000000) + (arcEP t - arcH t) = (403658289016288841/11258999068426240000000) * t^0 * d^20 + (7215847553337452239/2251799813685248000000) * t^1 * d^19 + (44231882677812737979/1125899906842624000000) * t^2 * d^18 + (130666039048170057687/562949953421312000000) * t^3 * d^17 + (937793488380475232527/1125899906842624000000) * t^4 * d^16 + (11127277736404643673557/5629499534213120000000) * t^5 * d^15 + (55800228464605718519/17592186044416000000) * t^6 * d^14 + (1874965499231119094591/562949953421312000000) * t^7 * d^13 + (4543380662870965357029/2251799813685248000000) * t^8 * d^12 + (1404283615485198356247/2251799813685248000000) * t^9 * d^11 + (7002703071052817975773/5629499534213120000000) * t^10 * d^10 + (567689593867645663867/140737488355328000000) * t^11 * d^9 + (469828269447150559497/70368744177664000000) * t^12 * d^8 + (980069896700299293179/140737488355328000000) * t^13 * d^7 + (88311826251049093519/17592186044416000000) * t^14 * d^6 + (452917446034018764701/175921860444160000000) * t^15 * d^5 + (8207845458932530259/8796093022208000000) * t^16 * d^4 + (505109061772056927/2199023255552000000) * t^17 * d^3 + (77046135104683967/2199023255552000000) * t^18 * d^2 + (5822285154997161/2199023255552000000) * t^19 * d^1 + (98751807108221/2748779069440000000) * t^20 * d^0 := by rw [h]; unfold arcEP arcH; ring
  rw [e]; positivity
theorem arcEP_arccos (x : ℝ) (h0 : 0 ≤ x) (h1 : x ≤ 1) : |√(1 - x) * arcEP x - arccos x| ≤ (10343/100000000) := by
  have a := arcEP_cu x _ h0 (sub_nonneg.2 h1) (by ring)
  have b := arcEP_cl x _ h0 (sub_nonneg.2 h1) (by ring)
  have h := arcH_arccos x h0 h1
  have e : √(1 - x) * arcEP x - arccos x = √(1 - x) * (arcEP x - arcH x) + (√(1 - x) * arcH x - arccos x) := by ring
  rw [e]
  refine (abs_add_le _ _).trans ?_
  rw [abs_mul, abs_of_nonneg (Real.sqrt_nonneg _)]
  have h2 : √(1 - x) ≤ 1 := Real.sqrt_le_one.2 (by linarith)
  have h3 : |arcEP x - arcH x| ≤ (517/5000000) := by rw [abs_le]; constructor <;> linarith
  have h4 := mul_le_mul h2 h3 (abs_nonneg _) (by norm_num)
  linarith
noncomputable def atP (t : ℝ) : ℝ := (((((((((6155173/2147483648) * t + (-4339457/268435456)) * t + (5759231/134217728)) * t + (-2526301/33554432)) * t + (14302595/134217728)) * t + (-9535431/67108864)) * t + (13417445/67108864)) * t + (-2796187/8388608)) * t + (1))
theorem atP_cu (t d : ℝ) (ht : 0 ≤ t) (hd : 0 ≤ d) (h : d = (1) - t) : 0 ≤ (19/125000000) - (atP t - atH t) := by
  have e : (19/125000000) - (atP t - atH t) = (2611146756593/17179869184000000000) * t^0 * d^20 + (2020317341311/1717986918400000000) * t^1 * d^19 + (793549915205261/13743895347200000000) * t^2 * d^18 + (3411281375215941/13743895347200000000) * t^3 * d^17 + (7670696482499561/27487790694400000000) * t^4 * d^16 + (57717990726633601/137438953472000000000) * t^5 * d^15 + (32555553420858497/6871947673600000000) * t^6 * d^14 + (503008670550071101/27487790694400000000) * t^7 * d^13 + (959134068328972961/27487790694400000000) * t^8 * d^12 + (1039905286152823323/27487790694400000000) * t^9 * d^11 + (202466755773907529/8589934592000000000) * t^10 * d^10 + (16275820401470403/1717986918400000000) * t^11 * d^9 + (53544305928629959/6871947673600000000) * t^12 * d^8 + (298423918000852351/27487790694400000000) * t^13 * d^7 + (30997462279374561/3435973836800000000) * t^14 * d^6 + (560091394843821101/137438953472000000000) * t^15 * d^5 + (25933720179374561/27487790694400000000) * t^16 * d^4 + (2717268946916257/27487790694400000000) * t^17 * d^3 + (201954573017761/13743895347200000000) * t^18 * d^2 + (15728254604497/3435973836800000000) * t^19 * d^1 + (22175707255869/137438953472000000000) * t^20 * d^0 := by rw [h]; unfold atP atH; ring
  rw [e]; positivity
theorem atP_cl (t d : ℝ) (ht : 0 ≤ t) (hd : 0 ≤ d) (h : d = (1) - t) : 0 ≤ (19/125000000) + (atP t - atH t) := by
  have e : (19/125000000) + (atP t - atH t) = (2611533475343/17179869184000000000) * t^0 * d^20 + (8425043122561/1717986918400000000) * t^1 * d^19 + (297480049011/13743895347200000000) * t^2 * d^18 + (1351802996309691/13743895347200000000) * t^3 * d^17 + (32815520675468311/27487790694400000000) * t^4 * d^16 + (590061483800852351/137438953472000000000) * t^5 * d^15 + (48416880895077247/6871947673600000000) * t^6 * d^14 + (144770803977414851/27487790694400000000) * t^7 * d^13 + (93507577778191711/27487790694400000000) * t^8 * d^12 + (363616908656729573/27487790694400000000) * t^9 * d^11 + (279993998691876279/8589934592000000000) * t^10 * d^10 + (71444316774126653/1717986918400000000) * t^11 * d^9 + (209616105598161209/6871947673600000000) * t^12 * d^8 + (349355556526633601/27487790694400000000) * t^13 * d^7 + (9488754878593311/3435973836800000000) * t^14 * d^6 + (87688079683664851/137438953472000000000) * t^15 * d^5 + (14552496978593311/27487790694400000000) * t^16 * d^4 + (6808899796135007/27487790694400000000) * t^17 * d^3 + (591892822236511/13743895347200000000) * t^18 * d^2 + (5162466323247/3435973836800000000) * t^19 * d^1 + (19605734599619/137438953472000000000) * t^20 * d^0 := by rw [h]; unfold atP atH; ring
  rw [e]; positivity
theorem atP_arctan (x : ℝ) (h1 : |x| ≤ 1) : |x * atP (x^2) - arctan x| ≤ (97/500000000) := by
  have h2 : x^2 ≤ 1 := by rw [← sq_abs]; exact pow_le_one₀ (abs_nonneg x) h1
  have a := atP_cu (x^2) _ (sq_nonneg x) (sub_nonneg.2 h2) (by ring)
  have b := atP_cl (x^2) _ (sq_nonneg x) (sub_nonneg.2 h2) (by ring)
  have h := atH_arctan x h1
  have e : x * atP (x^2) - arctan x = x * (atP (x^2) - atH (x^2)) + (x * atH (x^2) - arctan x) := by ring
  rw [e]
  refine (abs_add_le _ _).trans ?_
  rw [abs_mul]
  have h3 : |atP (x^2) - atH (x^2)| ≤ (19/125000000) := by rw [abs_le]; constructor <;> linarith
  have h4 := mul_le_mul h1 h3 (abs_nonneg _) (by norm_num)
  linarith
noncomputable def atEP (t : ℝ) : ℝ := (((((11185759/536870912) * t + (-5713179/67108864)) * t + (6044529/33554432)) * t + (-2770753/8388608)) * t + (2096871/2097152))
theorem atEP_cu (t d : ℝ) (ht : 0 ≤ t) (hd : 0 ≤ d) (h : d = (1) - t) : 0 ≤ (67/500000) - (atEP t - atH t) := by
  have e : (67/500000) - (atEP t - atH t) = (36832434218373/137438953472000000) * t^0 * d^20 + (31968187027371/13743895347200000) * t^1 * d^19 + (1444130535658321/109951162777600000) * t^2 * d^18 + (9506750608221801/109951162777600000) * t^3 * d^17 + (111274459248230621/219902325555200000) * t^4 * d^16 + (2313089355054943061/1099511627776000000) * t^5 * d^15 + (339333545008908117/54975581388800000) * t^6 * d^14 + (2913371131834330561/219902325555200000) * t^7 * d^13 + (4724852139658668021/219902325555200000) * t^8 * d^12 + (5936262344106870903/219902325555200000) * t^9 * d^11 + (1844350455462407869/68719476736000000) * t^10 * d^10 + (296769819399614783/13743895347200000) * t^11 * d^9 + (794329929852638099/54975581388800000) * t^12 * d^8 + (1822736261890736811/219902325555200000) * t^13 * d^7 + (114129881105805621/27487790694400000) * t^14 * d^6 + (1967556832783880561/1099511627776000000) * t^15 * d^5 + (138365388269805621/219902325555200000) * t^16 * d^4 + (36637049726815477/219902325555200000) * t^17 * d^3 + (3286786035320821/109951162777600000) * t^18 * d^2 + (84497433414117/27487790694400000) * t^19 * d^1 + (134746054012609/1099511627776000000) * t^20 * d^0 := by rw [h]; unfold atEP atH; ring
  rw [e]; positivity
theorem atEP_cl (t d : ℝ) (ht : 0 ≤ t) (hd : 0 ≤ d) (h : d = (1) - t) : 0 ≤ (67/500000) + (atEP t - atH t) := by
  have e : (67/500000) + (atEP t - atH t) = (1205312123/137438953472000000) * t^0 * d^20 + (41699092033621/13743895347200000) * t^1 * d^19 + (4154582672977071/109951162777600000) * t^2 * d^18 + (24085528643590551/109951162777600000) * t^3 * d^17 + (174259914392174371/219902325555200000) * t^4 * d^16 + (2255460623191536811/1099511627776000000) * t^5 * d^15 + (231735202271901867/54975581388800000) * t^6 * d^14 + (1655178846412149311/219902325555200000) * t^7 * d^13 + (2699041574991861771/219902325555200000) * t^8 * d^12 + (3962262608760502153/219902325555200000) * t^9 * d^11 + (1558267497085751619/68719476736000000) * t^10 * d^10 + (321887990154596033/13743895347200000) * t^11 * d^9 + (1061643498809994349/54975581388800000) * t^12 * d^8 + (2745813716355743061/219902325555200000) * t^13 * d^7 + (171404492534599371/27487790694400000) * t^14 * d^6 + (2600993145462599311/1099511627776000000) * t^15 * d^5 + (147168985370599371/219902325555200000) * t^16 * d^4 + (30547508776809227/219902325555200000) * t^17 * d^3 + (2311927173314571/109951162777600000) * t^18 * d^2 + (62837124707867/27487790694400000) * t^19 * d^1 + (159923062231359/1099511627776000000) * t^20 * d^0 := by rw [h]; unfold atEP atH; ring
  rw [e]; positivity
theorem atEP_arctan (x : ℝ) (h1 : |x| ≤ 1) : |x * atEP (x^2) - arctan x| ≤ (67021/500000000) := by
  have h2 : x^2 ≤ 1 := by rw [← sq_abs]; exact pow_le_one₀ (abs_nonneg x) h1
  have a := atEP_cu (x^2) _ (sq_nonneg x) (sub_nonneg.2 h2) (by ring)
  have b := atEP_cl (x^2) _ (sq_nonneg x) (sub_nonneg.2 h2) (by ring)
  have h := atH_arctan x h1
  have e : x * atEP (x^2) - arctan x = x * (atEP (x^2) - atH (x^2)) + (x * atH (x^2) - arctan x) := by ring
  rw [e]
  refine (abs_add_le _ _).trans ?_
  rw [abs_mul]
  have h3 : |atEP (x^2) - atH (x^2)| ≤ (67/500000) := by rw [abs_le]; constructor <;> linarith
  have h4 := mul_le_mul h1 h3 (abs_nonneg _) (by norm_num)
  linarith

end DXM.Trig
