import Mathlib.Analysis.SpecialFunctions.Trigonometric.ArctanDeriv
import Mathlib.Analysis.SpecialFunctions.Trigonometric.Arctan
import Mathlib.Analysis.Calculus.MeanValue
import Mathlib.Analysis.Calculus.Deriv.Pow
import Mathlib.Analysis.Calculus.Deriv.Inv
import Mathlib.Tactic.Positivity
import Mathlib.Tactic.Linarith
import Mathlib.Tactic.FieldSimp

/-
Generated (script gentan.py, not part of the build).  The rational approximation of the tangent used by XMVectorTan:
the derivative of arctan(N(v)/D(v)) is within 2e-8 of one on |v| ≤ 0.7856 (Bernstein certificates), so
N(v)/D(v) is the tangent of an angle within 2e-8 |v| of v.
-/

set_option linter.all false
set_option maxRecDepth 4000

namespace DXM.Trig
open Real

noncomputable def tanNp (t : ℝ) : ℝ := ((((-9819577/549755813888) * t + (14709781/4294967296)) * t + (-8951215/67108864)) * t + (1))
noncomputable def tanD (t : ℝ) : ℝ := (((((1095541/2199023255552) * t + (-10713893/34359738368)) * t + (13778165/536870912)) * t + (-7830209/16777216)) * t + (1))
noncomputable def tanNd (t : ℝ) : ℝ := ((((-68737039/549755813888) * t + (73548905/4294967296)) * t + (-26853645/67108864)) * t + (1))
noncomputable def tanDd (t : ℝ) : ℝ := ((((1095541/274877906944) * t + (-32141679/17179869184)) * t + (13778165/134217728)) * t + (-7830209/8388608))
theorem tan_U (t d : ℝ) (ht : 0 ≤ t) (hd : 0 ≤ d) (h : d = (241081/390625) - t) : 0 ≤ (1/50000000) * (t * tanNp t^2 + tanD t^2) - ((tanNd t * tanD t - t * tanNp t * tanDd t) - (t * tanNp t^2 + tanD t^2)) := by
  have e : (1/50000000) * (t * tanNp t^2 + tanD t^2) - ((tanNd t * tanD t - t * tanNp t * tanDd t) - (t * tanNp t^2 + tanD t^2)) = (1387778780781445675529539585113525390625/1460541305063778519379419497181226529492459648) * t^0 * d^8 + (98963595147406380192478536628186702728271484375/12251908475988452997894353429410414315112682942889984) * t^1 * d^7 + (12307023222612461298604071644149371422827243804931640625/411105829827778178903042225331118547228275092144761851609088) * t^2 * d^6 + (103925158224694636154843851513871108181774616241455078125/1644423319311112715612168901324474188913100368579047406436352) * t^3 * d^5 + (8750283071880428186604757237816367581614315509796142578125/105243092435911213799178809684766348090438423589059034011926528) * t^4 * d^4 + (1881039629815136808668117383696383530303329691170806884765625/26942231663593270732589775279300185111152236438799112707053191168) * t^5 * d^3 + (31512772213792005334515520203699946533752826379226689551171875/862151413234984663442872808937605923556871566041571606625702117376) * t^6 * d^2 + (4815683044796593756066345801996919188811348361546802924928099025/441421523576312147682750878176054232861118241813284662592359484096512) * t^7 * d^1 + (3921814643489519583482098447940543027465050189377450449413797863563721/2758884522351950923017192988600338955381989011333029141202246775603200000000) * t^8 * d^0 := by
    rw [h]; unfold tanD tanNp tanNd tanDd; ring
  rw [e]; positivity
theorem tan_L (t d : ℝ) (ht : 0 ≤ t) (hd : 0 ≤ d) (h : d = (241081/390625) - t) : 0 ≤ (1/50000000) * (t * tanNp t^2 + tanD t^2) + ((tanNd t * tanD t - t * tanNp t * tanDd t) - (t * tanNp t^2 + tanD t^2)) := by
  have e : (1/50000000) * (t * tanNp t^2 + tanD t^2) + ((tanNd t * tanD t - t * tanNp t * tanDd t) - (t * tanNp t^2 + tanD t^2)) = (1387778780781445675529539585113525390625/1460541305063778519379419497181226529492459648) * t^0 * d^8 + (88257448067420085635603754781186580657958984375/12251908475988452997894353429410414315112682942889984) * t^1 * d^7 + (9793356916383757449148075111224898137152194976806640625/411105829827778178903042225331118547228275092144761851609088) * t^2 * d^6 + (73787966387583318173306979374612332321703433990478515625/1644423319311112715612168901324474188913100368579047406436352) * t^3 * d^5 + (5540035149669760966869470760389035338663518428802490234375/105243092435911213799178809684766348090438423589059034011926528) * t^4 * d^4 + (1060718169942480342599965130489184202656968340157623291015625/26942231663593270732589775279300185111152236438799112707053191168) * t^5 * d^3 + (15798499553571570714558984393308456299406465430621953223046875/862151413234984663442872808937605923556871566041571606625702117376) * t^6 * d^2 + (2141075714148040433666495591695326786105466270643657369353099025/441421523576312147682750878176054232861118241813284662592359484096512) * t^7 * d^1 + (1541296931326661014707575339473272457784130904318197686338675763563721/2758884522351950923017192988600338955381989011333029141202246775603200000000) * t^8 * d^0 := by
    rw [h]; unfold tanD tanNp tanNd tanDd; ring
  rw [e]; positivity
theorem tan_D (t d : ℝ) (ht : 0 ≤ t) (hd : 0 ≤ d) (h : d = (241081/390625) - t) : 0 ≤ tanD t := by
  have e : tanD t = (542101086242752217003726400434970855712890625/11410478945810769682651714821728332261659841) * t^0 * d^8 + (70139845853676996423331502228393219411373138427734375/191436069937319578092099272334537723673635670982656) * t^1 * d^7 + (7565097912465624469877667479522642679512500762939453125/6125954237994226498947176714705207157556341471444992) * t^2 * d^6 + (931503026154974406245423880927774007432162761688232421875/392061071231630495932619309741133258083605854172479488) * t^3 * d^5 + (71602795678980242254480776547567338240332901477813720703125/25091908558824351739687635823432528517350774667038687232) * t^4 * d^4 + (13742830865924627740317152304047603649087250232696533203125/6272977139706087934921908955858132129337693666759671808) * t^5 * d^3 + (13170841815343579351942801038375245011411607265472412109375/12545954279412175869843817911716264258675387333519343616) * t^6 * d^2 + (1800652886823392897168512538625045237131416797637939453125/6272977139706087934921908955858132129337693666759671808) * t^7 * d^1 + (860285306009184537863389789705515396781265735626220703125/25091908558824351739687635823432528517350774667038687232) * t^8 * d^0 := by
    rw [h]; unfold tanD; ring
  rw [e]; positivity
theorem tanN_hasDerivAt (s : ℝ) : HasDerivAt (fun s => s * tanNp (s^2)) (tanNd (s^2)) s := by
  have e : (fun s : ℝ => s * tanNp (s^2)) = fun s => (1) * s^1 + (-8951215/67108864) * s^3 + (14709781/4294967296) * s^5 + (-9819577/549755813888) * s^7 := by funext s; unfold tanNp; ring
  rw [e]
  refine ((((((hasDerivAt_pow 1 s).const_mul (1)).add ((hasDerivAt_pow 3 s).const_mul (-8951215/67108864))).add ((hasDerivAt_pow 5 s).const_mul (14709781/4294967296))).add ((hasDerivAt_pow 7 s).const_mul (-9819577/549755813888)))).congr_deriv ?_
  unfold tanNd; norm_num; ring
theorem tanD_hasDerivAt (s : ℝ) : HasDerivAt (fun s => tanD (s^2)) (s * tanDd (s^2)) s := by
  have e : (fun s : ℝ => tanD (s^2)) = fun s => (-7830209/16777216) * s^2 + (13778165/536870912) * s^4 + (-10713893/34359738368) * s^6 + (1095541/2199023255552) * s^8 + 1 := by funext s; unfold tanD; ring
  rw [e]
  refine (((((((hasDerivAt_pow 2 s).const_mul (-7830209/16777216)).add ((hasDerivAt_pow 4 s).const_mul (13778165/536870912))).add ((hasDerivAt_pow 6 s).const_mul (-10713893/34359738368))).add ((hasDerivAt_pow 8 s).const_mul (1095541/2199023255552)))).add_const 1).congr_deriv ?_
  unfold tanDd; norm_num; ring
theorem tanD_pos (v : ℝ) (h : |v| ≤ 7856/10000) : 0 < tanD (v^2) := by
  have hx := abs_le.1 h
  have h2 : v^2 ≤ (241081/390625) := by nlinarith [hx.1, hx.2]
  have h3 : v^2 ≤ 62/100 := by linarith
  have h0 := sq_nonneg v
  unfold tanD
  set t := v^2
  nlinarith [mul_nonneg h0 h0, mul_nonneg h0 (sub_nonneg.2 h3), mul_nonneg (mul_nonneg h0 h0) (sub_nonneg.2 h3), mul_nonneg (mul_nonneg h0 h0) (mul_nonneg h0 h0)]
theorem tan_backward (v : ℝ) (h : |v| ≤ 7856/10000) : |arctan (v * tanNp (v^2) / tanD (v^2)) - v| ≤ 2/10^8 * |v| := by
  have hx := abs_le.1 h
  have key := (convex_Icc (-(7856/10000:ℝ)) (7856/10000)).norm_image_sub_le_of_norm_hasDerivWithin_le
    (f := fun u => arctan (u * tanNp (u^2) / tanD (u^2)) - u)
    (f' := fun u => 1 / (1 + (u * tanNp (u^2) / tanD (u^2))^2) * ((tanNd (u^2) * tanD (u^2) - u * tanNp (u^2) * (u * tanDd (u^2))) / tanD (u^2)^2) - 1)
    (C := 2/10^8) (x := 0) (y := v)
    (fun u hu => ((((tanN_hasDerivAt u).div (tanD_hasDerivAt u) (tanD_pos u (abs_le.2 hu)).ne').arctan).sub (hasDerivAt_id u)).hasDerivWithinAt)
    (fun u hu => by
      have hu2 : u^2 ≤ (241081/390625) := by nlinarith [hu.1, hu.2]
      have hU := tan_U (u^2) _ (sq_nonneg u) (sub_nonneg.2 hu2) rfl
      have hL := tan_L (u^2) _ (sq_nonneg u) (sub_nonneg.2 hu2) rfl
      have hD := tanD_pos u (abs_le.2 hu)
      set N := tanNp (u^2)
      set D := tanD (u^2)
      set N' := tanNd (u^2)
      set D' := tanDd (u^2)
      have hp : 0 < u^2 * N^2 + D^2 := by positivity
      have e : 1 / (1 + (u * N / D)^2) * ((N' * D - u * N * (u * D')) / D^2) - 1 = ((N' * D - u^2 * N * D') - (u^2 * N^2 + D^2)) / (u^2 * N^2 + D^2) := by
        have hp' : D^2 + (u * N)^2 ≠ 0 := by rw [mul_pow]; linarith
        field_simp
        rw [show u^2 * N^2 + D^2 = D^2 + u^2 * N^2 by ring]; ring
      rw [Real.norm_eq_abs, e, abs_div, abs_of_pos hp, div_le_iff₀ hp, abs_le]
      constructor <;> linarith)
    ⟨by norm_num, by norm_num⟩ ⟨by linarith [hx.1], by linarith [hx.2]⟩
  simpa [Real.norm_eq_abs] using key
theorem arctan_backward (v : ℝ) (h : |v| ≤ 1/4096) : |arctan v - v| ≤ 6/10^8 * |v| := by
  have hx := abs_le.1 h
  have key := (convex_Icc (-(1/4096:ℝ)) (1/4096)).norm_image_sub_le_of_norm_hasDerivWithin_le
    (f := fun u => arctan u - u) (f' := fun u => 1 / (1 + u^2) - 1) (C := 6/10^8) (x := 0) (y := v)
    (fun u hu => ((hasDerivAt_arctan u).sub (hasDerivAt_id u)).hasDerivWithinAt)
    (fun u hu => by
      have hu2 : u^2 ≤ 1/16777216 := by nlinarith [hu.1, hu.2]
      have hp : 0 < 1 + u^2 := by positivity
      have e : 1 / (1 + u^2) - 1 = -u^2 / (1 + u^2) := by field_simp; ring
      rw [Real.norm_eq_abs, e, abs_div, abs_of_pos hp, div_le_iff₀ hp, abs_neg, abs_of_nonneg (sq_nonneg u)]
      nlinarith [sq_nonneg u])
    ⟨by norm_num, by norm_num⟩ ⟨by linarith [hx.1], by linarith [hx.2]⟩
  simpa [Real.norm_eq_abs] using key
end DXM.Trig
