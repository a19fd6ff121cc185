import Verif.Props.FloatTrig
import Verif.Lemmas.Arc

/-
C111: arc cosine and arc sine on binary32 lanes: the vector forms of the SSE builds and the scalar forms of every build.
-/

set_option linter.all false

namespace DXM.Props
open DXM.Spec DXM.FErr DXM.IEEE DXM.Trig
variable {P : Env}

theorem abs_val (a : F32 P) : val (Lane.abs a) = |val a| := by
  show value (IEEE.abs a.bits) = |value a.bits|
  rw [value_abs, value_sign, sg_abs]; unfold mag; rw [am_abs]; simp
theorem abs_fin {a : F32 P} (h : Fin' a) : Fin' (Lane.abs a) := by
  show IsFinite (IEEE.abs a.bits)
  rw [finite_iff, am_abs]; exact (finite_iff _).1 h

/-- The clamped root of `1 - x`. -/
def rootL (x : F32 P) : F32 P := Lane.sqrt (if Lane.lt (Lane.sub (lit 0x3F800000#32) x) (lit 0#32) then lit 0#32 else Lane.sub (lit 0x3F800000#32) x)

theorem zeroL_val : val (lit 0#32 : F32 P) = 0 := by show value 0#32 = 0; rw [value_zero_iff]; decide

theorem root_f {x : F32 P} (fx : Fin' x) (h0 : 0 ≤ val x) (h1 : val x ≤ 1) :
    Fin' (rootL x) ∧ |val (rootL x) - √(1 - val x)| ≤ 203/100 * ulp2 ∧ √(1 - val x) ≤ 1 := by
  have hu := u_pos
  have hu1 : ulp2 ≤ 1/1000 := by unfold ulp2; norm_num
  have htt : tiny ≤ 1/1000 := by unfold tiny; norm_num
  have f1 : Fin' (lit 0x3F800000#32 : F32 P) := lf_3F800000
  have f0 : Fin' (lit 0#32 : F32 P) := lit_fin (by decide)
  have ha : |val (lit 0x3F800000#32 : F32 P) - val x| ≤ 1 - val x := by rw [lv_3F800000, abs_of_nonneg (by linarith)]
  obtain ⟨g1, g2⟩ := sub_abs f1 fx ha (by norm_num; linarith)
  rw [lv_3F800000] at g2
  set w := Lane.sub (lit 0x3F800000#32) x
  have hw0 : 0 ≤ val w := by
    have := (abs_le.1 g2).1
    nlinarith
  have e : rootL x = Lane.sqrt w := by
    unfold rootL
    rw [if_neg]
    intro h
    have := (lt_val g1 f0).1 h
    rw [zeroL_val] at this; linarith
  rw [e]
  have hs1 : √(1 - val x) ≤ 1 := Real.sqrt_le_iff.2 ⟨by norm_num, by linarith⟩
  have hd : |√(val w) - √(1 - val x)| ≤ ulp2 := by
    rcases eq_or_lt_of_le h1 with h | h
    · have : val w = 0 := by
        rw [h] at g2; simp at g2; linarith
      rw [this, h]; simp; exact hu.le
    · have hb : 0 < 1 - val x := by linarith
      have hsb := Real.sqrt_pos.2 hb
      have hsw := Real.sqrt_nonneg (val w)
      have q1 := Real.mul_self_sqrt hb.le
      have q2 := Real.mul_self_sqrt hw0
      have e : |√(val w) - √(1 - val x)| * (√(val w) + √(1 - val x)) = |val w - (1 - val x)| := by
        rw [← abs_of_pos (show 0 < √(val w) + √(1 - val x) by linarith), ← abs_mul]; congr 1
        nlinarith
      have h2 : |√(val w) - √(1 - val x)| * √(1 - val x) ≤ ulp2 * √(1 - val x) := by
        have h3 : |√(val w) - √(1 - val x)| * √(1 - val x) ≤ |val w - (1 - val x)| := by
          rw [← e]; exact mul_le_mul_of_nonneg_left (by linarith) (abs_nonneg _)
        have h4 : ulp2 * (1 - val x) ≤ ulp2 * √(1 - val x) := by
          apply mul_le_mul_of_nonneg_left _ hu.le
          nlinarith
        linarith
      exact le_of_mul_le_mul_right h2 hsb
  have hsw : √(val w) ≤ 1001/1000 := by
    have := (abs_le.1 hd).2; linarith
  obtain ⟨k1, k2⟩ := rounds_err (sqrt_rounds P g1 hw0) (by
    rw [abs_of_nonneg (Real.sqrt_nonneg _)]; exact lt_of_le_of_lt hsw (by unfold overflow; norm_num))
  refine ⟨k1, ?_, hs1⟩
  rw [abs_of_nonneg (Real.sqrt_nonneg _)] at k2
  have k3 : |val (Lane.sqrt w) - √(val w)| ≤ 1002/1000 * ulp2 := by
    refine (show |val (Lane.sqrt w) - √(val w)| ≤ _ from k2).trans ?_
    rw [mul_comm]; exact mul_le_mul_of_nonneg_right (by
      have : tiny ≤ 1/1000 := htt
      have hq : √(value w.bits) ≤ 1001/1000 := hsw
      linarith) hu.le
  have := abs_sub_le (val (Lane.sqrt w)) (√(val w)) (√(1 - val x))
  linarith

/-- Arc cosine of a lane in [0, 1]. -/
theorem arc_f {x p : F32 P} {Q : ℝ → ℝ} {k B ε E : ℝ} (fx : Fin' x) (h0 : 0 ≤ val x) (h1 : val x ≤ 1)
    (he : Fin' p ∧ |val p - Q (val x)| ≤ k * ulp2 ∧ |Q (val x)| ≤ B) (hQ : |√(1 - val x) * Q (val x) - Real.arccos (val x)| ≤ ε) (hk : k ≤ 4) (hB : B ≤ 199/100)
    (hE : 203/100 * 2 * ulp2 + k * ulp2 + 201/100 * ulp2 + ε ≤ E) :
    Fin' (Lane.mul p (rootL x)) ∧ |val (Lane.mul p (rootL x)) - Real.arccos (val x)| ≤ E := by
  have hu := u_pos
  have hu1 : ulp2 ≤ 1/10000 := by unfold ulp2; norm_num
  have htt : tiny ≤ 1/1000 := by unfold tiny; norm_num
  obtain ⟨r1, r2, r3⟩ := root_f fx h0 h1
  obtain ⟨p1, p2, p3⟩ := he
  have hs := Real.sqrt_nonneg (1 - val x)
  have hp : |val p| ≤ 2 := by
    have e : val p = (val p - Q (val x)) + Q (val x) := by ring
    rw [e]; refine (abs_add_le _ _).trans ?_
    have : k * ulp2 ≤ 4 * ulp2 := mul_le_mul_of_nonneg_right hk hu.le
    linarith
  have hr : |val (rootL x)| ≤ 10003/10000 := by
    have e : val (rootL x) = (val (rootL x) - √(1 - val x)) + √(1 - val x) := by ring
    rw [e]; refine (abs_add_le _ _).trans ?_
    rw [abs_of_nonneg hs]; linarith
  have hq : |val p * val (rootL x)| ≤ 20006/10000 := by
    rw [abs_mul]; refine (mul_le_mul hp hr (abs_nonneg _) (by norm_num)).trans (by norm_num)
  obtain ⟨m1, m2, m3⟩ := mul_abs p1 r1 hq (by norm_num)
  refine ⟨m1, ?_⟩
  have e : val (Lane.mul p (rootL x)) - Real.arccos (val x) = (val (Lane.mul p (rootL x)) - val p * val (rootL x)) + val p * (val (rootL x) - √(1 - val x)) +
      (val p - Q (val x)) * √(1 - val x) + (√(1 - val x) * Q (val x) - Real.arccos (val x)) := by ring
  rw [e]
  refine (abs_add_le _ _).trans ((add_le_add ((abs_add_le _ _).trans (add_le_add (abs_add_le _ _) le_rfl)) le_rfl).trans ?_)
  have q1 : |val p * (val (rootL x) - √(1 - val x))| ≤ 2 * (203/100 * ulp2) := by
    rw [abs_mul]; exact mul_le_mul hp r2 (abs_nonneg _) (by norm_num)
  have q2 : |(val p - Q (val x)) * √(1 - val x)| ≤ k * ulp2 := by
    rw [abs_mul, abs_of_nonneg hs]
    calc _ ≤ |val p - Q (val x)| * 1 := mul_le_mul_of_nonneg_left r3 (abs_nonneg _)
      _ ≤ _ := by rw [mul_one]; exact p2
  have q3 : ulp2 * (20006/10000 + tiny) ≤ 201/100 * ulp2 := by
    rw [mul_comm]; exact mul_le_mul_of_nonneg_right (by linarith) hu.le
  linarith

/-- Completing the arc cosine by the sign of the argument. -/
theorem acos_f {V x t : F32 P} {e E : ℝ} (hV : Fin' V) (hx : val x = |val V|) (hb : |val V| ≤ 1) (ht : Fin' t ∧ |val t - Real.arccos (val x)| ≤ e) (he : e ≤ 1/100)
    (hE : e + 88/10^9 + 316/100 * ulp2 ≤ E) :
    (0 ≤ val V → Fin' t ∧ |val t - Real.arccos (val V)| ≤ E) ∧
    (val V < 0 → Fin' (Lane.sub (lit 0x40490FDB#32) t) ∧ |val (Lane.sub (lit 0x40490FDB#32) t) - Real.arccos (val V)| ≤ E) := by
  have hu := u_pos
  have hpp := piF_pi
  obtain ⟨t1, t2⟩ := ht
  refine ⟨fun h => ⟨t1, ?_⟩, fun h => ?_⟩
  · rw [hx, abs_of_nonneg h] at t2; linarith
  · have ea : Real.arccos (val V) = Real.pi - Real.arccos (val x) := by rw [hx, abs_of_neg h, Real.arccos_neg]; ring
    have a0 := Real.arccos_nonneg (val x); have a1 : Real.arccos (val x) ≤ Real.pi / 2 := Real.arccos_le_pi_div_two.2 (by rw [hx]; exact abs_nonneg _)
    have hpi := Real.pi_lt_d2
    have hpi' := Real.pi_gt_d2
    have hq : |val (lit 0x40490FDB#32 : F32 P) - val t| ≤ 316/100 := by
      rw [piL_val]
      have b := abs_le.1 t2
      have b2 := abs_le.1 hpp
      rw [abs_le]; norm_num at hpi hpi' b b2 ⊢; constructor <;> linarith [b.1, b.2, b2.1, b2.2]
    obtain ⟨m1, m2⟩ := sub_abs (lit_fin (P := P) (b := 0x40490FDB#32) (by decide)) t1 hq (by norm_num)
    refine ⟨m1, ?_⟩
    rw [piL_val] at m2
    rw [ea]
    have e1 : val (Lane.sub (lit 0x40490FDB#32) t) - (Real.pi - Real.arccos (val x)) = (val (Lane.sub (lit 0x40490FDB#32) t) - (piF - val t)) + (piF - Real.pi) + -(val t - Real.arccos (val x)) := by ring
    rw [e1]
    refine (abs_add_le _ _).trans ((add_le_add (abs_add_le _ _) le_rfl).trans ?_)
    rw [abs_neg]
    linarith

/-- Arc sine from arc cosine. -/
theorem asin_f {V a r : F32 P} {e E : ℝ} (hb : |val V| ≤ 1) (ha : Fin' a ∧ |val a - Real.arccos (val V)| ≤ e) (he : e ≤ 1/100) (hr : r = Lane.sub (lit 0x3FC90FDB#32) a)
    (hE : e + 44/10^9 + 159/100 * ulp2 ≤ E) : Fin' r ∧ |val r - Real.arcsin (val V)| ≤ E := by
  subst hr
  have hpp := piF_pi
  obtain ⟨a1, a2⟩ := ha
  have ea : Real.arcsin (val V) = Real.pi / 2 - Real.arccos (val V) := by rw [Real.arccos]; ring
  have b1 := Real.neg_pi_div_two_le_arcsin (val V); have b2 := Real.arcsin_le_pi_div_two (val V)
  rw [ea] at b1 b2
  have hpi := Real.pi_lt_d2
  have hpi' := Real.pi_gt_d2
  have hq : |val (lit 0x3FC90FDB#32 : F32 P) - val a| ≤ 159/100 := by
    rw [halfPi_val]
    have b := abs_le.1 a2
    have b3 := abs_le.1 hpp
    rw [abs_le]; norm_num at hpi hpi' b b3 ⊢; constructor <;> linarith [b.1, b.2, b3.1, b3.2]
  obtain ⟨m1, m2⟩ := sub_abs (lit_fin (P := P) (b := 0x3FC90FDB#32) (by decide)) a1 hq (by norm_num)
  refine ⟨m1, ?_⟩
  rw [halfPi_val] at m2
  rw [ea]
  have e1 : val (Lane.sub (lit 0x3FC90FDB#32) a) - (Real.pi / 2 - Real.arccos (val V)) = (val (Lane.sub (lit 0x3FC90FDB#32) a) - (piF / 2 - val a)) + (piF - Real.pi) / 2 + -(val a - Real.arccos (val V)) := by ring
  rw [e1]
  refine (abs_add_le _ _).trans ((add_le_add (abs_add_le _ _) le_rfl).trans ?_)
  rw [abs_neg, abs_div, abs_of_pos (show (0:ℝ) < 2 by norm_num)]
  linarith

/-- The negated arc sine. -/
theorem asin_neg_f {V a r : F32 P} {e E : ℝ} (hb : |val V| ≤ 1) (ha : Fin' a ∧ |val a - Real.arccos (val V)| ≤ e) (he : e ≤ 1/100) (hr : r = Lane.sub a (lit 0x3FC90FDB#32))
    (hE : e + 44/10^9 + 159/100 * ulp2 ≤ E) : Fin' r ∧ |val r - -Real.arcsin (val V)| ≤ E := by
  subst hr
  have hpp := piF_pi
  obtain ⟨a1, a2⟩ := ha
  have ea : Real.arcsin (val V) = Real.pi / 2 - Real.arccos (val V) := by rw [Real.arccos]; ring
  have b1 := Real.neg_pi_div_two_le_arcsin (val V); have b2 := Real.arcsin_le_pi_div_two (val V)
  rw [ea] at b1 b2
  have hpi := Real.pi_lt_d2
  have hpi' := Real.pi_gt_d2
  have hq : |val a - val (lit 0x3FC90FDB#32 : F32 P)| ≤ 159/100 := by
    rw [halfPi_val]
    have b := abs_le.1 a2
    have b3 := abs_le.1 hpp
    rw [abs_le]; norm_num at hpi hpi' b b3 ⊢; constructor <;> linarith [b.1, b.2, b3.1, b3.2]
  obtain ⟨m1, m2⟩ := sub_abs a1 (lit_fin (P := P) (b := 0x3FC90FDB#32) (by decide)) hq (by norm_num)
  refine ⟨m1, ?_⟩
  rw [halfPi_val] at m2
  rw [ea]
  have e1 : val (Lane.sub a (lit 0x3FC90FDB#32)) - -(Real.pi / 2 - Real.arccos (val V)) = (val (Lane.sub a (lit 0x3FC90FDB#32)) - (val a - piF / 2)) + -((piF - Real.pi) / 2) + (val a - Real.arccos (val V)) := by ring
  rw [e1]
  refine (abs_add_le _ _).trans ((add_le_add (abs_add_le _ _) le_rfl).trans ?_)
  rw [abs_neg, abs_div, abs_of_pos (show (0:ℝ) < 2 by norm_num)]
  linarith

/-! ### The claims -/

theorem arcS_f {x : F32 P} (fx : Fin' x) (h0 : 0 ≤ val x) (h1 : val x ≤ 1) :
    Fin' (Lane.mul (arcPS x) (rootL x)) ∧ |val (Lane.mul (arcPS x) (rootL x)) - Real.arccos (val x)| ≤ 79/10^8 :=
  arc_f fx h0 h1 (arcPS_err fx (by rw [abs_of_nonneg h0]; exact h1) (by rw [abs_of_nonneg h0]; exact h1) (by simp)) (arcP_arccos _ h0 h1) (by norm_num) (by norm_num) (by norm_num [ulp2])
theorem arcV_f (c : Cfg) {x : F32 P} (fx : Fin' x) (h0 : 0 ≤ val x) (h1 : val x ≤ 1) :
    Fin' (Lane.mul (arcPV c x) (rootL x)) ∧ |val (Lane.mul (arcPV c x) (rootL x)) - Real.arccos (val x)| ≤ 79/10^8 :=
  arc_f fx h0 h1 (arcPV_err c fx (by rw [abs_of_nonneg h0]; exact h1) (by rw [abs_of_nonneg h0]; exact h1) (by simp)) (arcP_arccos _ h0 h1) (by norm_num) (by norm_num) (by norm_num [ulp2])
theorem arcES_f {x : F32 P} (fx : Fin' x) (h0 : 0 ≤ val x) (h1 : val x ≤ 1) :
    Fin' (Lane.mul (arcEPS x) (rootL x)) ∧ |val (Lane.mul (arcEPS x) (rootL x)) - Real.arccos (val x)| ≤ 1040/10^7 :=
  arc_f fx h0 h1 (arcEPS_err fx (by rw [abs_of_nonneg h0]; exact h1) (by rw [abs_of_nonneg h0]; exact h1) (by simp)) (arcEP_arccos _ h0 h1) (by norm_num) (by norm_num) (by norm_num [ulp2])
theorem arcEV_f (c : Cfg) {x : F32 P} (fx : Fin' x) (h0 : 0 ≤ val x) (h1 : val x ≤ 1) :
    Fin' (Lane.mul (arcEPV c x) (rootL x)) ∧ |val (Lane.mul (arcEPV c x) (rootL x)) - Real.arccos (val x)| ≤ 1040/10^7 :=
  arc_f fx h0 h1 (arcEPV_err c fx (by rw [abs_of_nonneg h0]; exact h1) (by rw [abs_of_nonneg h0]; exact h1) (by simp)) (arcEP_arccos _ h0 h1) (by norm_num) (by norm_num) (by norm_num [ulp2])

theorem ge_val {a b : F32 P} (ha : Fin' a) (hb : Fin' b) : Lane.ge a b = true ↔ val b ≤ val a := le_val hb ha

theorem scalarAcos {f : F32 P → F32 P} {e E : ℝ} {V : F32 P} (hV : Fin' V) (hb : |val V| ≤ 1) (hf : Fin' (f V) ∧ |val (f V) - Real.arccos (|val V|)| ≤ e) (he : e ≤ 1/100)
    (hE : e + 88/10^9 + 316/100 * ulp2 ≤ E) (hE' : e + 44/10^9 + 159/100 * ulp2 ≤ E) :
    FClose (if Lane.ge V (lit 0#32) then f V else Lane.sub (lit 0x40490FDB#32) (f V)).bits (Real.arccos (val V)) E ∧
    FClose (if Lane.ge V (lit 0#32) then Lane.sub (lit 0x3FC90FDB#32) (f V) else Lane.sub (f V) (lit 0x3FC90FDB#32)).bits (Real.arcsin (val V)) E := by
  have f0 : Fin' (lit 0#32 : F32 P) := lit_fin (by decide)
  have hge : Lane.ge V (lit 0#32) = true ↔ 0 ≤ val V := by rw [ge_val hV f0, zeroL_val]
  obtain ⟨h1, h2⟩ := acos_f (x := Lane.abs V) (t := f V) hV (abs_val V) hb (by rw [abs_val]; exact hf) he hE
  by_cases h : 0 ≤ val V
  · rw [if_pos (hge.2 h), if_pos (hge.2 h)]
    refine ⟨h1 h, asin_f (V := V) hb (by rw [abs_of_nonneg h] at hf; exact hf) he rfl hE'⟩
  · rw [if_neg (fun g => h (hge.1 g)), if_neg (fun g => h (hge.1 g))]
    push Not at h
    refine ⟨h2 h, ?_⟩
    have g := asin_neg_f (V := Lane.abs V) (a := f V) (r := Lane.sub (f V) (lit 0x3FC90FDB#32)) (by rw [abs_val, abs_abs]; exact hb) (by rw [abs_val]; exact hf) he rfl hE'
    rw [abs_val, abs_of_neg h, Real.arcsin_neg, _root_.neg_neg] at g
    exact g

/-- C111: the scalar arc functions of every build, on every binary32 in [-1, 1]. -/
theorem C111_scalar (x : F32 P) (hx : IsFinite x.bits) (hb : |value x.bits| ≤ 1) : let v := value x.bits
    FClose (XMScalarACos x).bits (Real.arccos v) (11/10^7) ∧ FClose (XMScalarASin x).bits (Real.arcsin v) (11/10^7) ∧
    FClose (XMScalarACosEst x).bits (Real.arccos v) (1045/10^7) ∧ FClose (XMScalarASinEst x).bits (Real.arcsin v) (1045/10^7) := by
  have fa := abs_fin (P := P) hx
  have h0 : 0 ≤ val (Lane.abs x) := by rw [abs_val]; exact abs_nonneg _
  have h1 : val (Lane.abs x) ≤ 1 := by rw [abs_val]; exact hb
  have g1 := arcS_f fa h0 h1
  have g2 := arcES_f fa h0 h1
  rw [abs_val] at g1 g2
  have k1 := scalarAcos (f := scalarArcPoly) (E := 11/10^7) hx hb g1 (by norm_num) (by norm_num [ulp2]) (by norm_num [ulp2])
  have k2 := scalarAcos (f := scalarArcEstPoly) (E := 1045/10^7) hx hb g2 (by norm_num) (by norm_num [ulp2]) (by norm_num [ulp2])
  exact ⟨k1.1, k1.2, k2.1, k2.2⟩

/-- The absolute value as the vector code computes it. -/
theorem maxabs {V : F32 P} (hV : Fin' V) : Fin' (Lane.maxps V (Lane.sub (lit 0#32) V)) ∧ val (Lane.maxps V (Lane.sub (lit 0#32) V)) = |val V| := by
  have f0 : Fin' (lit 0#32 : F32 P) := lit_fin (by decide)
  have r := sub_rounds P (a := 0#32) (b := V.bits) (by decide) hV
  have e : value (0#32 : BitVec 32) - value V.bits = value (IEEE.neg V.bits) := by
    rw [IEEE.neg_value, show value 0#32 = 0 from zeroL_val (P := P)]; ring
  rw [e] at r
  obtain ⟨g1, g2⟩ := rounds_exact (finite_neg.2 hV) r
  rw [IEEE.neg_value] at g2
  have g1' : Fin' (Lane.sub (lit 0#32) V) := g1
  have g2' : val (Lane.sub (lit 0#32) V) = -val V := g2
  unfold Lane.maxps
  by_cases h : val (Lane.sub (lit 0#32) V) < val V
  · rw [if_pos ((lt_val g1' hV).2 h)]
    refine ⟨hV, ?_⟩
    rw [g2'] at h; rw [abs_of_nonneg (by linarith)]
  · rw [if_neg (fun g => h ((lt_val g1' hV).1 g))]
    refine ⟨g1', ?_⟩
    rw [g2'] at h ⊢; push Not at h; rw [abs_of_nonpos (by linarith)]

theorem arcPoly_lane (c : Cfg) (V : V4 (F32 P)) (i : Fin 4) : (arcPoly c V).lane i =
    (let x := Lane.maxps (V.lane i) (Lane.sub (lit 0#32) (V.lane i)); let t := Lane.mul (arcPV c x) (rootL x)
     if Lane.ge (V.lane i) (lit 0#32) then t else Lane.sub (lit 0x40490FDB#32) t) := by
  have hg : ∀ A B : V4 (F32 P), (SSE.cmpge A B).lane i = Lane.mask (Lane.ge (A.lane i) (B.lane i)) := fun A B => by fin_cases i <;> rfl
  have hs : ∀ A B : V4 (F32 P), (SSE.sub A B).lane i = Lane.sub (A.lane i) (B.lane i) := fun A B => by fin_cases i <;> rfl
  have hx : ∀ A B : V4 (F32 P), (SSE.max A B).lane i = Lane.maxps (A.lane i) (B.lane i) := fun A B => by fin_cases i <;> rfl
  have hq : ∀ A : V4 (F32 P), (SSE.sqrt A).lane i = Lane.sqrt (A.lane i) := fun A => by fin_cases i <;> rfl
  have hl : ∀ (A B : V4 (F32 P)), (SSE.or A B).lane i = Lane.bor (A.lane i) (B.lane i) := fun A B => by fin_cases i <;> rfl
  have ha : ∀ (A B : V4 (F32 P)), (SSE.and A B).lane i = Lane.band (A.lane i) (B.lane i) := fun A B => by fin_cases i <;> rfl
  have hn : ∀ (A B : V4 (F32 P)), (SSE.andnot A B).lane i = Lane.bandn (A.lane i) (B.lane i) := fun A B => by fin_cases i <;> rfl
  have g0 : (g_XMZero : V4 (F32 P)).lane i = lit 0#32 := by fin_cases i <;> rfl
  have g1 : (g_XMOne : V4 (F32 P)).lane i = lit 0x3F800000#32 := by fin_cases i <;> rfl
  have g2 : (g_XMPi : V4 (F32 P)).lane i = lit 0x40490FDB#32 := by fin_cases i <;> rfl
  unfold arcPoly
  simp only [hg, hs, hx, hq, hl, ha, hn, mul_lane, fmadd_lane, g0, g1, g2, sel1]
  generalize V.lane i = v
  fin_cases i <;> rfl
theorem arcEstPoly_lane (c : Cfg) (V : V4 (F32 P)) (i : Fin 4) : (arcEstPoly c V).lane i =
    (let x := Lane.maxps (V.lane i) (Lane.sub (lit 0#32) (V.lane i)); let t := Lane.mul (arcEPV c x) (rootL x)
     if Lane.ge (V.lane i) (lit 0#32) then t else Lane.sub (lit 0x40490FDB#32) t) := by
  have hg : ∀ A B : V4 (F32 P), (SSE.cmpge A B).lane i = Lane.mask (Lane.ge (A.lane i) (B.lane i)) := fun A B => by fin_cases i <;> rfl
  have hs : ∀ A B : V4 (F32 P), (SSE.sub A B).lane i = Lane.sub (A.lane i) (B.lane i) := fun A B => by fin_cases i <;> rfl
  have hx : ∀ A B : V4 (F32 P), (SSE.max A B).lane i = Lane.maxps (A.lane i) (B.lane i) := fun A B => by fin_cases i <;> rfl
  have hq : ∀ A : V4 (F32 P), (SSE.sqrt A).lane i = Lane.sqrt (A.lane i) := fun A => by fin_cases i <;> rfl
  have hl : ∀ (A B : V4 (F32 P)), (SSE.or A B).lane i = Lane.bor (A.lane i) (B.lane i) := fun A B => by fin_cases i <;> rfl
  have ha : ∀ (A B : V4 (F32 P)), (SSE.and A B).lane i = Lane.band (A.lane i) (B.lane i) := fun A B => by fin_cases i <;> rfl
  have hn : ∀ (A B : V4 (F32 P)), (SSE.andnot A B).lane i = Lane.bandn (A.lane i) (B.lane i) := fun A B => by fin_cases i <;> rfl
  have g0 : (g_XMZero : V4 (F32 P)).lane i = lit 0#32 := by fin_cases i <;> rfl
  have g1 : (g_XMOne : V4 (F32 P)).lane i = lit 0x3F800000#32 := by fin_cases i <;> rfl
  have g2 : (g_XMPi : V4 (F32 P)).lane i = lit 0x40490FDB#32 := by fin_cases i <;> rfl
  unfold arcEstPoly
  simp only [hg, hs, hx, hq, hl, ha, hn, mul_lane, fmadd_lane, g0, g1, g2, sel1]
  generalize V.lane i = v
  fin_cases i <;> rfl

theorem vectorAcos {V x t : F32 P} {e E : ℝ} (hV : Fin' V) (hx : val x = |val V|) (hb : |val V| ≤ 1) (ht : Fin' t ∧ |val t - Real.arccos (val x)| ≤ e) (he : e ≤ 1/100)
    (hE : e + 88/10^9 + 316/100 * ulp2 ≤ E) :
    Fin' (if Lane.ge V (lit 0#32) then t else Lane.sub (lit 0x40490FDB#32) t) ∧
    |val (if Lane.ge V (lit 0#32) then t else Lane.sub (lit 0x40490FDB#32) t) - Real.arccos (val V)| ≤ E := by
  have f0 : Fin' (lit 0#32 : F32 P) := lit_fin (by decide)
  have hge : Lane.ge V (lit 0#32) = true ↔ 0 ≤ val V := by rw [ge_val hV f0, zeroL_val]
  obtain ⟨h1, h2⟩ := acos_f hV hx hb ht he hE
  by_cases h : 0 ≤ val V
  · rw [if_pos (hge.2 h)]; exact h1 h
  · rw [if_neg (fun g => h (hge.1 g))]; push Not at h; exact h2 h

/-- C111: the vector arc functions of the SSE builds, each lane on its own. -/
theorem C111_vector (c : Cfg) (hc : c.sse = true) (V : V4 (F32 P)) (i : Fin 4) (hx : IsFinite (V.lane i).bits) (hb : |value (V.lane i).bits| ≤ 1) :
    let v := value (V.lane i).bits
    FClose ((XMVectorACos c V).lane i).bits (Real.arccos v) (11/10^7) ∧ FClose ((XMVectorASin c V).lane i).bits (Real.arcsin v) (13/10^7) ∧
    FClose ((XMVectorACosEst c V).lane i).bits (Real.arccos v) (1045/10^7) ∧ FClose ((XMVectorASinEst c V).lane i).bits (Real.arcsin v) (1047/10^7) := by
  have hs : ∀ A : V4 (F32 P), (SSE.sub g_XMHalfPi A).lane i = Lane.sub (lit 0x3FC90FDB#32) (A.lane i) := fun A => by fin_cases i <;> rfl
  obtain ⟨fx, ex⟩ := maxabs (P := P) hx
  have h0 : 0 ≤ val (Lane.maxps (V.lane i) (Lane.sub (lit 0#32) (V.lane i))) := by rw [ex]; exact abs_nonneg _
  have h1 : val (Lane.maxps (V.lane i) (Lane.sub (lit 0#32) (V.lane i))) ≤ 1 := by rw [ex]; exact hb
  have k1 := vectorAcos (E := 107/10^8) hx ex hb (arcV_f c fx h0 h1) (by norm_num) (by norm_num [ulp2])
  have k2 := vectorAcos (E := 1043/10^7) hx ex hb (arcEV_f c fx h0 h1) (by norm_num) (by norm_num [ulp2])
  have q1 := asin_f (V := V.lane i) (E := 13/10^7) hb k1 (by norm_num) rfl (by norm_num [ulp2])
  have q2 := asin_f (V := V.lane i) (E := 1047/10^7) hb k2 (by norm_num) rfl (by norm_num [ulp2])
  unfold XMVectorACos XMVectorASin XMVectorACosEst XMVectorASinEst
  rw [if_pos hc, if_pos hc, if_pos hc, if_pos hc, hs, hs, arcPoly_lane, arcEstPoly_lane]
  exact ⟨⟨k1.1, k1.2.trans (by norm_num)⟩, q1, ⟨k2.1, k2.2.trans (by norm_num)⟩, q2⟩

/-- A case: -0.75. -/
example : IsFinite (F32.ofBV 0xBF400000#32 : F32 P).bits ∧ |value (F32.ofBV 0xBF400000#32 : F32 P).bits| ≤ 1 := by
  refine ⟨by show IsFinite 0xBF400000#32; decide, ?_⟩
  show |value 0xBF400000#32| ≤ _
  rw [value_eq, show ival 0xBF400000#32 = -(3 * 2^147) by decide +kernel]; push_cast
  rw [abs_le]; constructor <;> norm_num

end DXM.Props
