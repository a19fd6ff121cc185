import Verif.Lemmas.FPoly
import Verif.Lemmas.Trig

/-
Binary32 argument reduction of the sine and cosine functions, and the error of the whole computation.
-/

set_option linter.all false

namespace DXM
open DXM.Spec DXM.IEEE DXM.FErr DXM.Trig Real
variable {P : Env}

theorem twoPi_val : val (lit 0x40C90FDB#32 : F32 P) = 2 * piF := by
  rw [lit_val (n := ival 0x40C90FDB#32) rfl, show ival 0x40C90FDB#32 = (13176795 * 2^128) by decide +kernel]; push_cast; norm_num [piF]
theorem piL_val : val (lit 0x40490FDB#32 : F32 P) = piF := by
  rw [lit_val (n := ival 0x40490FDB#32) rfl, show ival 0x40490FDB#32 = (13176795 * 2^127) by decide +kernel]; push_cast; norm_num [piF]
theorem halfPi_val : val (lit 0x3FC90FDB#32 : F32 P) = piF / 2 := by
  rw [lit_val (n := ival 0x3FC90FDB#32) rfl, show ival 0x3FC90FDB#32 = (13176795 * 2^126) by decide +kernel]; push_cast; norm_num [piF]
theorem kL_val : val (lit 0x3E22F983#32 : F32 P) = kF := by
  rw [lit_val (n := ival 0x3E22F983#32) rfl, show ival 0x3E22F983#32 = (10680707 * 2^123) by decide +kernel]; push_cast; norm_num [kF]
theorem oneL_val : val (lit 0x3F800000#32 : F32 P) = 1 := value_one
theorem neg1L_val : val (lit 0xBF800000#32 : F32 P) = -1 := by
  rw [lit_val (n := ival 0xBF800000#32) rfl, show ival 0xBF800000#32 = -(1 * 2^149) by decide +kernel]; push_cast; norm_num

/-- Subtracting `n` turns of the binary32 2π. -/
theorem reduce_core {V q x : F32 P} (hV : Fin' V) (hv : |val V| ≤ 10^6) (n : ℤ) (fq : Fin' q) (eq : val q = n) (hn : |(n:ℝ) - kF * val V| ≤ 52/100)
    (hx : x = Lane.fnma q (lit 0x40C90FDB#32) V ∨ x = Lane.sub V (Lane.mul q (lit 0x40C90FDB#32)) ∨ x = Lane.sub V (Lane.mul (lit 0x40C90FDB#32) q)) :
    Fin' x ∧ |val x - (val V - 2 * piF * n)| ≤ 6/10^8 * |val V| + 4/10^7 ∧ |val x| ≤ 336/100 ∧ |(n:ℝ)| ≤ 52/100 + 15916/100000 * |val V| := by
  have hu : ulp2 = 1/2^24 := rfl
  have ht : tiny ≤ 1/2^100 := by unfold tiny; norm_num
  have ht0 := tiny_pos
  have hv0 := abs_nonneg (val V)
  have f2 : Fin' (lit 0x40C90FDB#32 : F32 P) := lit_fin (by decide)
  have hp2 : (2 * piF) * (2:ℝ) ≤ 1257/100 := by norm_num [piF]
  have hn' : |(n:ℝ)| ≤ 52/100 + kF * |val V| := by
    have e : (n:ℝ) = (n - kF * val V) + kF * val V := by ring
    rw [e]
    refine (abs_add_le _ _).trans ?_
    rw [abs_mul kF, abs_of_pos (show (0:ℝ) < kF by norm_num [kF])]
    linarith
  have hn2 : |(n:ℝ)| ≤ 52/100 + 15916/100000 * |val V| := by
    have : kF * |val V| ≤ 15916/100000 * |val V| := mul_le_mul_of_nonneg_right (by norm_num [kF]) hv0
    linarith
  have hm : |2 * piF * (n:ℝ)| ≤ 3268/1000 + 10000001/10000000 * |val V| := by
    rw [abs_mul, abs_of_pos (show (0:ℝ) < 2 * piF by norm_num [piF])]
    have h1 := mul_le_mul_of_nonneg_left hn' (show (0:ℝ) ≤ 2 * piF by norm_num [piF])
    have h2 : 2 * piF * (kF * |val V|) ≤ 10000001/10000000 * |val V| := by
      rw [← mul_assoc]; exact mul_le_mul_of_nonneg_right (by norm_num [piF, kF]) hv0
    have h3 : 2 * piF * (52/100:ℝ) ≤ 3268/1000 := by norm_num [piF]
    linarith
  have hy : |val V - 2 * piF * n| ≤ 3282/1000 := by
    have e : val V - 2 * piF * n = val V * (1 - 2 * piF * kF) + 2 * piF * (kF * val V - n) := by ring
    rw [e]
    refine (abs_add_le _ _).trans ?_
    rw [abs_mul, abs_mul, abs_sub_comm (kF * val V)]
    have h1 : |1 - 2 * piF * kF| ≤ 13/1000000000 := by rw [abs_le]; constructor <;> norm_num [piF, kF]
    have h2 : |2 * piF| = 2 * piF := abs_of_pos (by norm_num [piF])
    rw [h2]
    have h4 := mul_le_mul hv h1 (abs_nonneg _) (by norm_num)
    have h5 := mul_le_mul_of_nonneg_left hn (show (0:ℝ) ≤ 2 * piF by norm_num [piF])
    have h3 : 2 * piF * (52/100:ℝ) ≤ 3268/1000 := by norm_num [piF]
    linarith
  have key : ∀ m : F32 P, Fin' m → |val m - 2 * piF * n| ≤ ulp2 * (|2 * piF * (n:ℝ)| + tiny) →
      Fin' (Lane.sub V m) ∧ |val (Lane.sub V m) - (val V - 2 * piF * n)| ≤ 6/10^8 * |val V| + 4/10^7 ∧ |val (Lane.sub V m)| ≤ 336/100 := by
    intro m fm em
    rw [hu] at em
    have em1 : |val m - 2 * piF * n| ≤ 1/2^24 * (3269/1000 + 10000001/10000000 * |val V|) := em.trans (mul_le_mul_of_nonneg_left (by linarith [show (1:ℝ)/2^100 ≤ 1/1000 by norm_num]) (by norm_num))
    have e : val V - val m = (val V - 2 * piF * n) - (val m - 2 * piF * n) := by ring
    have hb : |val V - val m| ≤ 335/100 := by
      rw [e]; refine (abs_sub _ _).trans ?_
      have h1 : (1:ℝ)/2^24 * (3269/1000 + 10000001/10000000 * |val V|) ≤ 6/100 := by
        norm_num at hv ⊢; linarith
      linarith
    obtain ⟨g1, g2⟩ := sub_abs hV fm hb (by norm_num)
    refine ⟨g1, ?_, ?_⟩
    · have e2 : val (Lane.sub V m) - (val V - 2 * piF * n) = (val (Lane.sub V m) - (val V - val m)) - (val m - 2 * piF * n) := by ring
      rw [e2]; refine (abs_sub _ _).trans ?_
      rw [hu] at g2
      norm_num at em1 g2 ⊢
      linarith
    · have e2 : val (Lane.sub V m) = (val (Lane.sub V m) - (val V - val m)) + (val V - val m) := by ring
      rw [e2]; refine (abs_add_le _ _).trans ?_
      rw [hu] at g2
      norm_num at g2 hb ⊢
      linarith
  have hmul : |2 * piF * (n:ℝ)| < overflow := lt_of_le_of_lt hm (lt_of_le_of_lt (show _ ≤ (2:ℝ)^30 by norm_num at hv ⊢; linarith) (by unfold overflow; norm_num))
  rcases hx with rfl | rfl | rfl
  · have r := fnma_rounds P fq f2 hV
    have r' : Rounds (val V - 2 * piF * n) (Lane.fnma q (lit 0x40C90FDB#32) V : F32 P).bits := by
      rw [← twoPi_val (P := P), ← eq, mul_comm (val (lit _ : F32 P))]; exact r
    obtain ⟨g1, g2⟩ := rounds_err r' (lt_of_le_of_lt hy (by unfold overflow; norm_num))
    have g2' : |val (Lane.fnma q (lit 0x40C90FDB#32) V : F32 P) - (val V - 2 * piF * n)| ≤ ulp2 * (|val V - 2 * piF * n| + tiny) := g2
    have g3 : |val (Lane.fnma q (lit 0x40C90FDB#32) V : F32 P) - (val V - 2 * piF * n)| ≤ 4/10^7 := g2'.trans (by rw [hu]; norm_num at ht ⊢; linarith)
    refine ⟨g1, by linarith [show (0:ℝ) ≤ 6/10^8 * |val V| by positivity], ?_, hn2⟩
    have e2 : val (Lane.fnma q (lit 0x40C90FDB#32) V : F32 P) = (val (Lane.fnma q (lit 0x40C90FDB#32) V : F32 P) - (val V - 2 * piF * n)) + (val V - 2 * piF * n) := by ring
    rw [e2]; refine (abs_add_le _ _).trans ?_
    norm_num at g3 ⊢; linarith
  · have r := mul_rounds P fq f2
    have r' : Rounds (2 * piF * n) (Lane.mul q (lit 0x40C90FDB#32) : F32 P).bits := by
      rw [← twoPi_val (P := P), ← eq, mul_comm (val (lit _ : F32 P))]; exact r
    obtain ⟨g1, g2⟩ := rounds_err r' hmul
    obtain ⟨k1, k2, k3⟩ := key _ g1 g2
    exact ⟨k1, k2, k3, hn2⟩
  · have r := mul_rounds P f2 fq
    have r' : Rounds (2 * piF * n) (Lane.mul (lit 0x40C90FDB#32) q : F32 P).bits := by
      rw [← twoPi_val (P := P), ← eq]; exact r
    obtain ⟨g1, g2⟩ := rounds_err r' hmul
    obtain ⟨k1, k2, k3⟩ := key _ g1 g2
    exact ⟨k1, k2, k3, hn2⟩

/-- `s` is ±1, `x` is in the half turn around zero and (sin x, s cos x) is close to (sin v, cos v). -/
structure RedF (v : ℝ) (x s : F32 P) : Prop where
  fx : Fin' x
  fs : Fin' s
  small : |val x| ≤ 15708/10000
  sign : |val s| = 1
  sin : |Real.sin (val x) - Real.sin v| ≤ 7/10^7 + 9/10^8 * |v|
  cos : |val s * Real.cos (val x) - Real.cos v| ≤ 7/10^7 + 9/10^8 * |v|


/-- Reflection into the half turn around zero. -/
theorem reflect_core {V x : F32 P} (hv : |val V| ≤ 10^6) (n : ℤ) (fx : Fin' x) (h : |val x - (val V - 2 * piF * n)| ≤ 6/10^8 * |val V| + 4/10^7)
    (hb : |val x| ≤ 336/100) (hn : |(n:ℝ)| ≤ 52/100 + 15916/100000 * |val V|) :
    (|val x| ≤ piF / 2 → RedF (val V) x (lit 0x3F800000#32)) ∧
    (∀ np : F32 P, piF / 2 < val x → RedF (val V) (Lane.sub (lit 0x40490FDB#32) x) (lit 0xBF800000#32)) ∧
    (∀ np : F32 P, Fin' np → val np = -piF → val x < -(piF / 2) → RedF (val V) (Lane.sub np x) (lit 0xBF800000#32)) := by
  have hu : ulp2 = 1/2^24 := rfl
  have hv0 := abs_nonneg (val V)
  have hpp := piF_pi
  obtain ⟨t1, t2⟩ := turn (val V) _ n rfl
  have hs : |(n:ℝ)| * (176/10^9) ≤ 92/10^9 + 281/10^10 * |val V| := by
    have := mul_le_mul_of_nonneg_right hn (show (0:ℝ) ≤ 176/10^9 by norm_num)
    linarith
  have s1 : |Real.sin (val x) - Real.sin (val V)| ≤ 492/10^9 + 881/10^10 * |val V| := by
    have a := sin_lip (val x) (val V - 2 * piF * n)
    have e := abs_sub_le (Real.sin (val x)) (Real.sin (val V - 2 * piF * n)) (Real.sin (val V))
    exact e.trans ((add_le_add (a.trans h) (t1.trans hs)).trans (le_of_eq (by ring)))
  have c1 : |Real.cos (val x) - Real.cos (val V)| ≤ 492/10^9 + 881/10^10 * |val V| := by
    have a := cos_lip (val x) (val V - 2 * piF * n)
    have e := abs_sub_le (Real.cos (val x)) (Real.cos (val V - 2 * piF * n)) (Real.cos (val V))
    exact e.trans ((add_le_add (a.trans h) (t2.trans hs)).trans (le_of_eq (by ring)))
  have hb' := abs_le.1 hb
  refine ⟨fun h1 => ⟨fx, lit_fin (by decide), ?_, ?_, ?_, ?_⟩, fun np h1 => ?_, fun np fnp enp h1 => ?_⟩
  · refine h1.trans (by norm_num [piF])
  · rw [oneL_val]; norm_num
  · linarith
  · rw [oneL_val, one_mul]; linarith
  · have hd : |val (lit 0x40490FDB#32 : F32 P) - val x| ≤ 15707964/10000000 := by
      rw [piL_val, abs_le]; constructor <;> norm_num [piF] at * <;> linarith
    obtain ⟨g1, g2⟩ := sub_abs (lit_fin (P := P) (b := 0x40490FDB#32) (by decide)) fx hd (by norm_num)
    rw [piL_val] at g2 hd
    rw [hu] at g2
    have hc : |val (Lane.sub (lit 0x40490FDB#32) x : F32 P) - (π - val x)| ≤ 2/10^7 := by
      have e := abs_sub_le (val (Lane.sub (lit 0x40490FDB#32) x : F32 P)) (piF - val x) (π - val x)
      rw [show piF - val x - (π - val x) = piF - π by ring] at e
      norm_num at e g2 hpp ⊢; linarith
    refine ⟨g1, lit_fin (by decide), ?_, ?_, ?_, ?_⟩
    · have e : val (Lane.sub (lit 0x40490FDB#32) x : F32 P) = (val (Lane.sub (lit 0x40490FDB#32) x : F32 P) - (piF - val x)) + (piF - val x) := by ring
      rw [e]; refine (abs_add_le _ _).trans ?_
      norm_num at g2 hd ⊢; linarith
    · rw [neg1L_val]; norm_num
    · have a := (sin_lip _ _).trans hc
      rw [Real.sin_pi_sub] at a
      have e := abs_sub_le (Real.sin (val (Lane.sub (lit 0x40490FDB#32) x : F32 P))) (Real.sin (val x)) (Real.sin (val V))
      linarith
    · have a := (cos_lip _ _).trans hc
      rw [Real.cos_pi_sub] at a
      rw [neg1L_val]
      have e := abs_add_le (-(Real.cos (val (Lane.sub (lit 0x40490FDB#32) x : F32 P)) - -Real.cos (val x))) (Real.cos (val x) - Real.cos (val V))
      rw [abs_neg, show -(Real.cos (val (Lane.sub (lit 0x40490FDB#32) x : F32 P)) - -Real.cos (val x)) + (Real.cos (val x) - Real.cos (val V)) = -1 * Real.cos (val (Lane.sub (lit 0x40490FDB#32) x : F32 P)) - Real.cos (val V) by ring] at e
      linarith
  · have hd : |val np - val x| ≤ 15707964/10000000 := by
      rw [enp, abs_le]; constructor <;> norm_num [piF] at * <;> linarith
    obtain ⟨g1, g2⟩ := sub_abs fnp fx hd (by norm_num)
    rw [enp] at g2 hd
    rw [hu] at g2
    have hc : |val (Lane.sub np x : F32 P) - (-π - val x)| ≤ 2/10^7 := by
      have e := abs_sub_le (val (Lane.sub np x : F32 P)) (-piF - val x) (-π - val x)
      rw [show -piF - val x - (-π - val x) = -(piF - π) by ring, abs_neg] at e
      norm_num at e g2 hpp ⊢; linarith
    refine ⟨g1, lit_fin (by decide), ?_, ?_, ?_, ?_⟩
    · have e : val (Lane.sub np x : F32 P) = (val (Lane.sub np x : F32 P) - (-piF - val x)) + (-piF - val x) := by ring
      rw [e]; refine (abs_add_le _ _).trans ?_
      norm_num at g2 hd ⊢; linarith
    · rw [neg1L_val]; norm_num
    · have a := (sin_lip _ _).trans hc
      rw [show -π - val x = -(val x + π) by ring, Real.sin_neg, Real.sin_add_pi, _root_.neg_neg] at a
      have e := abs_sub_le (Real.sin (val (Lane.sub np x : F32 P))) (Real.sin (val x)) (Real.sin (val V))
      linarith
    · have a := (cos_lip _ _).trans hc
      rw [show -π - val x = -(val x + π) by ring, Real.cos_neg, Real.cos_add_pi] at a
      rw [neg1L_val]
      have e := abs_add_le (-(Real.cos (val (Lane.sub np x : F32 P)) - -Real.cos (val x))) (Real.cos (val x) - Real.cos (val V))
      rw [abs_neg, show -(Real.cos (val (Lane.sub np x : F32 P)) - -Real.cos (val x)) + (Real.cos (val x) - Real.cos (val V)) = -1 * Real.cos (val (Lane.sub np x : F32 P)) - Real.cos (val V) by ring] at e
      linarith

/-- The square of the reduced angle. -/
theorem sq_lane {x : F32 P} (fx : Fin' x) (h : |val x| ≤ 15708/10000) :
    Fin' (Lane.mul x x) ∧ |val (Lane.mul x x)| ≤ 987/400 ∧ |(val x)^2| ≤ 987/400 ∧ |val (Lane.mul x x) - (val x)^2| ≤ 617/250/16777216 := by
  have hq : |val x * val x| ≤ 24674127/10000000 := by
    rw [abs_mul]
    refine (mul_le_mul h h (abs_nonneg _) (by norm_num)).trans (by norm_num)
  obtain ⟨m1, m2, m3⟩ := mul_abs fx fx hq (by norm_num)
  have ht : tiny ≤ 1/2^100 := by unfold tiny; norm_num
  refine ⟨m1, m3.trans ?_, by rw [pow_two]; exact hq.trans (by norm_num), ?_⟩
  · rw [show ulp2 = 1/2^24 from rfl]; norm_num at ht ⊢; linarith
  · rw [pow_two]; refine m2.trans ?_
    rw [show ulp2 = 1/2^24 from rfl]; norm_num at ht ⊢; linarith

/-- Multiplying the sine polynomial by the angle. -/
theorem sin_final {v : ℝ} {x s p : F32 P} {Q : ℝ → ℝ} {k B ε E : ℝ} (hr : RedF v x s) (fp : Fin' p) (hk : |val p - Q ((val x)^2)| ≤ k * ulp2) (hB : |Q ((val x)^2)| ≤ B)
    (hQ : |val x * Q ((val x)^2) - Real.sin (val x)| ≤ ε) (hk4 : k ≤ 4) (hB2 : B ≤ 147/100) (hE : 7/10^7 + 237/100 * ulp2 + 15708/10000 * (k * ulp2) + ε ≤ E) :
    Fin' (Lane.mul p x) ∧ |val (Lane.mul p x) - Real.sin v| ≤ E + 9/10^8 * |v| := by
  have hu : ulp2 = 1/2^24 := rfl
  have ht : tiny ≤ 1/2^100 := by unfold tiny; norm_num
  have hvp : |val p| ≤ 1471/1000 := by
    have e : val p = (val p - Q ((val x)^2)) + Q ((val x)^2) := by ring
    rw [e]; refine (abs_add_le _ _).trans ?_
    have : k * ulp2 ≤ 4 * ulp2 := mul_le_mul_of_nonneg_right hk4 u_pos.le
    rw [hu] at this hk; norm_num at this hk ⊢; linarith
  have hq : |val p * val x| ≤ 232/100 := by
    rw [abs_mul]
    refine (mul_le_mul hvp hr.small (abs_nonneg _) (by norm_num)).trans (by norm_num)
  obtain ⟨m1, m2, m3⟩ := mul_abs fp hr.fx hq (by norm_num)
  refine ⟨m1, ?_⟩
  have e : val (Lane.mul p x) - Real.sin v = (val (Lane.mul p x) - val p * val x) + (val p - Q ((val x)^2)) * val x + (val x * Q ((val x)^2) - Real.sin (val x)) + (Real.sin (val x) - Real.sin v) := by ring
  rw [e]
  refine (abs_add_le _ _).trans ((add_le_add ((abs_add_le _ _).trans (add_le_add (abs_add_le _ _) le_rfl)) le_rfl).trans ?_)
  have h1 : |(val p - Q ((val x)^2)) * val x| ≤ 15708/10000 * (k * ulp2) := by
    rw [abs_mul, mul_comm]; exact mul_le_mul hr.small hk (abs_nonneg _) (by norm_num)
  have h2 : ulp2 * (232/100 + tiny) ≤ 237/100 * ulp2 := by
    rw [mul_comm]; exact mul_le_mul_of_nonneg_right (by norm_num at ht ⊢; linarith) u_pos.le
  have := hr.sin
  linarith

/-- Multiplying the cosine polynomial by the sign. -/
theorem cos_final {v : ℝ} {x s p r : F32 P} {Q : ℝ → ℝ} {k B ε E : ℝ} (hr : RedF v x s) (fp : Fin' p) (hk : |val p - Q ((val x)^2)| ≤ k * ulp2) (hB : |Q ((val x)^2)| ≤ B)
    (hQ : |Q ((val x)^2) - Real.cos (val x)| ≤ ε) (hk4 : k ≤ 8) (hB2 : B ≤ 252/100) (hE : 7/10^7 + 26/10 * ulp2 + k * ulp2 + ε ≤ E)
    (hm : r = Lane.mul p s ∨ r = Lane.mul s p) :
    Fin' r ∧ |val r - Real.cos v| ≤ E + 9/10^8 * |v| := by
  have hu : ulp2 = 1/2^24 := rfl
  have ht : tiny ≤ 1/2^100 := by unfold tiny; norm_num
  have hvp : |val p| ≤ 2521/1000 := by
    have e : val p = (val p - Q ((val x)^2)) + Q ((val x)^2) := by ring
    rw [e]; refine (abs_add_le _ _).trans ?_
    have : k * ulp2 ≤ 8 * ulp2 := mul_le_mul_of_nonneg_right hk4 u_pos.le
    rw [hu] at this hk; norm_num at this hk ⊢; linarith
  have hq : |val p * val s| ≤ 2521/1000 := by
    rw [abs_mul, hr.sign, mul_one]; exact hvp
  have hm' : Fin' r ∧ |val r - val p * val s| ≤ ulp2 * (2521/1000 + tiny) := by
    rcases hm with rfl | rfl
    · exact ⟨(mul_abs fp hr.fs hq (by norm_num)).1, (mul_abs fp hr.fs hq (by norm_num)).2.1⟩
    · rw [mul_comm] at hq
      rw [mul_comm (val p)]
      exact ⟨(mul_abs hr.fs fp hq (by norm_num)).1, (mul_abs hr.fs fp hq (by norm_num)).2.1⟩
  obtain ⟨m1, m2⟩ := hm'
  refine ⟨m1, ?_⟩
  have e : val r - Real.cos v = (val r - val p * val s) + (val p - Q ((val x)^2)) * val s + (Q ((val x)^2) - Real.cos (val x)) * val s + (val s * Real.cos (val x) - Real.cos v) := by ring
  rw [e]
  refine (abs_add_le _ _).trans ((add_le_add ((abs_add_le _ _).trans (add_le_add (abs_add_le _ _) le_rfl)) le_rfl).trans ?_)
  rw [abs_mul, abs_mul, hr.sign, mul_one, mul_one]
  have h2 : ulp2 * (2521/1000 + tiny) ≤ 26/10 * ulp2 := by
    rw [mul_comm]; exact mul_le_mul_of_nonneg_right (by norm_num at ht ⊢; linarith) u_pos.le
  have := hr.cos
  linarith

end DXM
