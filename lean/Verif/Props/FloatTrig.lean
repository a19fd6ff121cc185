import Verif.Props.Rounding
import Verif.Lemmas.FTrig
import Verif.Lemmas.FPolyLane
import Verif.Props.FloatExp
import Verif.Props.SquadNoi

/-
C110: sine and cosine on binary32 lanes: the vector forms of the SSE builds and the scalar forms of every build.
-/

set_option linter.all false

namespace DXM.Props
open DXM.Spec DXM.FErr DXM.IEEE DXM.Trig
variable {P : Env}

theorem small_am' {x : BitVec 32} (h : |value x| ≤ 2^22) : am x < 0x4B000000 := by
  by_contra hc
  have h1 : magN 0x4B000000 ≤ magN (am x) := magN_strictMono.monotone (not_lt.1 hc)
  have e : magN 0x4B000000 = 2^172 := by decide +kernel
  rw [value_abs] at h
  have h2 : ((2:ℝ)^172) ≤ (mag x : ℝ) := by rw [e] at h1; exact_mod_cast h1
  have h3 : (2:ℝ)^172 * 2^(-149:ℤ) ≤ 2^22 := le_trans (mul_le_mul_of_nonneg_right h2 (by positivity)) h
  norm_num at h3

theorem lt_val {a b : F32 P} (ha : Fin' a) (hb : Fin' b) : Lane.lt a b = true ↔ val a < val b := by
  show IEEE.lt a.bits b.bits = true ↔ _
  rw [lt_iff, flt_finite ha hb]
theorem le_val {a b : F32 P} (ha : Fin' a) (hb : Fin' b) : Lane.le a b = true ↔ val a ≤ val b := by
  show IEEE.le a.bits b.bits = true ↔ _
  rw [le_iff, fle_finite ha hb]

/-- The quotient of the angle by a turn, rounded once. -/
theorem quot_val {V t : F32 P} (hV : Fin' V) (hv : |val V| ≤ 10^6) (ht : t = Lane.mul V (lit 0x3E22F983#32) ∨ t = Lane.mul (lit 0x3E22F983#32) V) :
    Fin' t ∧ |val t - kF * val V| ≤ 96/10000 ∧ |val t| ≤ 2^18 ∧ |val t - kF * val V| ≤ ulp2 * (|kF * val V| + tiny) := by
  have fk : Fin' (lit 0x3E22F983#32 : F32 P) := lit_fin (by decide)
  have hb : |kF * val V| ≤ 159160 := by
    rw [abs_mul, abs_of_pos (show (0:ℝ) < kF by norm_num [kF])]
    calc kF * |val V| ≤ kF * 10^6 := mul_le_mul_of_nonneg_left hv (by norm_num [kF])
      _ ≤ _ := by norm_num [kF]
  have hr : Rounds (kF * val V) t.bits := by
    rcases ht with rfl | rfl
    · rw [mul_comm, ← kL_val (P := P)]; exact mul_rounds P hV fk
    · rw [← kL_val (P := P)]; exact mul_rounds P fk hV
  obtain ⟨g1, g2⟩ := rounds_err hr (lt_of_le_of_lt hb (by unfold overflow; norm_num))
  have g2' : |val t - kF * val V| ≤ ulp2 * (|kF * val V| + tiny) := g2
  have hu : ulp2 = 1/2^24 := rfl
  have htt : tiny ≤ 1/2^100 := by unfold tiny; norm_num
  have g3 : |val t - kF * val V| ≤ 96/10000 := g2'.trans (by rw [hu]; norm_num at htt ⊢; linarith)
  refine ⟨g1, g3, ?_, g2'⟩
  have e : val t = (val t - kF * val V) + kF * val V := by ring
  rw [e]; refine (abs_add_le _ _).trans ?_
  norm_num at g3 ⊢; linarith

theorem neg_val (a : F32 P) : val (Lane.neg a) = -val a := IEEE.neg_value a.bits
theorem neg_fin {a : F32 P} (h : Fin' a) : Fin' (Lane.neg a) := by
  show IsFinite (IEEE.neg a.bits)
  rw [finite_iff, show am (IEEE.neg a.bits) = am a.bits from am_neg _]; rwa [Fin', finite_iff] at h
theorem halfL_val : val (Lane.ofBits 0x3F000000#32 : F32 P) = 1/2 := half_value

/-- The scalar argument reduction. -/
theorem scalarReduce_f {V : F32 P} (hV : Fin' V) (hv : |val V| ≤ 10^6) : RedF (val V) (scalarReduce V).1 (scalarReduce V).2 := by
  have hu : ulp2 = 1/2^24 := rfl
  have htt : tiny ≤ 1/2^100 := by unfold tiny; norm_num
  have ht0 := tiny_pos
  have f0 : Fin' (Lane.ofBits 0#32 : F32 P) := by show IsFinite 0#32; decide
  have v0 : val (Lane.ofBits 0#32 : F32 P) = 0 := by show value 0#32 = 0; rw [value_zero_iff]; decide
  have fh : Fin' (Lane.ofBits 0x3F000000#32 : F32 P) := by show IsFinite 0x3F000000#32; decide
  have vh : val (Lane.ofBits 0x3F000000#32 : F32 P) = 1/2 := halfL_val
  set t : F32 P := Lane.mul (lit 0x3E22F983#32) V with htd
  obtain ⟨ft, t1, t2, t3⟩ := quot_val (t := t) hV hv (Or.inr rfl)
  -- the integer quotient
  have hq : ∃ n : ℤ, ∃ q : F32 P, (if Lane.ge V (Lane.ofBits 0#32) then Lane.castI (Lane.add t (Lane.ofBits 0x3F000000#32)) else Lane.castI (Lane.sub t (Lane.ofBits 0x3F000000#32))) = q ∧
      Fin' q ∧ val q = n ∧ |(n:ℝ) - kF * val V| ≤ 52/100 := by
    have hge : Lane.ge V (Lane.ofBits 0#32) = true ↔ 0 ≤ val V := by
      rw [← v0]; exact le_val f0 hV
    by_cases h0 : 0 ≤ val V
    · rw [if_pos (hge.2 h0)]
      have hb : |val t + val (Lane.ofBits 0x3F000000#32 : F32 P)| ≤ 159162 := by
        rw [vh]; refine (abs_add_le _ _).trans ?_
        have : |val t| ≤ 159161 := by
          have e : val t = (val t - kF * val V) + kF * val V := by ring
          rw [e]; refine (abs_add_le _ _).trans ?_
          have : |kF * val V| ≤ 159160 := by
            rw [abs_mul, abs_of_pos (show (0:ℝ) < kF by norm_num [kF])]
            calc kF * |val V| ≤ kF * 10^6 := mul_le_mul_of_nonneg_left hv (by norm_num [kF])
              _ ≤ _ := by norm_num [kF]
          linarith
        rw [abs_of_pos (show (0:ℝ) < 1/2 by norm_num)]; linarith
      obtain ⟨g1, g2⟩ := add_abs ft fh hb (by norm_num)
      rw [vh, hu] at g2
      rw [vh] at hb
      set w := Lane.add t (Lane.ofBits 0x3F000000#32 : F32 P)
      have hw : |val w| ≤ 2^22 := by
        have e : val w = (val w - (val t + 1/2)) + (val t + 1/2) := by ring
        rw [e]; refine (abs_add_le _ _).trans ?_
        norm_num at g2 hb ⊢; linarith
      have hk : 0 ≤ kF * val V := mul_nonneg (by norm_num [kF]) h0
      have hw0 : 0 ≤ val w := by
        have a := (abs_le.1 g2).1; have b := (abs_le.1 t1).1
        norm_num at a b ⊢; linarith
      obtain ⟨c1, c2⟩ := castI_value (a := w.bits) (small_am' hw)
      refine ⟨truncZ (value w.bits), _, rfl, c1, c2, ?_⟩
      have e : truncZ (value w.bits) = ⌊val w⌋ := by unfold truncZ; rw [if_pos hw0]
      rw [e]
      have l1 := Int.floor_le (val w); have l2 := Int.lt_floor_add_one (val w)
      have a := abs_le.1 g2; have b := abs_le.1 t1
      rw [abs_le]; norm_num at a b ⊢; constructor <;> linarith [a.1, a.2, b.1, b.2]
    · rw [if_neg (fun h => h0 (hge.1 h))]
      push Not at h0
      have hb : |val t - val (Lane.ofBits 0x3F000000#32 : F32 P)| ≤ 159162 := by
        rw [vh]; refine (abs_sub _ _).trans ?_
        have : |val t| ≤ 159161 := by
          have e : val t = (val t - kF * val V) + kF * val V := by ring
          rw [e]; refine (abs_add_le _ _).trans ?_
          have : |kF * val V| ≤ 159160 := by
            rw [abs_mul, abs_of_pos (show (0:ℝ) < kF by norm_num [kF])]
            calc kF * |val V| ≤ kF * 10^6 := mul_le_mul_of_nonneg_left hv (by norm_num [kF])
              _ ≤ _ := by norm_num [kF]
          linarith
        rw [abs_of_pos (show (0:ℝ) < 1/2 by norm_num)]; linarith
      obtain ⟨g1, g2⟩ := sub_abs ft fh hb (by norm_num)
      rw [vh, hu] at g2
      rw [vh] at hb
      set w := Lane.sub t (Lane.ofBits 0x3F000000#32 : F32 P)
      have hw : |val w| ≤ 2^22 := by
        have e : val w = (val w - (val t - 1/2)) + (val t - 1/2) := by ring
        rw [e]; refine (abs_add_le _ _).trans ?_
        norm_num at g2 hb ⊢; linarith
      have hk : kF * val V ≤ 0 := mul_nonpos_of_nonneg_of_nonpos (by norm_num [kF]) h0.le
      have hw0 : val w < 0 := by
        have a := (abs_le.1 g2).2; have b := (abs_le.1 t1).2
        norm_num at a b ⊢; linarith
      obtain ⟨c1, c2⟩ := castI_value (a := w.bits) (small_am' hw)
      refine ⟨truncZ (value w.bits), _, rfl, c1, c2, ?_⟩
      have e : truncZ (value w.bits) = ⌈val w⌉ := by unfold truncZ; rw [if_neg (not_le.2 hw0)]
      rw [e]
      have l1 := Int.le_ceil (val w); have l2 := Int.ceil_lt_add_one (val w)
      have a := abs_le.1 g2; have b := abs_le.1 t1
      rw [abs_le]; norm_num at a b ⊢; constructor <;> linarith [a.1, a.2, b.1, b.2]
  obtain ⟨n, q, eq, fq, vq, hn⟩ := hq
  obtain ⟨fx, x1, x2, x3⟩ := reduce_core (x := Lane.sub V (Lane.mul (lit 0x40C90FDB#32) q)) hV hv n fq vq hn (Or.inr (Or.inr rfl))
  obtain ⟨r1, r2, r3⟩ := reflect_core hv n fx x1 x2 x3
  have e : scalarReduce V = (let y := Lane.sub V (Lane.mul (lit 0x40C90FDB#32) q)
      if Lane.gt y (lit 0x3FC90FDB#32) then (Lane.sub (lit 0x40490FDB#32) y, lit 0xBF800000#32)
      else if Lane.lt y (Lane.neg (lit 0x3FC90FDB#32)) then (Lane.sub (Lane.neg (lit 0x40490FDB#32)) y, lit 0xBF800000#32)
      else (y, lit 0x3F800000#32)) := by
    rw [← eq]; rfl
  rw [e]
  clear e
  generalize Lane.sub V (Lane.mul (lit 0x40C90FDB#32) q) = y at *
  have fhp : Fin' (lit 0x3FC90FDB#32 : F32 P) := lit_fin (by decide)
  have hgt : Lane.gt y (lit 0x3FC90FDB#32) = true ↔ piF / 2 < val y := by
    rw [← halfPi_val (P := P)]; exact lt_val fhp fx
  have hlt : Lane.lt y (Lane.neg (lit 0x3FC90FDB#32)) = true ↔ val y < -(piF / 2) := by
    rw [← halfPi_val (P := P), ← neg_val]; exact lt_val fx (neg_fin fhp)
  dsimp only
  by_cases h1 : piF / 2 < val y
  · rw [if_pos (hgt.2 h1)]; exact r2 y h1
  · rw [if_neg (fun h => h1 (hgt.1 h))]
    by_cases h2 : val y < -(piF / 2)
    · rw [if_pos (hlt.2 h2)]
      exact r3 _ (neg_fin (lit_fin (by decide))) (by rw [neg_val, piL_val]) h2
    · rw [if_neg (fun h => h2 (hlt.1 h))]
      exact r1 (abs_le.2 ⟨by linarith, by linarith⟩)

/-- The vector argument reduction, one lane. -/
theorem trigReduce_f (c : Cfg) (hc : c.sse = true) (V : V4 (F32 P)) (i : Fin 4) (hV : Fin' (V.lane i)) (hv : |val (V.lane i)| ≤ 10^6) :
    RedF (val (V.lane i)) ((trigReduce c V).1.lane i) ((trigReduce c V).2.lane i) := by
  have et : (SSE.mul V g_XMReciprocalTwoPi).lane i = Lane.mul (V.lane i) (lit 0x3E22F983#32) := by fin_cases i <;> rfl
  obtain ⟨ft, t1, t2, t3⟩ := quot_val (t := Lane.mul (V.lane i) (lit 0x3E22F983#32)) hV hv (Or.inl rfl)
  obtain ⟨fq, n, hn, vq⟩ := (C14_round_partial c (SSE.mul V g_XMReciprocalTwoPi) i (Or.inl hc)).finite (by rw [et]; exact ft)
  rw [et] at hn
  set q := (XMVectorRound c (SSE.mul V g_XMReciprocalTwoPi)).lane i with hq
  have ex : (XMVectorModAngles c V).lane i = fnm c q (lit 0x40C90FDB#32) (V.lane i) := by
    unfold XMVectorModAngles; rw [if_pos hc]
    dsimp only
    rw [fnmadd_lane, ← hq]
    congr 1; fin_cases i <;> rfl
  have hnk : |(n:ℝ) - kF * val (V.lane i)| ≤ 52/100 := by
    have a := hn.1
    have e := abs_add_le ((n:ℝ) - val (Lane.mul (V.lane i) (lit 0x3E22F983#32))) (val (Lane.mul (V.lane i) (lit 0x3E22F983#32)) - kF * val (V.lane i))
    rw [sub_add_sub_cancel] at e
    have a' : |(n:ℝ) - val (Lane.mul (V.lane i) (lit 0x3E22F983#32))| ≤ 1/2 := by rw [abs_sub_comm]; exact a
    linarith
  obtain ⟨fx, x1, x2, x3⟩ := reduce_core (x := (XMVectorModAngles c V).lane i) hV hv n fq vq hnk (by
    rw [ex]; unfold fnm; split_ifs
    · exact Or.inl rfl
    · exact Or.inr (Or.inl rfl))
  obtain ⟨r1, r2, r3⟩ := reflect_core hv n fx x1 x2 x3
  have e1 : (trigReduce c V).1.lane i = (let x := (XMVectorModAngles c V).lane i; let s := Lane.band x (lit 0x80000000#32)
      if Lane.le (Lane.bandn s x) (lit 0x3FC90FDB#32) then x else Lane.sub (Lane.bor (lit 0x40490FDB#32) s) x) := by
    dsimp only
    rw [← sel1]; unfold trigReduce; dsimp only
    generalize XMVectorModAngles c V = X
    fin_cases i <;> rfl
  have e2 : (trigReduce c V).2.lane i = (let x := (XMVectorModAngles c V).lane i; let s := Lane.band x (lit 0x80000000#32)
      if Lane.le (Lane.bandn s x) (lit 0x3FC90FDB#32) then lit 0x3F800000#32 else lit 0xBF800000#32) := by
    dsimp only
    rw [← sel1]; unfold trigReduce; dsimp only
    generalize XMVectorModAngles c V = X
    fin_cases i <;> rfl
  rw [e1, e2]
  clear e1 e2 ex
  generalize (XMVectorModAngles c V).lane i = x at *
  dsimp only
  have fhp : Fin' (lit 0x3FC90FDB#32 : F32 P) := lit_fin (by decide)
  have hs : Lane.band x (lit 0x80000000#32) = lit (if sg x.bits then 0x80000000#32 else 0#32) := IEEE.and_sign x.bits
  rw [hs]
  by_cases hsg : sg x.bits = true
  · rw [if_pos hsg]
    have ha : Lane.bandn (lit 0x80000000#32) x = Lane.abs x := by
      show ~~~0x80000000#32 &&& x.bits = x.bits &&& 0x7FFFFFFF#32
      rw [BitVec.and_comm]; rfl
    have hx0 : val x ≤ 0 := value_nonpos_of hsg
    have hav : val (Lane.abs x) = -val x := by
      show value (IEEE.abs x.bits) = _
      show _ = -value x.bits
      rw [value_sign, value_sign x.bits, hsg, sg_abs]; unfold mag; rw [am_abs]; simp
    have fa : Fin' (Lane.abs x) := by
      show IsFinite (IEEE.abs x.bits)
      rw [finite_iff, am_abs]; exact (finite_iff _).1 fx
    have hle : Lane.le (Lane.bandn (lit 0x80000000#32) x) (lit 0x3FC90FDB#32) = true ↔ -val x ≤ piF / 2 := by
      rw [ha, ← halfPi_val (P := P), ← hav]; exact le_val fa fhp
    by_cases h1 : -val x ≤ piF / 2
    · rw [if_pos (hle.2 h1), if_pos (hle.2 h1)]
      exact r1 (by rw [abs_of_nonpos hx0]; exact h1)
    · rw [if_neg (fun h => h1 (hle.1 h)), if_neg (fun h => h1 (hle.1 h))]
      refine r3 _ ?_ ?_ (by linarith)
      · show IsFinite (0x40490FDB#32 ||| 0x80000000#32); decide
      · show value (0x40490FDB#32 ||| 0x80000000#32) = _
        rw [show (0x40490FDB#32 ||| 0x80000000#32 : BitVec 32) = IEEE.neg 0x40490FDB#32 by decide, IEEE.neg_value]
        rw [show value 0x40490FDB#32 = piF from piL_val (P := P)]
  · rw [if_neg hsg]
    have hsg' : sg x.bits = false := by simpa using hsg
    have ha : Lane.bandn (lit 0#32) x = x := LawfulLane.bandn_zero_left x
    have hb : Lane.bor (lit 0x40490FDB#32) (lit 0#32) = (lit 0x40490FDB#32 : F32 P) := LawfulLane.bor_zero_right _
    have hx0 : 0 ≤ val x := value_nonneg_of hsg'
    have hle : Lane.le (Lane.bandn (lit 0#32) x) (lit 0x3FC90FDB#32) = true ↔ val x ≤ piF / 2 := by
      rw [ha, ← halfPi_val (P := P)]; exact le_val fx fhp
    by_cases h1 : val x ≤ piF / 2
    · rw [if_pos (hle.2 h1), if_pos (hle.2 h1)]
      exact r1 (by rw [abs_of_nonneg hx0]; exact h1)
    · rw [if_neg (fun h => h1 (hle.1 h)), if_neg (fun h => h1 (hle.1 h)), hb]
      exact r2 x (by linarith)

/-! ### From the reduced angle to the result -/

theorem sin_of {v : ℝ} {x s p : F32 P} {Q : ℝ → ℝ} {k B ε : ℝ} (E : ℝ) (hr : RedF v x s)
    (he : Fin' p ∧ |val p - Q ((val x)^2)| ≤ k * ulp2 ∧ |Q ((val x)^2)| ≤ B)
    (hQ : |val x * Q ((val x)^2) - Real.sin (val x)| ≤ ε) (hk4 : k ≤ 4) (hB2 : B ≤ 147/100) (hE : 7/10^7 + 237/100 * ulp2 + 15708/10000 * (k * ulp2) + ε ≤ E) :
    Fin' (Lane.mul p x) ∧ |val (Lane.mul p x) - Real.sin v| ≤ E + 9/10^8 * |v| :=
  sin_final (Q := Q) hr he.1 he.2.1 he.2.2 hQ hk4 hB2 hE
theorem cos_of {v : ℝ} {x s p r : F32 P} {Q : ℝ → ℝ} {k B ε : ℝ} (E : ℝ) (hr : RedF v x s)
    (he : Fin' p ∧ |val p - Q ((val x)^2)| ≤ k * ulp2 ∧ |Q ((val x)^2)| ≤ B)
    (hQ : |Q ((val x)^2) - Real.cos (val x)| ≤ ε) (hm : r = Lane.mul p s ∨ r = Lane.mul s p) (hk4 : k ≤ 8) (hB2 : B ≤ 252/100) (hE : 7/10^7 + 26/10 * ulp2 + k * ulp2 + ε ≤ E) :
    Fin' r ∧ |val r - Real.cos v| ≤ E + 9/10^8 * |v| :=
  cos_final (Q := Q) hr he.1 he.2.1 he.2.2 hQ hk4 hB2 hE hm

theorem sinV_f (c : Cfg) {v : ℝ} {x s : F32 P} (hr : RedF v x s) :
    Fin' (Lane.mul (sinPV c (Lane.mul x x)) x) ∧ |val (Lane.mul (sinPV c (Lane.mul x x)) x) - Real.sin v| ≤ 12/10^7 + 9/10^8 * |v| := by
  obtain ⟨h1, h2, h3, h4⟩ := sq_lane hr.fx hr.small
  exact sin_of _ hr (sinPV_err c h1 h2 h3 h4) (sinP_sin _ hr.small) (by norm_num) (by norm_num) (by norm_num [ulp2])
theorem sinS_f {v : ℝ} {x s : F32 P} (hr : RedF v x s) :
    Fin' (Lane.mul (sinPS (Lane.mul x x)) x) ∧ |val (Lane.mul (sinPS (Lane.mul x x)) x) - Real.sin v| ≤ 12/10^7 + 9/10^8 * |v| := by
  obtain ⟨h1, h2, h3, h4⟩ := sq_lane hr.fx hr.small
  exact sin_of _ hr (sinPS_err h1 h2 h3 h4) (sinP_sin _ hr.small) (by norm_num) (by norm_num) (by norm_num [ulp2])
theorem sinEV_f (c : Cfg) {v : ℝ} {x s : F32 P} (hr : RedF v x s) :
    Fin' (Lane.mul (sinEPV c (Lane.mul x x)) x) ∧ |val (Lane.mul (sinEPV c (Lane.mul x x)) x) - Real.sin v| ≤ 47/10^7 + 9/10^8 * |v| := by
  obtain ⟨h1, h2, h3, h4⟩ := sq_lane hr.fx hr.small
  exact sin_of _ hr (sinEPV_err c h1 h2 h3 h4) (sinEP_sin _ hr.small) (by norm_num) (by norm_num) (by norm_num [ulp2])
theorem sinES_f {v : ℝ} {x s : F32 P} (hr : RedF v x s) :
    Fin' (Lane.mul (sinEPS (Lane.mul x x)) x) ∧ |val (Lane.mul (sinEPS (Lane.mul x x)) x) - Real.sin v| ≤ 47/10^7 + 9/10^8 * |v| := by
  obtain ⟨h1, h2, h3, h4⟩ := sq_lane hr.fx hr.small
  exact sin_of _ hr (sinEPS_err h1 h2 h3 h4) (sinEP_sin _ hr.small) (by norm_num) (by norm_num) (by norm_num [ulp2])
theorem cosV_f (c : Cfg) {v : ℝ} {x s : F32 P} (hr : RedF v x s) :
    Fin' (Lane.mul (cosPV c (Lane.mul x x)) s) ∧ |val (Lane.mul (cosPV c (Lane.mul x x)) s) - Real.cos v| ≤ 14/10^7 + 9/10^8 * |v| := by
  obtain ⟨h1, h2, h3, h4⟩ := sq_lane hr.fx hr.small
  exact cos_of _ hr (cosPV_err c h1 h2 h3 h4) (cosP_cos _ hr.small) (Or.inl rfl) (by norm_num) (by norm_num) (by norm_num [ulp2])
theorem cosS_f {v : ℝ} {x s : F32 P} (hr : RedF v x s) :
    Fin' (Lane.mul s (cosPS (Lane.mul x x))) ∧ |val (Lane.mul s (cosPS (Lane.mul x x))) - Real.cos v| ≤ 14/10^7 + 9/10^8 * |v| := by
  obtain ⟨h1, h2, h3, h4⟩ := sq_lane hr.fx hr.small
  exact cos_of _ hr (cosPS_err h1 h2 h3 h4) (cosP_cos _ hr.small) (Or.inr rfl) (by norm_num) (by norm_num) (by norm_num [ulp2])
theorem cosEV_f (c : Cfg) {v : ℝ} {x s : F32 P} (hr : RedF v x s) :
    Fin' (Lane.mul (cosEPV c (Lane.mul x x)) s) ∧ |val (Lane.mul (cosEPV c (Lane.mul x x)) s) - Real.cos v| ≤ 214/10^7 + 9/10^8 * |v| := by
  obtain ⟨h1, h2, h3, h4⟩ := sq_lane hr.fx hr.small
  exact cos_of _ hr (cosEPV_err c h1 h2 h3 h4) (cosEP_cos _ hr.small) (Or.inl rfl) (by norm_num) (by norm_num) (by norm_num [ulp2])
theorem cosES_f {v : ℝ} {x s : F32 P} (hr : RedF v x s) :
    Fin' (Lane.mul s (cosEPS (Lane.mul x x))) ∧ |val (Lane.mul s (cosEPS (Lane.mul x x))) - Real.cos v| ≤ 214/10^7 + 9/10^8 * |v| := by
  obtain ⟨h1, h2, h3, h4⟩ := sq_lane hr.fx hr.small
  exact cos_of _ hr (cosEPS_err h1 h2 h3 h4) (cosEP_cos _ hr.small) (Or.inr rfl) (by norm_num) (by norm_num) (by norm_num [ulp2])

theorem mul_lane (A B : V4 (F32 P)) (j : Fin 4) : (SSE.mul A B).lane j = Lane.mul (A.lane j) (B.lane j) := by fin_cases j <;> rfl
theorem sinPoly_lane (c : Cfg) (X : V4 (F32 P)) (i : Fin 4) : (sinPoly c X).lane i = Lane.mul (sinPV c (Lane.mul (X.lane i) (X.lane i))) (X.lane i) := by
  unfold sinPoly; simp only [mul_lane, fmadd_lane]; fin_cases i <;> rfl
theorem cosPoly_lane (c : Cfg) (X S : V4 (F32 P)) (i : Fin 4) : (cosPoly c X S).lane i = Lane.mul (cosPV c (Lane.mul (X.lane i) (X.lane i))) (S.lane i) := by
  unfold cosPoly; simp only [mul_lane, fmadd_lane]; fin_cases i <;> rfl
theorem sinEstPoly_lane (c : Cfg) (X : V4 (F32 P)) (i : Fin 4) : (sinEstPoly c X).lane i = Lane.mul (sinEPV c (Lane.mul (X.lane i) (X.lane i))) (X.lane i) := by
  unfold sinEstPoly; simp only [mul_lane, fmadd_lane]; fin_cases i <;> rfl
theorem cosEstPoly_lane (c : Cfg) (X S : V4 (F32 P)) (i : Fin 4) : (cosEstPoly c X S).lane i = Lane.mul (cosEPV c (Lane.mul (X.lane i) (X.lane i))) (S.lane i) := by
  unfold cosEstPoly; simp only [mul_lane, fmadd_lane]; fin_cases i <;> rfl

/-! ### The claims -/

/-- The result `r` is finite and within `e` of `t`. -/
def FClose (r : BitVec 32) (t e : ℝ) : Prop := IsFinite r ∧ |value r - t| ≤ e

/-- C110: the scalar sine and cosine of every build, on every binary32 angle up to a million radians. -/
theorem C110_scalar (x : F32 P) (hx : IsFinite x.bits) (hb : |value x.bits| ≤ 10^6) : let v := value x.bits
    FClose (XMScalarSin x).bits (Real.sin v) (12/10^7 + 9/10^8 * |v|) ∧ FClose (XMScalarCos x).bits (Real.cos v) (14/10^7 + 9/10^8 * |v|) ∧
    FClose (XMScalarSinCos x).1.bits (Real.sin v) (12/10^7 + 9/10^8 * |v|) ∧ FClose (XMScalarSinCos x).2.bits (Real.cos v) (14/10^7 + 9/10^8 * |v|) :=
  have h := scalarReduce_f hx hb
  ⟨sinS_f h, cosS_f h, sinS_f h, cosS_f h⟩
/-- C110: the estimating scalar forms. -/
theorem C110_scalarEst (x : F32 P) (hx : IsFinite x.bits) (hb : |value x.bits| ≤ 10^6) : let v := value x.bits
    FClose (XMScalarSinEst x).bits (Real.sin v) (47/10^7 + 9/10^8 * |v|) ∧ FClose (XMScalarCosEst x).bits (Real.cos v) (214/10^7 + 9/10^8 * |v|) ∧
    FClose (XMScalarSinCosEst x).1.bits (Real.sin v) (47/10^7 + 9/10^8 * |v|) ∧ FClose (XMScalarSinCosEst x).2.bits (Real.cos v) (214/10^7 + 9/10^8 * |v|) :=
  have h := scalarReduce_f hx hb
  ⟨sinES_f h, cosES_f h, sinES_f h, cosES_f h⟩
/-- C110: the vector sine and cosine of the SSE builds, each lane on its own: another lane may hold anything, even a NaN. -/
theorem C110_vector (c : Cfg) (hc : c.sse = true) (V : V4 (F32 P)) (i : Fin 4) (hx : IsFinite (V.lane i).bits) (hb : |value (V.lane i).bits| ≤ 10^6) :
    let v := value (V.lane i).bits
    FClose ((XMVectorSin c V).lane i).bits (Real.sin v) (12/10^7 + 9/10^8 * |v|) ∧ FClose ((XMVectorCos c V).lane i).bits (Real.cos v) (14/10^7 + 9/10^8 * |v|) ∧
    FClose ((XMVectorSinCos c V).1.lane i).bits (Real.sin v) (12/10^7 + 9/10^8 * |v|) ∧
    FClose ((XMVectorSinCos c V).2.lane i).bits (Real.cos v) (14/10^7 + 9/10^8 * |v|) := by
  have h := trigReduce_f c hc V i hx hb
  unfold XMVectorSin XMVectorCos XMVectorSinCos
  rw [if_pos hc, if_pos hc, if_pos hc]
  dsimp only
  rw [sinPoly_lane, cosPoly_lane]
  exact ⟨sinV_f c h, cosV_f c h, sinV_f c h, cosV_f c h⟩
/-- C110: the estimating vector forms. -/
theorem C110_vectorEst (c : Cfg) (hc : c.sse = true) (V : V4 (F32 P)) (i : Fin 4) (hx : IsFinite (V.lane i).bits) (hb : |value (V.lane i).bits| ≤ 10^6) :
    let v := value (V.lane i).bits
    FClose ((XMVectorSinEst c V).lane i).bits (Real.sin v) (47/10^7 + 9/10^8 * |v|) ∧ FClose ((XMVectorCosEst c V).lane i).bits (Real.cos v) (214/10^7 + 9/10^8 * |v|) ∧
    FClose ((XMVectorSinCosEst c V).1.lane i).bits (Real.sin v) (47/10^7 + 9/10^8 * |v|) ∧
    FClose ((XMVectorSinCosEst c V).2.lane i).bits (Real.cos v) (214/10^7 + 9/10^8 * |v|) := by
  have h := trigReduce_f c hc V i hx hb
  unfold XMVectorSinEst XMVectorCosEst XMVectorSinCosEst
  rw [if_pos hc, if_pos hc, if_pos hc]
  dsimp only
  rw [sinEstPoly_lane, cosEstPoly_lane]
  exact ⟨sinEV_f c h, cosEV_f c h, sinEV_f c h, cosEV_f c h⟩

/-- A case: two full turns and a bit, 13.0. -/
example : IsFinite (F32.ofBV 0x41500000#32 : F32 P).bits ∧ |value (F32.ofBV 0x41500000#32 : F32 P).bits| ≤ 10^6 := by
  refine ⟨by show IsFinite 0x41500000#32; decide, ?_⟩
  show |value 0x41500000#32| ≤ _
  rw [value_eq, show ival 0x41500000#32 = 13 * 2^149 by decide +kernel]; push_cast
  rw [abs_of_nonneg (by positivity)]; norm_num

/-- C110: the bound on the angle is needed: the scalar quotient saturates at 2^31, and the scalar sine of 2^36 is not even finite. -/
theorem C110_scalar_large_fails : IsFinite (F32.ofBV 0x51800000#32 : F32 P).bits ∧ value (F32.ofBV 0x51800000#32 : F32 P).bits = 2^36 ∧
    ¬ IsFinite (XMScalarSin (F32.ofBV 0x51800000#32 : F32 P)).bits := by
  refine ⟨by show IsFinite 0x51800000#32; decide, ?_, ?_⟩
  · show value 0x51800000#32 = _
    rw [value_eq, show ival 0x51800000#32 = 2^36 * 2^149 by decide +kernel]; push_cast; norm_num
  have e1 : (Lane.mul (F32.ofBV 0x3E22F983#32) (F32.ofBV 0x51800000#32) : F32 P) = F32.ofBV 0x5022F983#32 := mul_c (by decide +kernel)
  have e2 : (Lane.add (F32.ofBV 0x5022F983#32) (F32.ofBV 0x3F000000#32) : F32 P) = F32.ofBV 0x5022F983#32 := add_c (by decide +kernel)
  have e3 : (Lane.castI (F32.ofBV 0x5022F983#32) : F32 P) = F32.ofBV 0x4F000000#32 := by
    show ofI32 (castI32 0x5022F983#32) = 0x4F000000#32; decide +kernel
  have e4 : (Lane.mul (F32.ofBV 0x40C90FDB#32) (F32.ofBV 0x4F000000#32) : F32 P) = F32.ofBV 0x50490FDB#32 := mul_c (by decide +kernel)
  have e5 : (Lane.sub (F32.ofBV 0x51800000#32) (F32.ofBV 0x50490FDB#32) : F32 P) = F32.ofBV 0x514DBC09#32 := sub_c (by decide +kernel)
  have e6 : (Lane.sub (F32.ofBV 0x40490FDB#32) (F32.ofBV 0x514DBC09#32) : F32 P) = F32.ofBV 0xD14DBC09#32 := sub_c (by decide +kernel)
  have e7 : (Lane.mul (F32.ofBV 0xD14DBC09#32) (F32.ofBV 0xD14DBC09#32) : F32 P) = F32.ofBV 0x632556B1#32 := mul_c (by decide +kernel)
  have e8 : (Lane.mul (F32.ofBV 0xB2CD365B#32) (F32.ofBV 0x632556B1#32) : F32 P) = F32.ofBV 0xD6848987#32 := mul_c (by decide +kernel)
  have e9 : (Lane.add (F32.ofBV 0xD6848987#32) (F32.ofBV 0x3638B88E#32) : F32 P) = F32.ofBV 0xD6848987#32 := add_c (by decide +kernel)
  have e10 : (Lane.mul (F32.ofBV 0xD6848987#32) (F32.ofBV 0x632556B1#32) : F32 P) = F32.ofBV 0xFA2B330C#32 := mul_c (by decide +kernel)
  have e11 : (Lane.sub (F32.ofBV 0xFA2B330C#32) (F32.ofBV 0x39500BF1#32) : F32 P) = F32.ofBV 0xFA2B330C#32 := sub_c (by decide +kernel)
  have e12 : (Lane.mul (F32.ofBV 0xFA2B330C#32) (F32.ofBV 0x632556B1#32) : F32 P) = F32.ofBV 0xFF800000#32 := mul_c (by decide +kernel)
  have h1 : (Lane.ge (F32.ofBV 0x51800000#32) (F32.ofBV 0#32 : F32 P)) = true := by
    unfold Lane.ge; show IEEE.le 0#32 0x51800000#32 = true; decide +kernel
  have h2 : (Lane.gt (F32.ofBV 0x514DBC09#32) (F32.ofBV 0x3FC90FDB#32 : F32 P)) = true := by
    unfold Lane.gt; show IEEE.lt 0x3FC90FDB#32 0x514DBC09#32 = true; decide +kernel
  have er : (scalarReduce (F32.ofBV 0x51800000#32 : F32 P)).1 = F32.ofBV 0xD14DBC09#32 := by
    have e : scalarReduce (F32.ofBV 0x51800000#32 : F32 P) = (let y : F32 P := Lane.sub (F32.ofBV 0x51800000#32) (Lane.mul (F32.ofBV 0x40C90FDB#32)
          (if Lane.ge (F32.ofBV 0x51800000#32) (F32.ofBV 0#32 : F32 P) then Lane.castI (Lane.add (Lane.mul (F32.ofBV 0x3E22F983#32) (F32.ofBV 0x51800000#32)) (F32.ofBV 0x3F000000#32))
            else Lane.castI (Lane.sub (Lane.mul (F32.ofBV 0x3E22F983#32) (F32.ofBV 0x51800000#32)) (F32.ofBV 0x3F000000#32))))
      if Lane.gt y (F32.ofBV 0x3FC90FDB#32) then (Lane.sub (F32.ofBV 0x40490FDB#32) y, F32.ofBV 0xBF800000#32)
      else if Lane.lt y (Lane.neg (F32.ofBV 0x3FC90FDB#32)) then (Lane.sub (Lane.neg (F32.ofBV 0x40490FDB#32)) y, F32.ofBV 0xBF800000#32)
      else (y, F32.ofBV 0x3F800000#32)) := rfl
    rw [e]; simp only [e1, e2, e3, e4, e5, e6, h1, h2, if_true]
  unfold XMScalarSin
  rw [er]
  have e : scalarSinPoly (F32.ofBV 0xD14DBC09#32 : F32 P) = (let y2 : F32 P := Lane.mul (F32.ofBV 0xD14DBC09#32) (F32.ofBV 0xD14DBC09#32)
      Lane.mul (Lane.add (Lane.mul (Lane.sub (Lane.mul (Lane.add (Lane.mul (Lane.sub (Lane.mul (Lane.add (Lane.mul (F32.ofBV 0xB2CD365B#32) y2) (F32.ofBV 0x3638B88E#32)) y2) (F32.ofBV 0x39500BF1#32)) y2)
        (F32.ofBV 0x3C088886#32)) y2) (F32.ofBV 0x3E2AAAAB#32)) y2) (F32.ofBV 0x3F800000#32)) (F32.ofBV 0xD14DBC09#32)) := rfl
  rw [e]
  simp only [e7, e8, e9, e10, e11, e12]
  have ha : ∀ a b : F32 P, ¬ IsFinite a.bits → ¬ IsFinite (Lane.add a b).bits := fun a b h => nf_add (P := P) (Or.inl h)
  have hs : ∀ a b : F32 P, ¬ IsFinite a.bits → ¬ IsFinite (Lane.sub a b).bits := fun a b h => nf_sub (P := P) (Or.inl h)
  have hm : ∀ a b : F32 P, ¬ IsFinite a.bits → ¬ IsFinite (Lane.mul a b).bits := fun a b h => nf_mul (P := P) (Or.inl h)
  refine hm _ _ (ha _ _ (hm _ _ (hs _ _ (hm _ _ (ha _ _ ?_)))))
  show ¬ IsFinite 0xFF800000#32
  decide

end DXM.Props
