import Verif.Props.FloatAtan
import Verif.Props.FloatEst
import Verif.Lemmas.TanEstPoly

/-
C116: the estimated tangent and the estimated two-argument arctangent on binary32 lanes (builds with intrinsics), for any approximate
reciprocal instruction of the documented precision (`RcpOk`).
-/

set_option linter.all false

namespace DXM.Props
open DXM.Spec DXM.FErr DXM.IEEE DXM.Trig
variable {P : Env}

/-- A relative perturbation of the argument of the arctangent. -/
theorem arctan_rel {q δ : ℝ} (h : |δ| ≤ approx) : |Real.arctan (q * (1 + δ)) - Real.arctan q| ≤ 37/10^5 := by
  have ha : approx ≤ 3663/10^7 := by unfold approx; norm_num
  have hd := abs_le.1 h
  have hd1 : 0 < 1 + δ := by norm_num at ha; linarith [hd.1]
  have key : ∀ z : ℝ, 1 < z → |Real.arctan (z * (1 + δ)) - Real.arctan z| ≤ 37/10^5 := by
    intro z hz
    have hw0 : 0 < z * (1 + δ) := by positivity
    have e : Real.arctan (z * (1 + δ)) - Real.arctan z = Real.arctan z⁻¹ - Real.arctan (z * (1 + δ))⁻¹ := by
      rw [Real.arctan_inv_of_pos (by linarith), Real.arctan_inv_of_pos hw0]; ring
    rw [e]
    refine (arctan_lip _ _).trans ?_
    have e2 : z⁻¹ - (z * (1 + δ))⁻¹ = δ / (z * (1 + δ)) := by field_simp; ring
    rw [e2, abs_div, abs_of_pos hw0, div_le_iff₀ hw0]
    have : 9996/10000 ≤ z * (1 + δ) := by norm_num at ha; nlinarith [hd.1]
    norm_num at ha; linarith
  rcases le_or_gt |q| 1 with h1 | h1
  · refine (arctan_lip _ _).trans ?_
    rw [show q * (1 + δ) - q = q * δ by ring, abs_mul]
    have := mul_le_mul h1 h (abs_nonneg _) zero_le_one
    norm_num at ha; linarith
  · rcases lt_or_ge 0 q with hp | hp
    · rw [abs_of_pos hp] at h1; exact key _ h1
    · rw [abs_of_nonpos hp] at h1
      have := key _ h1
      rw [neg_mul, Real.arctan_neg, Real.arctan_neg, show -Real.arctan (q * (1 + δ)) - -Real.arctan q = -(Real.arctan (q * (1 + δ)) - Real.arctan q) by ring, abs_neg] at this
      exact this

/-- C116: the estimated two-argument arctangent. -/
theorem C116_atan2Est (c : Cfg) (hc : c.sse = true) (hP : RcpOk (fun b => P.libm 0 b 0)) (Y X : V4 (F32 P)) (i : Fin 4) (hy : ¬ IsNaN (Y.lane i).bits)
    (fX : IsFinite (X.lane i).bits) (hX : value (X.lane i).bits = 0 ∨ (tiny ≤ |value (X.lane i).bits| ∧ |value (X.lane i).bits| ≤ 2^125)) :
    FClose ((XMVectorATan2Est c Y X).lane i).bits (extAtan2 (Y.lane i).bits (X.lane i).bits) (51/10^5) := by
  unfold XMVectorATan2Est
  rw [if_pos hc, at2L_lane c hc, atEL_lane c hc]
  rw [show (XMVectorMultiply Y (XMVectorReciprocalEst c X)).lane i = Lane.mul (Y.lane i) (Lane.rcpE (X.lane i)) from by
    unfold XMVectorReciprocalEst; rw [if_pos hc]; fin_cases i <;> rfl]
  refine at2_f (e := 50925/10^8) hy (not_nan_of_finite fX) ?_ (by norm_num) (by norm_num) (by norm_num [ulp2])
  intro iY y0 hX0
  have fY := (finite_or hy).resolve_right iY
  have iX := not_inf_of_finite fX
  have x0 : value (X.lane i).bits ≠ 0 := hX0.resolve_left iX
  obtain ⟨x1, x2⟩ := hX.resolve_left x0
  obtain ⟨f1, f2⟩ := hP _ fX x1 x2
  have f1' : Fin' (Lane.rcpE (X.lane i) : F32 P) := f1
  obtain ⟨q1, q2⟩ := rounds_atan (mul_rounds P fY f1)
  obtain ⟨a1, a2⟩ := atEP_f c (Lane.mul (Y.lane i) (Lane.rcpE (X.lane i))) q1
  refine ⟨a1, ?_⟩
  rw [if_neg iX]
  have q2' : |extArctan (Lane.mul (Y.lane i) (Lane.rcpE (X.lane i))).bits - Real.arctan (val (Y.lane i) * val (Lane.rcpE (X.lane i)))| ≤ 1002/1000 * ulp2 := q2
  have f2' : |val (Lane.rcpE (X.lane i)) * val (X.lane i) - 1| ≤ approx := f2
  have x0' : val (X.lane i) ≠ 0 := x0
  have q3 := arctan_rel (q := val (Y.lane i) / val (X.lane i)) f2'
  rw [show val (Y.lane i) / val (X.lane i) * (1 + (val (Lane.rcpE (X.lane i)) * val (X.lane i) - 1)) = val (Y.lane i) * val (Lane.rcpE (X.lane i)) by field_simp; ring] at q3
  generalize Real.arctan (val (Y.lane i) * val (Lane.rcpE (X.lane i))) = B at *
  generalize extArctan (Lane.mul (Y.lane i) (Lane.rcpE (X.lane i))).bits = A at *
  generalize val (atL (atEPV c) (Lane.mul (Y.lane i) (Lane.rcpE (X.lane i)))) = R at *
  have e := abs_add_le (R - A) (A - B)
  have e2 := abs_add_le (R - B) (B - Real.arctan (val (Y.lane i) / val (X.lane i)))
  rw [sub_add_sub_cancel] at e e2
  refine (e2.trans (add_le_add (e.trans (add_le_add a2 q2')) q3)).trans ?_
  norm_num [ulp2]

/-- The arithmetic of the estimated tangent at a reduced argument. -/
theorem te_num {y D ρ N r : ℝ} (hy : |y| ≤ 1562/1000) (hD : |D - (teT2 - y^2)| ≤ 1/10^6) (hρ : |ρ * D - 1| ≤ approx)
    (hN : |N - y * (teT0 + teT1 * y^2)| ≤ 1/10^6 * |y| + tiny/1000) (hr : |r - N * ρ| ≤ ulp2 * (|N * ρ| + tiny)) :
    |r - Real.tan y| ≤ 3/400 * |Real.tan y| + tiny := by
  obtain ⟨-, hT⟩ := tanE_close y hy
  have ha : approx ≤ 3663/10^7 := by unfold approx; norm_num
  have ht := tiny_pos
  have hu : ulp2 ≤ 1/10^7 := by unfold ulp2; norm_num
  have hu0 := u_pos
  have hs : y^2 ≤ 244/100 := by rw [← sq_abs]; nlinarith [abs_nonneg y]
  have hs0 := sq_nonneg y
  have hD1 : 27/1000 ≤ teT2 - y^2 := by unfold teT2; norm_num; linarith
  have hN1 : 2 ≤ teT0 + teT1 * y^2 := by unfold teT0 teT1; linarith
  set E := teT2 - y^2
  set M := y * (teT0 + teT1 * y^2) with hM
  have hMy : 2 * |y| ≤ |M| := by
    rw [hM, abs_mul, abs_of_nonneg (by linarith : (0:ℝ) ≤ teT0 + teT1 * y^2)]; nlinarith [abs_nonneg y]
  have hE0 : 0 < E := by linarith
  have hD' := abs_le.1 hD
  have hD0 : 26/1000 ≤ D := by norm_num at hD'; linarith [hD'.1]
  -- w = rho E
  obtain ⟨w, hw⟩ : ∃ w, w = ρ * E := ⟨_, rfl⟩
  have hw1 : |w - 1| ≤ 41/100000 := by
    have e : w - 1 = (ρ * D - 1) + (ρ * D) * ((E - D) / D) := by rw [hw]; field_simp; ring
    rw [e]
    refine (abs_add_le _ _).trans ?_
    have h1 : |ρ * D| ≤ 10004/10000 := by
      have := abs_add_le (ρ * D - 1) 1
      rw [sub_add_cancel, abs_one] at this; norm_num at ha; linarith
    have h2 : |(E - D) / D| ≤ 4/100000 := by
      rw [abs_div, abs_of_pos (by linarith : 0 < D), div_le_iff₀ (by linarith), abs_sub_comm]
      norm_num at hD ⊢; linarith
    rw [abs_mul]
    have := mul_le_mul h1 h2 (abs_nonneg _) (by norm_num)
    norm_num at this ha ⊢; linarith
  have hww : |w| ≤ 1001/1000 := by
    have := abs_add_le (w - 1) 1
    rw [sub_add_cancel, abs_one] at this; linarith
  obtain ⟨R, hR⟩ : ∃ R, R = M / E := ⟨_, rfl⟩
  rw [← hR] at hT
  have hRM : |M| = |R| * E := by rw [hR, abs_div, abs_of_pos hE0]; field_simp
  have hNR : |N * ρ - R| ≤ 412/10^6 * |R| + tiny/25 := by
    have e : (N * ρ - R) * E = (N - M) * w + M * (w - 1) := by rw [hw, hR]; field_simp; ring
    have h1 : |N * ρ - R| * E ≤ (412/10^6 * |R| + tiny/25) * E := by
      calc |N * ρ - R| * E = |(N * ρ - R) * E| := by rw [abs_mul, abs_of_pos hE0]
        _ ≤ |N - M| * |w| + |M| * |w - 1| := by rw [e, ← abs_mul, ← abs_mul]; exact abs_add_le _ _
        _ ≤ (1/10^6 * |y| + tiny/1000) * (1001/1000) + |M| * (41/100000) := by
            apply add_le_add
            · exact mul_le_mul hN hww (abs_nonneg _) (by positivity)
            · exact mul_le_mul_of_nonneg_left hw1 (abs_nonneg _)
        _ ≤ 412/10^6 * |M| + tiny/25 * (27/1000) := by norm_num; linarith [abs_nonneg M]
        _ ≤ 412/10^6 * |M| + tiny/25 * E := by
            have := mul_le_mul_of_nonneg_left hD1 (show 0 ≤ tiny/25 by positivity); linarith
        _ = _ := by rw [hRM]; ring
    exact le_of_mul_le_mul_right h1 hE0
  have hRT : |R| ≤ 10068/10000 * |Real.tan y| := by
    have := abs_add_le (R - Real.tan y) (Real.tan y)
    rw [sub_add_cancel] at this; linarith
  have hNρ : |N * ρ| ≤ 1001/1000 * |R| + tiny := by
    have := abs_add_le (N * ρ - R) R
    rw [sub_add_cancel] at this; norm_num at hNR; linarith [abs_nonneg R]
  have hr2 : |r - N * ρ| ≤ 1/10^7 * (1001/1000 * |R| + 2 * tiny) := hr.trans (mul_le_mul hu (by linarith) (by positivity) (by norm_num))
  have e := abs_add_le (r - N * ρ) (N * ρ - R)
  have e2 := abs_add_le (r - R) (R - Real.tan y)
  rw [sub_add_sub_cancel] at e e2
  norm_num at hr2 hNR hT hRT ⊢
  linarith [abs_nonneg (Real.tan y)]

theorem te0_val : val (lit 0x401EF9DB#32 : F32 P) = teT0 := by
  rw [lit_val (n := ival 0x401EF9DB#32) rfl, show ival 0x401EF9DB#32 = (10418651 * 2^127) by decide +kernel]; push_cast; norm_num [teT0]
theorem te1_val : val (lit 0xBE482F23#32 : F32 P) = teT1 := by
  rw [lit_val (n := ival 0xBE482F23#32) rfl, show ival 0xBE482F23#32 = -(13119267 * 2^123) by decide +kernel]; push_cast; norm_num [teT1]
theorem te2_val : val (lit 0x401DE9E6#32 : F32 P) = teT2 := by
  rw [lit_val (n := ival 0x401DE9E6#32) rfl, show ival 0x401DE9E6#32 = (10349030 * 2^127) by decide +kernel]; push_cast; norm_num [teT2]
/-- The binary32 number nearest 1/pi. -/
noncomputable def kPi : ℝ := 10680707 / 2^25
theorem kPi_val : val (lit 0x3EA2F983#32 : F32 P) = kPi := by
  rw [lit_val (n := ival 0x3EA2F983#32) rfl, show ival 0x3EA2F983#32 = (10680707 * 2^124) by decide +kernel]; push_cast; norm_num [kPi]

/-- One lane of the estimated tangent, given the rounded quotient. -/
def teL (c : Cfg) (q V : F32 P) : F32 P :=
  let x := fnm c (lit 0x40490FDB#32) q V
  Lane.mul (fm c (Lane.mul x x) (Lane.mul x (lit 0xBE482F23#32)) (Lane.mul x (lit 0x401EF9DB#32))) (Lane.rcpE (fnm c x x (lit 0x401DE9E6#32)))

theorem teL_lane (c : Cfg) (hc : c.sse = true) (V : V4 (F32 P)) (i : Fin 4) :
    (XMVectorTanEst c V).lane i = teL c ((XMVectorRound c (SSE.mul V (.splat (lit 0x3EA2F983#32)))).lane i) (V.lane i) := by
  have p1 : (XMVectorSplatX c g_XMTanEstCoefficients : V4 (F32 P)) = .splat (lit 0x401EF9DB#32) := by unfold XMVectorSplatX; split_ifs <;> rfl
  have p2 : (XMVectorSplatY c g_XMTanEstCoefficients : V4 (F32 P)) = .splat (lit 0xBE482F23#32) := by unfold XMVectorSplatY; split_ifs <;> rfl
  have p3 : (XMVectorSplatZ c g_XMTanEstCoefficients : V4 (F32 P)) = .splat (lit 0x401DE9E6#32) := by unfold XMVectorSplatZ; split_ifs <;> rfl
  have p4 : (XMVectorSplatW c g_XMTanEstCoefficients : V4 (F32 P)) = .splat (lit 0x3EA2F983#32) := by unfold XMVectorSplatW; split_ifs <;> rfl
  have hr : ∀ A : V4 (F32 P), (SSE.rcp A).lane i = Lane.rcpE (A.lane i) := fun A => by fin_cases i <;> rfl
  have s : ∀ a : F32 P, (V4.splat a).lane i = a := fun a => by fin_cases i <;> rfl
  have g : (g_XMPi : V4 (F32 P)).lane i = lit 0x40490FDB#32 := by fin_cases i <;> rfl
  unfold XMVectorTanEst XMVectorNegativeMultiplySubtract XMVectorMultiplyAdd XMVectorReciprocalEst XMVectorMultiply
  simp only [if_pos hc, p1, p2, p3, p4, mul_lane, fmadd_lane, fnmadd_lane, hr, s, g]
  rfl

/-- The reduction of the estimated tangent: `x` is `V` less a whole number of half turns. -/
theorem te_reduce (c : Cfg) {V q : F32 P} (hV : Fin' V) (hv : |val V| ≤ 1000) (n : ℤ) (fq : Fin' q) (eq : val q = n) (hn : |(n:ℝ) - kPi * val V| ≤ 1/2 + 1/50000) :
    Fin' (fnm c (lit 0x40490FDB#32) q V) ∧ |val (fnm c (lit 0x40490FDB#32) q V) - (val V - Real.pi * n)| ≤ 3/10^7 * |val V| := by
  have hu : ulp2 = 1/2^24 := rfl
  have ht : tiny ≤ 1/2^100 := by unfold tiny; norm_num
  have ht0 := tiny_pos
  have hv0 := abs_nonneg (val V)
  have fp : Fin' (lit 0x40490FDB#32 : F32 P) := lit_fin (by decide)
  have hpp := piF_pi
  by_cases h0 : n = 0
  · -- no half turn: exact
    subst h0
    have eq0 : val q = 0 := by rw [eq]; simp
    have ex : Fin' (fnm c (lit 0x40490FDB#32) q V) ∧ val (fnm c (lit 0x40490FDB#32) q V) = val V := by
      unfold fnm; split_ifs
      · have r := fnma_rounds P fp fq hV
        have e : value V.bits - value (lit 0x40490FDB#32 : F32 P).bits * value q.bits = value V.bits := by
          rw [show value q.bits = 0 from eq0]; ring
        rw [e] at r; exact rounds_exact hV r
      · have r := mul_rounds P fp fq
        rw [show value q.bits = 0 from eq0, mul_zero] at r
        obtain ⟨m1, m2⟩ := rounds_err r (by rw [abs_zero]; unfold overflow; norm_num)
        have hz : value (mul P (lit 0x40490FDB#32 : F32 P).bits q.bits) = 0 := by
          have r2 : Rounds (value 0#32) (mul P (lit 0x40490FDB#32 : F32 P).bits q.bits) := by rw [show value 0#32 = 0 from zeroL_val (P := P)]; exact r
          rw [(rounds_exact (by decide) r2).2]; exact zeroL_val (P := P)
        have r3 := sub_rounds P hV m1
        rw [hz, sub_zero] at r3
        exact rounds_exact hV r3
    refine ⟨ex.1, ?_⟩
    rw [ex.2]; simp
  · -- at least one half turn
    have h1 : (1:ℝ) ≤ |(n:ℝ)| := by
      rw [← Int.cast_abs]; exact_mod_cast Int.one_le_abs h0
    have hk : |kPi * val V| ≤ 3184/10000 * |val V| := by
      rw [abs_mul, abs_of_pos (show (0:ℝ) < kPi by norm_num [kPi])]
      exact mul_le_mul_of_nonneg_right (by norm_num [kPi]) hv0
    have hn' : |(n:ℝ)| ≤ 50002/100000 + 3184/10000 * |val V| := by
      have e : (n:ℝ) = (n - kPi * val V) + kPi * val V := by ring
      rw [e]; refine (abs_add_le _ _).trans ?_
      linarith [show (1:ℝ)/2 + 1/50000 = 50002/100000 by norm_num]
    have hV1 : 156/100 ≤ |val V| := by linarith
    have hn2 : |(n:ℝ)| ≤ 65/100 * |val V| := by linarith
    have hb : |val V - piF * n| ≤ 158/100 := by
      have e : val V - piF * n = val V * (1 - piF * kPi) + piF * (kPi * val V - n) := by ring
      rw [e]; refine (abs_add_le _ _).trans ?_
      rw [abs_mul, abs_mul, abs_sub_comm (kPi * val V), abs_of_pos (show (0:ℝ) < piF by norm_num [piF])]
      have h2 : |1 - piF * kPi| ≤ 2/100000000 := by rw [abs_le]; constructor <;> norm_num [piF, kPi]
      have h4 := mul_le_mul hv h2 (abs_nonneg _) (by norm_num)
      have h5 := mul_le_mul_of_nonneg_left hn (show (0:ℝ) ≤ piF by norm_num [piF])
      have h3 : piF * (1/2 + 1/50000:ℝ) ≤ 15709/10000 := by norm_num [piF]
      norm_num at h4 ⊢; linarith
    have hm : |piF * (n:ℝ)| ≤ 2045/1000 * |val V| := by
      rw [abs_mul, abs_of_pos (show (0:ℝ) < piF by norm_num [piF])]
      have := mul_le_mul (show piF ≤ 3146/1000 by norm_num [piF]) hn2 (abs_nonneg _) (by norm_num)
      norm_num at this ⊢; linarith
    have hpi : |(val V - piF * n) - (val V - Real.pi * n)| ≤ 58/10^9 * |val V| := by
      rw [show (val V - piF * n) - (val V - Real.pi * n) = -((piF - Real.pi) * n) by ring, abs_neg, abs_mul]
      have := mul_le_mul hpp hn2 (abs_nonneg _) (by norm_num)
      norm_num at this ⊢; linarith
    have fin : ∀ x : F32 P, |val x - (val V - piF * n)| ≤ 24/10^8 * |val V| → |val x - (val V - Real.pi * n)| ≤ 3/10^7 * |val V| := by
      intro x hx
      have := abs_add_le (val x - (val V - piF * n)) ((val V - piF * n) - (val V - Real.pi * n))
      rw [sub_add_sub_cancel] at this
      norm_num at this hx hpi ⊢; linarith
    unfold fnm; split_ifs
    · have r := fnma_rounds P fp fq hV
      have r' : Rounds (val V - piF * n) (Lane.fnma (lit 0x40490FDB#32) q V : F32 P).bits := by
        rw [← piL_val (P := P), ← eq]; exact r
      obtain ⟨g1, g2⟩ := rounds_err r' (lt_of_le_of_lt hb (by unfold overflow; norm_num))
      refine ⟨g1, fin _ ?_⟩
      have g2' : |val (Lane.fnma (lit 0x40490FDB#32) q V : F32 P) - (val V - piF * n)| ≤ ulp2 * (|val V - piF * n| + tiny) := g2
      rw [hu] at g2'
      norm_num at g2' ht hb ⊢; linarith
    · have r := mul_rounds P fp fq
      have r' : Rounds (piF * n) (Lane.mul (lit 0x40490FDB#32) q : F32 P).bits := by
        rw [← piL_val (P := P), ← eq]; exact r
      obtain ⟨g1, g2⟩ := rounds_err r' (lt_of_le_of_lt hm (lt_of_le_of_lt (show _ ≤ (2:ℝ)^30 by norm_num; linarith) (by unfold overflow; norm_num)))
      have g2' : |val (Lane.mul (lit 0x40490FDB#32) q : F32 P) - piF * n| ≤ ulp2 * (|piF * (n:ℝ)| + tiny) := g2
      have g3 : |val (Lane.mul (lit 0x40490FDB#32) q : F32 P) - piF * n| ≤ 123/10^9 * |val V| := by
        rw [hu] at g2'; norm_num at g2' ht ⊢; linarith
      set m : F32 P := Lane.mul (lit 0x40490FDB#32) q
      have e : val V - val m = (val V - piF * n) - (val m - piF * n) := by ring
      have hb2 : |val V - val m| ≤ 1581/1000 := by
        rw [e]; refine (abs_sub _ _).trans ?_
        norm_num at g3; linarith
      obtain ⟨k1, k2⟩ := sub_abs hV g1 hb2 (by norm_num)
      refine ⟨k1, fin _ ?_⟩
      have e2 : val (Lane.sub V m) - (val V - piF * n) = (val (Lane.sub V m) - (val V - val m)) - (val m - piF * n) := by ring
      rw [e2]; refine (abs_sub _ _).trans ?_
      rw [hu] at k2
      norm_num at g3 k2 ⊢; linarith

/-- The rational function of the estimated tangent. -/
theorem te_poly (c : Cfg) (hP : RcpOk (fun b => P.libm 0 b 0)) {x : F32 P} (fx : Fin' x) (hx : |val x| ≤ 1562/1000) :
    let r : F32 P := Lane.mul (fm c (Lane.mul x x) (Lane.mul x (lit 0xBE482F23#32)) (Lane.mul x (lit 0x401EF9DB#32))) (Lane.rcpE (fnm c x x (lit 0x401DE9E6#32)))
    Fin' r ∧ |val r - Real.tan (val x)| ≤ 3/400 * |Real.tan (val x)| + tiny := by
  intro r
  have hu : ulp2 = 1/2^24 := rfl
  have ht : tiny ≤ 1/2^100 := by unfold tiny; norm_num
  have ht0 := tiny_pos
  have f0 : Fin' (lit 0x401EF9DB#32 : F32 P) := lit_fin (by decide)
  have f1 : Fin' (lit 0xBE482F23#32 : F32 P) := lit_fin (by decide)
  have f2 : Fin' (lit 0x401DE9E6#32 : F32 P) := lit_fin (by decide)
  have hs : val x * val x ≤ 244/100 := by rw [← abs_mul_abs_self]; nlinarith [abs_nonneg (val x)]
  have hs0 := mul_self_nonneg (val x)
  have hx0 := abs_nonneg (val x)
  -- the denominator
  have hD : Fin' (fnm c x x (lit 0x401DE9E6#32)) ∧ |val (fnm c x x (lit 0x401DE9E6#32)) - (teT2 - val x ^ 2)| ≤ 1/10^6 := by
    have hb : |teT2 - val x * val x| ≤ 247/100 := by
      rw [abs_le]; unfold teT2; constructor <;> norm_num <;> linarith
    unfold fnm; split_ifs
    · have r := fnma_rounds P fx fx f2
      have r' : Rounds (teT2 - val x * val x) (Lane.fnma x x (lit 0x401DE9E6#32) : F32 P).bits := by rw [← te2_val (P := P)]; exact r
      obtain ⟨g1, g2⟩ := rounds_err r' (lt_of_le_of_lt hb (by unfold overflow; norm_num))
      refine ⟨g1, ?_⟩
      have g2' : |val (Lane.fnma x x (lit 0x401DE9E6#32) : F32 P) - (teT2 - val x * val x)| ≤ ulp2 * (|teT2 - val x * val x| + tiny) := g2
      rw [pow_two]; rw [hu] at g2'; norm_num at g2' ht hb ⊢; linarith
    · obtain ⟨m1, m2, m3⟩ := mul_abs fx fx (M := 244/100) (by rw [abs_of_nonneg hs0]; exact hs) (by norm_num)
      have m2' : |val (Lane.mul x x) - val x * val x| ≤ 2/10^7 := by rw [hu] at m2; norm_num at m2 ht ⊢; linarith
      have e : val (lit 0x401DE9E6#32 : F32 P) - val (Lane.mul x x) = (teT2 - val x * val x) - (val (Lane.mul x x) - val x * val x) := by rw [te2_val]; ring
      have hb2 : |val (lit 0x401DE9E6#32 : F32 P) - val (Lane.mul x x)| ≤ 248/100 := by
        rw [e]; refine (abs_sub _ _).trans ?_; norm_num at m2'; linarith
      obtain ⟨k1, k2⟩ := sub_abs f2 m1 hb2 (by norm_num)
      refine ⟨k1, ?_⟩
      have e2 : val (Lane.sub (lit 0x401DE9E6#32) (Lane.mul x x)) - (teT2 - val x ^ 2) = (val (Lane.sub (lit 0x401DE9E6#32) (Lane.mul x x)) - (val (lit 0x401DE9E6#32 : F32 P) - val (Lane.mul x x))) - (val (Lane.mul x x) - val x * val x) := by rw [te2_val]; ring
      rw [e2]; refine (abs_sub _ _).trans ?_
      rw [hu] at k2; norm_num at k2 m2' ⊢; linarith
  -- the numerator
  have t1 : |teT1| ≤ 2/10 := by unfold teT1; rw [abs_le]; constructor <;> norm_num
  have t0 : |teT0| ≤ 25/10 := by unfold teT0; rw [abs_le]; constructor <;> norm_num
  have hN : Fin' (fm c (Lane.mul x x) (Lane.mul x (lit 0xBE482F23#32)) (Lane.mul x (lit 0x401EF9DB#32))) ∧
      |val (fm c (Lane.mul x x) (Lane.mul x (lit 0xBE482F23#32)) (Lane.mul x (lit 0x401EF9DB#32))) - val x * (teT0 + teT1 * val x ^ 2)| ≤ 1/10^6 * |val x| + tiny/1000 := by
    have a2 : ApO (Lane.mul x x) (val x * val x) (|val x * val x| + tiny) 1 := mulLO fx fx
    have a1 : ApO (Lane.mul x (lit 0xBE482F23#32)) (val x * teT1) (|val x * teT1| + tiny) 1 := by have := mulLO fx f1; rwa [te1_val] at this
    have a0 : ApO (Lane.mul x (lit 0x401EF9DB#32)) (val x * teT0) (|val x * teT0| + tiny) 1 := by have := mulLO fx f0; rwa [te0_val] at this
    have b2 : |val x * val x| + tiny ≤ 245/100 := by rw [abs_of_nonneg hs0]; norm_num at ht ⊢; linarith
    have b1 : |val x * teT1| + tiny ≤ 2/10 * |val x| + tiny := by
      rw [abs_mul]; have := mul_le_mul_of_nonneg_left t1 hx0; linarith
    have b0 : |val x * teT0| + tiny ≤ 25/10 * |val x| + tiny := by
      rw [abs_mul]; have := mul_le_mul_of_nonneg_left t0 hx0; linarith
    have a2 := a2.le rfl b2 le_rfl (by norm_num)
    have a1 := a1.le rfl b1 le_rfl (by norm_num)
    have a0 := a0.le rfl b0 le_rfl (by norm_num)
    have big : (3 * |val x| + 6 * tiny) ≤ 2^127 := by norm_num at ht ⊢; linarith
    have a : ApO (fm c (Lane.mul x x) (Lane.mul x (lit 0xBE482F23#32)) (Lane.mul x (lit 0x401EF9DB#32))) (val x * (teT0 + teT1 * val x ^ 2)) (3 * |val x| + 6 * tiny) 4 := by
      unfold fm; split_ifs
      · have := ApO.fma a2 a1 a0 (by norm_num) (by norm_num at ht ⊢; linarith) (by norm_num)
        exact this.le (by ring) (by norm_num; linarith) (by norm_num) (by norm_num)
      · have := (ApO.mul a2 a1 (by norm_num) (by norm_num at ht ⊢; linarith) (by norm_num)).add a0 (by norm_num)
        exact this.le (by ring) (by norm_num; linarith) (by norm_num) (by norm_num)
    obtain ⟨g1, g2⟩ := a.2.2 big
    refine ⟨g1, g2.trans ?_⟩
    have : gam 4 ≤ 25/10^8 := by unfold gam ulp2; norm_num
    refine (mul_le_mul_of_nonneg_right this (show 0 ≤ 3 * |val x| + 6 * tiny by linarith)).trans ?_
    norm_num; linarith
  obtain ⟨d1, d2⟩ := hD
  obtain ⟨n1, n2⟩ := hN
  have hD1 : 27/1000 ≤ teT2 - val x ^ 2 ∧ teT2 - val x ^ 2 ≤ 247/100 := by
    rw [pow_two]; unfold teT2; constructor <;> norm_num <;> linarith
  have d2' := abs_le.1 d2
  norm_num at d2'
  have dp : 26/1000 ≤ val (fnm c x x (lit 0x401DE9E6#32)) := by linarith [d2'.1, hD1.1]
  have dl : val (fnm c x x (lit 0x401DE9E6#32)) ≤ 25/10 := by linarith [d2'.2, hD1.2]
  obtain ⟨r1, r2⟩ := hP (fnm c x x (lit 0x401DE9E6#32)).bits d1 (by
      rw [show value (fnm c x x (lit 0x401DE9E6#32)).bits = val (fnm c x x (lit 0x401DE9E6#32)) from rfl, abs_of_pos (by linarith)]; norm_num at ht; linarith) (by
      rw [show value (fnm c x x (lit 0x401DE9E6#32)).bits = val (fnm c x x (lit 0x401DE9E6#32)) from rfl, abs_of_pos (by linarith)]; norm_num; linarith)
  have r1' : Fin' (Lane.rcpE (fnm c x x (lit 0x401DE9E6#32)) : F32 P) := r1
  have r2' : |val (Lane.rcpE (fnm c x x (lit 0x401DE9E6#32)) : F32 P) * val (fnm c x x (lit 0x401DE9E6#32)) - 1| ≤ approx := r2
  clear r1 r2
  have hr : r = Lane.mul (fm c (Lane.mul x x) (Lane.mul x (lit 0xBE482F23#32)) (Lane.mul x (lit 0x401EF9DB#32))) (Lane.rcpE (fnm c x x (lit 0x401DE9E6#32))) := rfl
  clear_value r
  generalize Lane.rcpE (fnm c x x (lit 0x401DE9E6#32)) = ρ at *
  generalize fnm c x x (lit 0x401DE9E6#32) = D at *
  generalize fm c (Lane.mul x x) (Lane.mul x (lit 0xBE482F23#32)) (Lane.mul x (lit 0x401EF9DB#32)) = N at *
  have hρ : |val ρ| ≤ 39 := by
    have h1 : |val ρ * val D| ≤ 1001/1000 := by
      have := abs_add_le (val ρ * val D - 1) 1
      rw [sub_add_cancel, abs_one] at this
      have : approx ≤ 1/1000 := by unfold approx; norm_num
      linarith
    rw [abs_mul, abs_of_pos (by linarith : 0 < val D)] at h1
    by_contra g; push Not at g; nlinarith
  have hNb : |val N| ≤ 5 := by
    have h1 : |val x * (teT0 + teT1 * val x ^ 2)| ≤ 4 := by
      rw [abs_mul]
      have : |teT0 + teT1 * val x ^ 2| ≤ 25/10 := by
        rw [pow_two, abs_le]; unfold teT0 teT1; constructor <;> linarith
      have := mul_le_mul hx this (abs_nonneg _) (by norm_num)
      linarith
    have := abs_add_le (val N - val x * (teT0 + teT1 * val x ^ 2)) (val x * (teT0 + teT1 * val x ^ 2))
    rw [sub_add_cancel] at this
    norm_num at n2 ht; linarith
  have hp : |val N * val ρ| < overflow := by
    rw [abs_mul]
    have := mul_le_mul hNb hρ (abs_nonneg _) (by norm_num)
    exact lt_of_le_of_lt this (by unfold overflow; norm_num)
  obtain ⟨k1, k2⟩ := rounds_err (mul_rounds P n1 r1') hp
  have k1' : Fin' (Lane.mul N ρ) := k1
  have k2' : |val (Lane.mul N ρ) - val N * val ρ| ≤ ulp2 * (|val N * val ρ| + tiny) := k2
  rw [hr]
  exact ⟨k1', te_num hx d2 r2' n2 k2'⟩

/-- C116: the estimated tangent of an angle up to 1000 radians at least about a hundredth of a radian away from a pole has relative error at
most 3/400 (and one underflow threshold), at an angle within 3e-7 of the given angle, relatively. -/
theorem C116_tanEst (c : Cfg) (hc : c.sse = true) (hP : RcpOk (fun b => P.libm 0 b 0)) (V : V4 (F32 P)) (i : Fin 4) (hV : IsFinite (V.lane i).bits)
    (hv : |value (V.lane i).bits| ≤ 1000) (hcos : 1/100 ≤ |Real.cos (value (V.lane i).bits)|) :
    IsFinite ((XMVectorTanEst c V).lane i).bits ∧ ∃ y, |y - value (V.lane i).bits| ≤ 3/10^7 * |value (V.lane i).bits| ∧
      |value ((XMVectorTanEst c V).lane i).bits - Real.tan y| ≤ 3/400 * |Real.tan y| + tiny := by
  have hu : ulp2 = 1/2^24 := rfl
  have ht : tiny ≤ 1/2^100 := by unfold tiny; norm_num
  rw [teL_lane c hc]
  have et : (SSE.mul V (.splat (lit 0x3EA2F983#32))).lane i = Lane.mul (V.lane i) (lit 0x3EA2F983#32) := by fin_cases i <;> rfl
  have hV' : Fin' (V.lane i) := hV
  have fk : Fin' (lit 0x3EA2F983#32 : F32 P) := lit_fin (by decide)
  have hkb : |val (V.lane i) * val (lit 0x3EA2F983#32 : F32 P)| ≤ 319 := by
    rw [kPi_val, abs_mul, abs_of_pos (show (0:ℝ) < kPi by norm_num [kPi])]
    calc |val (V.lane i)| * kPi ≤ 1000 * kPi := mul_le_mul_of_nonneg_right hv (by norm_num [kPi])
      _ ≤ 319 := by norm_num [kPi]
  obtain ⟨t1, t2, t3⟩ := mul_abs hV' fk hkb (by norm_num)
  obtain ⟨fq, n, hn, vq⟩ := (C14_round_partial c (SSE.mul V (.splat (lit 0x3EA2F983#32))) i (Or.inl hc)).finite (by rw [et]; exact t1)
  rw [et] at hn
  have hnk : |(n:ℝ) - kPi * val (V.lane i)| ≤ 1/2 + 1/50000 := by
    have a := hn.1
    have a' : |(n:ℝ) - val (Lane.mul (V.lane i) (lit 0x3EA2F983#32))| ≤ 1/2 := by rw [abs_sub_comm]; exact a
    rw [kPi_val] at t2
    have e := abs_add_le ((n:ℝ) - val (Lane.mul (V.lane i) (lit 0x3EA2F983#32))) (val (Lane.mul (V.lane i) (lit 0x3EA2F983#32)) - val (V.lane i) * kPi)
    rw [sub_add_sub_cancel, mul_comm (val (V.lane i))] at e
    rw [mul_comm (val (V.lane i))] at t2
    rw [hu] at t2; norm_num at t2 ht ⊢; linarith
  obtain ⟨fx, x1⟩ := te_reduce c hV' hv n fq vq hnk
  set q := (XMVectorRound c (SSE.mul V (.splat (lit 0x3EA2F983#32)))).lane i
  set v := val (V.lane i) with hvd
  have hv' : |v| ≤ 1000 := hv
  have hx : |val (fnm c (lit 0x40490FDB#32) q (V.lane i))| ≤ 1562/1000 := by
    set x := val (fnm c (lit 0x40490FDB#32) q (V.lane i))
    have hpi1 := Real.pi_gt_d4
    have hpi2 := Real.pi_lt_d4
    -- the reduced argument is at most a quarter turn, about
    have b1 : |v - Real.pi * n| ≤ Real.pi / 2 + 2/10000 := by
      have e : v - Real.pi * n = v * (1 - Real.pi * kPi) + Real.pi * (kPi * v - n) := by ring
      rw [e]; refine (abs_add_le _ _).trans ?_
      rw [abs_mul, abs_mul, abs_sub_comm (kPi * v), abs_of_pos Real.pi_pos]
      have h2 : |1 - Real.pi * kPi| ≤ 5/100000000 := by
        have hpi3 := Real.pi_gt_d20; have hpi4 := Real.pi_lt_d20
        rw [abs_le]; unfold kPi; norm_num at hpi3 hpi4 ⊢; constructor <;> linarith
      have h4 := mul_le_mul hv' h2 (abs_nonneg _) (by norm_num)
      have h5 := mul_le_mul_of_nonneg_left hnk Real.pi_pos.le
      norm_num at h4 h5 hpi2 ⊢; linarith
    have b2 : |x - (v - Real.pi * n)| ≤ 3/10000 := x1.trans (by norm_num; linarith)
    have b3 : |x| ≤ Real.pi / 2 + 5/10000 := by
      have := abs_add_le (x - (v - Real.pi * n)) (v - Real.pi * n)
      rw [sub_add_cancel] at this; norm_num at b1 b2 ⊢; linarith
    have b4 : |Real.cos (v - Real.pi * n)| = |Real.cos v| := by
      rw [mul_comm, Real.cos_sub_int_mul_pi, abs_mul, abs_zpow, abs_neg, abs_one, one_zpow, one_mul]
    have b5 : 97/10000 ≤ |Real.cos x| := by
      have := cos_lip (v - Real.pi * n) x
      rw [abs_sub_comm (v - Real.pi * n)] at this
      have h6 := abs_sub_abs_le_abs_sub (Real.cos (v - Real.pi * n)) (Real.cos x)
      have hcos' : 1/100 ≤ |Real.cos v| := hcos
      rw [b4] at h6; norm_num at b2 ⊢; linarith
    have b6 : |Real.cos x| ≤ |Real.pi / 2 - abs x| := by
      rw [← Real.cos_abs x, ← Real.sin_pi_div_two_sub]
      exact Real.abs_sin_le_abs
    have b7 := b5.trans b6
    norm_num at hpi1 hpi2
    rcases le_or_gt |x| (Real.pi / 2) with g | g
    · rw [abs_of_nonneg (by linarith)] at b7; norm_num at b7 ⊢; linarith
    · rw [abs_of_neg (by linarith)] at b7; norm_num at b3 b7; linarith
  obtain ⟨p1, p2⟩ := te_poly c hP fx hx
  refine ⟨p1, val (fnm c (lit 0x40490FDB#32) q (V.lane i)) + n * Real.pi, ?_, ?_⟩
  · rw [show val (fnm c (lit 0x40490FDB#32) q (V.lane i)) + n * Real.pi - value (V.lane i).bits = val (fnm c (lit 0x40490FDB#32) q (V.lane i)) - (v - Real.pi * n) by
      rw [hvd, show value (V.lane i).bits = val (V.lane i) from rfl]; ring]
    exact x1
  · rw [Real.tan_add_int_mul_pi]; exact p2

/-- The estimate that returns the correctly rounded reciprocal has the documented precision. -/
theorem rcp_exact_ok (P : Env) : RcpOk (fun b => IEEE.div P 0x3F800000#32 b) := by
  intro x fx h1 h2
  have ht := tiny_pos
  have h0 : value x ≠ 0 := fun g => by rw [g, abs_zero] at h1; linarith
  have r := div_rounds P (a := 0x3F800000#32) (by decide) fx h0
  rw [show value 0x3F800000#32 = 1 from value_one] at r
  have hx0 : 0 < |value x| := abs_pos.2 h0
  have ho : |1 / value x| ≤ 2^126 := by
    rw [abs_div, abs_one, div_le_iff₀ hx0]
    calc (1:ℝ) = 2^126 * tiny := by unfold tiny; norm_num
      _ ≤ _ := mul_le_mul_of_nonneg_left h1 (by positivity)
  have hl : tiny ≤ |1 / value x| := by
    rw [abs_div, abs_one, le_div_iff₀ hx0]
    calc tiny * |value x| ≤ tiny * 2^125 := mul_le_mul_of_nonneg_left h2 ht.le
      _ ≤ 1 := by unfold tiny; norm_num
  obtain ⟨g1, g2⟩ := rounds_err'' r (lt_of_le_of_lt ho (by unfold overflow; norm_num)) hl
  refine ⟨g1, ?_⟩
  rw [show value (div P 0x3F800000#32 x) * value x - 1 = (value (div P 0x3F800000#32 x) - 1 / value x) * value x by field_simp, abs_mul]
  calc _ ≤ ulp2 * |1 / value x| * |value x| := mul_le_mul_of_nonneg_right g2 (abs_nonneg _)
    _ = ulp2 := by rw [mul_assoc, ← abs_mul, one_div_mul_cancel h0, abs_one, mul_one]
    _ ≤ approx := by unfold ulp2 approx; norm_num

/-- A case: an environment whose approximate instruction is the correctly rounded reciprocal, and the angle 1. -/
example (P : Env) : ∃ Q : Env, RcpOk (fun b => Q.libm 0 b 0) ∧ |value 0x3F800000#32| ≤ 1000 ∧ 1/100 ≤ |Real.cos (value 0x3F800000#32)| ∧
    IsFinite 0x3F800000#32 ∧ tiny ≤ |value 0x3F800000#32| ∧ |value 0x3F800000#32| ≤ 2^125 := by
  refine ⟨{ P with libm := fun _ b _ => IEEE.div P 0x3F800000#32 b }, rcp_exact_ok P, ?_⟩
  rw [show value 0x3F800000#32 = 1 from value_one, abs_one]
  refine ⟨by norm_num, ?_, by decide, by unfold tiny; norm_num, by norm_num⟩
  have := Real.cos_one_pos
  rw [abs_of_pos this]
  have := Real.one_sub_sq_div_two_le_cos (x := 1)
  norm_num at this ⊢; linarith

end DXM.Props
