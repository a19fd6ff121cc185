import Verif.Props.FloatArc
import Verif.Spec.Atan2

/-
C112: arctangent on binary32 lanes (builds with intrinsics), at every input that is not NaN.
-/

set_option linter.all false

namespace DXM.Props
open DXM.Spec DXM.FErr DXM.IEEE DXM.Trig
variable {P : Env}

theorem arctan_lip (a b : ℝ) : |Real.arctan a - Real.arctan b| ≤ |a - b| := by
  have h : LipschitzWith 1 Real.arctan := by
    apply lipschitzWith_of_nnnorm_deriv_le Real.differentiable_arctan
    intro x
    rw [Real.deriv_arctan, ← NNReal.coe_le_coe, coe_nnnorm, Real.norm_of_nonneg (by positivity)]
    simp only [NNReal.coe_one]
    rw [div_le_one (by positivity)]; nlinarith [sq_nonneg x]
  have := h.dist_le_mul a b
  simpa [Real.dist_eq] using this

/-- The arctangent polynomial at a lane in [-1, 1]. -/
theorem at_core {x p : F32 P} {Q : ℝ → ℝ} {k ε : ℝ} (fx : Fin' x) (h1 : |val x| ≤ 1) (hp : Fin' p ∧ |val p - Q (val x ^ 2)| ≤ k * ulp2)
    (hQ : |val x * Q (val x ^ 2) - Real.arctan (val x)| ≤ ε) (hk : k ≤ 10) (hε : ε ≤ 1/1000) :
    Fin' (Lane.mul p x) ∧ |val (Lane.mul p x) - Real.arctan (val x)| ≤ k * ulp2 + 79/100 * ulp2 + ε := by
  have hu := u_pos
  have hu1 : ulp2 ≤ 1/10000 := by unfold ulp2; norm_num
  have htt : tiny ≤ 1/1000 := by unfold tiny; norm_num
  obtain ⟨p1, p2⟩ := hp
  have ha : |Real.arctan (val x)| ≤ 786/1000 := by
    have hpi := Real.pi_lt_d4
    have q1 : Real.arctan (val x) ≤ Real.pi / 4 := by
      rw [← Real.arctan_one]; exact Real.arctan_strictMono.monotone (abs_le.1 h1).2
    have q2 : -(Real.pi / 4) ≤ Real.arctan (val x) := by
      rw [← Real.arctan_one, ← Real.arctan_neg]; exact Real.arctan_strictMono.monotone (abs_le.1 h1).1
    rw [abs_le]; norm_num at hpi ⊢; constructor <;> linarith
  have e1 : |(val p - Q (val x ^ 2)) * val x| ≤ k * ulp2 := by
    rw [abs_mul]
    calc _ ≤ |val p - Q (val x ^ 2)| * 1 := mul_le_mul_of_nonneg_left h1 (abs_nonneg _)
      _ ≤ _ := by rw [mul_one]; exact p2
  have hk2 : k * ulp2 ≤ 10 * ulp2 := mul_le_mul_of_nonneg_right hk hu.le
  have hq : |val p * val x| ≤ 7885/10000 := by
    have e : val p * val x = (val p - Q (val x ^ 2)) * val x + (val x * Q (val x ^ 2) - Real.arctan (val x)) + Real.arctan (val x) := by ring
    rw [e]
    refine (abs_add_le _ _).trans ((add_le_add (abs_add_le _ _) le_rfl).trans ?_)
    have : ulp2 ≤ 1/100000 := by unfold ulp2; norm_num
    linarith
  obtain ⟨m1, m2, m3⟩ := mul_abs p1 fx hq (by norm_num)
  refine ⟨m1, ?_⟩
  have e : val (Lane.mul p x) - Real.arctan (val x) = (val (Lane.mul p x) - val p * val x) + (val p - Q (val x ^ 2)) * val x + (val x * Q (val x ^ 2) - Real.arctan (val x)) := by ring
  rw [e]
  refine (abs_add_le _ _).trans ((add_le_add (abs_add_le _ _) le_rfl).trans ?_)
  have q3 : ulp2 * (7885/10000 + tiny) ≤ 79/100 * ulp2 := by
    rw [mul_comm]; exact mul_le_mul_of_nonneg_right (by linarith) hu.le
  linarith

/-- The square of a lane in [-1, 1]. -/
theorem at_sq {x : F32 P} (fx : Fin' x) (h1 : |val x| ≤ 1) :
    Fin' (Lane.mul x x) ∧ |val (Lane.mul x x)| ≤ 1000001/1000000 ∧ |val x ^ 2| ≤ 1000001/1000000 ∧ |val (Lane.mul x x) - val x ^ 2| ≤ 10001/10000/16777216 := by
  have hu : ulp2 = 1/2^24 := rfl
  have htt : tiny ≤ 1/100000 := by unfold tiny; norm_num
  have hq : |val x * val x| ≤ 1 := by rw [abs_mul]; nlinarith [abs_nonneg (val x)]
  obtain ⟨m1, m2, m3⟩ := mul_abs fx fx hq (by norm_num)
  have e : |val (Lane.mul x x) - val x ^ 2| ≤ 10001/10000/16777216 := by
    rw [pow_two]; refine m2.trans ?_; rw [hu]; norm_num at htt ⊢; linarith
  have hs : |val x ^ 2| ≤ 1 := by rw [pow_two]; exact hq
  refine ⟨m1, m3.trans ?_, hs.trans (by norm_num), e⟩
  rw [hu]; norm_num at htt ⊢; linarith

/-- The lane computed by both arctangents, with the polynomial as argument. -/
def atL (poly : F32 P → F32 P) (V : F32 P) : F32 P :=
  let x := if Lane.le (Lane.maxps (Lane.sub (lit 0#32) V) V) (lit 0x3F800000#32) then V else Lane.div (lit 0x3F800000#32) V
  let s := if Lane.le (Lane.maxps (Lane.sub (lit 0#32) V) V) (lit 0x3F800000#32) then lit 0#32 else if Lane.gt V (lit 0x3F800000#32) then lit 0x3F800000#32 else lit 0xBF800000#32
  let R := Lane.mul (poly (Lane.mul x x)) x
  if Lane.eq s (lit 0#32) then R else Lane.sub (Lane.mul s (lit 0x3FC90FDB#32)) R

theorem atL_lane (c : Cfg) (hc : c.sse = true) (V : V4 (F32 P)) (i : Fin 4) : (XMVectorATan c V).lane i = atL (atPV c) (V.lane i) := by
  have hs : ∀ A B : V4 (F32 P), (SSE.sub A B).lane i = Lane.sub (A.lane i) (B.lane i) := fun A B => by fin_cases i <;> rfl
  have hx : ∀ A B : V4 (F32 P), (SSE.max A B).lane i = Lane.maxps (A.lane i) (B.lane i) := fun A B => by fin_cases i <;> rfl
  have hd : ∀ A B : V4 (F32 P), (SSE.div A B).lane i = Lane.div (A.lane i) (B.lane i) := fun A B => by fin_cases i <;> rfl
  have hl : ∀ (A B : V4 (F32 P)), (SSE.or A B).lane i = Lane.bor (A.lane i) (B.lane i) := fun A B => by fin_cases i <;> rfl
  have ha : ∀ (A B : V4 (F32 P)), (SSE.and A B).lane i = Lane.band (A.lane i) (B.lane i) := fun A B => by fin_cases i <;> rfl
  have hn : ∀ (A B : V4 (F32 P)), (SSE.andnot A B).lane i = Lane.bandn (A.lane i) (B.lane i) := fun A B => by fin_cases i <;> rfl
  have c1 : ∀ A B : V4 (F32 P), (SSE.cmple A B).lane i = Lane.mask (Lane.le (A.lane i) (B.lane i)) := fun A B => by fin_cases i <;> rfl
  have c2 : ∀ A B : V4 (F32 P), (SSE.cmpgt A B).lane i = Lane.mask (Lane.gt (A.lane i) (B.lane i)) := fun A B => by fin_cases i <;> rfl
  have c3 : ∀ A B : V4 (F32 P), (SSE.cmpeq A B).lane i = Lane.mask (Lane.eq (A.lane i) (B.lane i)) := fun A B => by fin_cases i <;> rfl
  have g0 : (g_XMZero : V4 (F32 P)).lane i = lit 0#32 := by fin_cases i <;> rfl
  have g1 : (g_XMOne : V4 (F32 P)).lane i = lit 0x3F800000#32 := by fin_cases i <;> rfl
  have g2 : (g_XMNegativeOne : V4 (F32 P)).lane i = lit 0xBF800000#32 := by fin_cases i <;> rfl
  have g3 : (g_XMHalfPi : V4 (F32 P)).lane i = lit 0x3FC90FDB#32 := by fin_cases i <;> rfl
  have g4 : (SSE.setzero : V4 (F32 P)).lane i = lit 0#32 := by fin_cases i <;> rfl
  unfold XMVectorATan atanReduce atanFinish XMVectorAbs
  rw [if_pos hc, if_pos hc]
  simp only [hs, hx, hd, hl, ha, hn, c1, c2, c3, mul_lane, fmadd_lane, g0, g1, g2, g3, g4, sel1]
  generalize V.lane i = v
  fin_cases i <;> rfl
theorem atEL_lane (c : Cfg) (hc : c.sse = true) (V : V4 (F32 P)) (i : Fin 4) : (XMVectorATanEst c V).lane i = atL (atEPV c) (V.lane i) := by
  have hs : ∀ A B : V4 (F32 P), (SSE.sub A B).lane i = Lane.sub (A.lane i) (B.lane i) := fun A B => by fin_cases i <;> rfl
  have hx : ∀ A B : V4 (F32 P), (SSE.max A B).lane i = Lane.maxps (A.lane i) (B.lane i) := fun A B => by fin_cases i <;> rfl
  have hd : ∀ A B : V4 (F32 P), (SSE.div A B).lane i = Lane.div (A.lane i) (B.lane i) := fun A B => by fin_cases i <;> rfl
  have hl : ∀ (A B : V4 (F32 P)), (SSE.or A B).lane i = Lane.bor (A.lane i) (B.lane i) := fun A B => by fin_cases i <;> rfl
  have ha : ∀ (A B : V4 (F32 P)), (SSE.and A B).lane i = Lane.band (A.lane i) (B.lane i) := fun A B => by fin_cases i <;> rfl
  have hn : ∀ (A B : V4 (F32 P)), (SSE.andnot A B).lane i = Lane.bandn (A.lane i) (B.lane i) := fun A B => by fin_cases i <;> rfl
  have c1 : ∀ A B : V4 (F32 P), (SSE.cmple A B).lane i = Lane.mask (Lane.le (A.lane i) (B.lane i)) := fun A B => by fin_cases i <;> rfl
  have c2 : ∀ A B : V4 (F32 P), (SSE.cmpgt A B).lane i = Lane.mask (Lane.gt (A.lane i) (B.lane i)) := fun A B => by fin_cases i <;> rfl
  have c3 : ∀ A B : V4 (F32 P), (SSE.cmpeq A B).lane i = Lane.mask (Lane.eq (A.lane i) (B.lane i)) := fun A B => by fin_cases i <;> rfl
  have g0 : (g_XMZero : V4 (F32 P)).lane i = lit 0#32 := by fin_cases i <;> rfl
  have g1 : (g_XMOne : V4 (F32 P)).lane i = lit 0x3F800000#32 := by fin_cases i <;> rfl
  have g2 : (g_XMNegativeOne : V4 (F32 P)).lane i = lit 0xBF800000#32 := by fin_cases i <;> rfl
  have g3 : (g_XMHalfPi : V4 (F32 P)).lane i = lit 0x3FC90FDB#32 := by fin_cases i <;> rfl
  have g4 : (SSE.setzero : V4 (F32 P)).lane i = lit 0#32 := by fin_cases i <;> rfl
  unfold XMVectorATanEst atanReduce atanFinish XMVectorAbs
  rw [if_pos hc, if_pos hc]
  simp only [hs, hx, hd, hl, ha, hn, c1, c2, c3, mul_lane, fmadd_lane, g0, g1, g2, g3, g4, sel1]
  generalize V.lane i = v
  fin_cases i <;> rfl


theorem inf_cases {b : BitVec 32} (h : IsInf b) : b = 0x7F800000#32 ∨ b = 0xFF800000#32 := by
  unfold IsInf expField fracField at h
  obtain ⟨h1, h2⟩ := h
  have : b.toNat = 0x7F800000 ∨ b.toNat = 0xFF800000 := by
    have := b.isLt
    omega
  rcases this with h | h
  · left; exact BitVec.eq_of_toNat_eq h
  · right; exact BitVec.eq_of_toNat_eq h

/-- The reciprocal of a lane outside [-1, 1]. -/
theorem recip_f {V : F32 P} (fV : Fin' V) (h : 1 < |val V|) : Fin' (Lane.div (lit 0x3F800000#32) V) ∧
    |val (Lane.div (lit 0x3F800000#32) V)| ≤ 1 ∧ |val (Lane.div (lit 0x3F800000#32) V) - (val V)⁻¹| ≤ 1001/1000 * ulp2 := by
  have hu := u_pos
  have htt : tiny ≤ 1/1000 := by unfold tiny; norm_num
  have h0 : val V ≠ 0 := by intro g; rw [g] at h; simp at h; linarith
  have r := div_rounds P (a := 0x3F800000#32) (b := V.bits) (by decide) fV h0
  rw [value_one, one_div] at r
  have hi : |(value V.bits)⁻¹| ≤ 1 := by rw [abs_inv]; exact inv_le_one_of_one_le₀ h.le
  have ho : |(value V.bits)⁻¹| < overflow := lt_of_le_of_lt hi (by unfold overflow; norm_num)
  obtain ⟨g1, g2⟩ := rounds_err r ho
  refine ⟨g1, ?_, (show |val (Lane.div (lit 0x3F800000#32) V) - (val V)⁻¹| ≤ _ from g2).trans ?_⟩
  · have n1 := r.nearest ho 0x3F800000#32 (by decide)
    have n2 := r.nearest ho 0xBF800000#32 (by decide)
    have v1 : value 0x3F800000#32 = 1 := value_one
    have v2 : value 0xBF800000#32 = -1 := neg1L_val (P := P)
    rw [v1] at n1; rw [v2] at n2
    have hi' := abs_le.1 hi
    show |value (div P 0x3F800000#32 V.bits)| ≤ 1
    rw [abs_of_nonneg (show 0 ≤ 1 - (value V.bits)⁻¹ by linarith [hi'.2])] at n1
    rw [abs_of_nonpos (show -1 - (value V.bits)⁻¹ ≤ 0 by linarith [hi'.1])] at n2
    rw [abs_le]; exact ⟨by linarith [(abs_le.1 n2).1], by linarith [(abs_le.1 n1).2]⟩
  · rw [mul_comm]; exact mul_le_mul_of_nonneg_right (by linarith) hu.le


theorem maxabs' {V : F32 P} (hV : Fin' V) : Fin' (Lane.maxps (Lane.sub (lit 0#32) V) V) ∧ val (Lane.maxps (Lane.sub (lit 0#32) V) V) = |val V| := by
  have r := sub_rounds P (a := 0#32) (b := V.bits) (by decide) hV
  have e : value (0#32 : BitVec 32) - value V.bits = value (IEEE.neg V.bits) := by
    rw [IEEE.neg_value, show value 0#32 = 0 from zeroL_val (P := P)]; ring
  rw [e] at r
  obtain ⟨g1, g2⟩ := rounds_exact (finite_neg.2 hV) r
  rw [IEEE.neg_value] at g2
  have g1' : Fin' (Lane.sub (lit 0#32) V) := g1
  have g2' : val (Lane.sub (lit 0#32) V) = -val V := g2
  unfold Lane.maxps
  by_cases h : val V < val (Lane.sub (lit 0#32) V)
  · rw [if_pos ((lt_val hV g1').2 h)]
    refine ⟨g1', ?_⟩
    rw [g2'] at h ⊢; rw [abs_of_nonpos (by linarith)]
  · rw [if_neg (fun g => h ((lt_val hV g1').1 g))]
    refine ⟨hV, ?_⟩
    rw [g2'] at h; push Not at h; rw [abs_of_nonneg (by linarith)]

/-- Completing the arctangent outside [-1, 1]: `s` is the signed half turn. -/
theorem at_fin {r h : F32 P} {t u e E : ℝ} {σ : ℝ} (hr : Fin' r) (he : |val r - u| ≤ e) (fh : Fin' h) (hh : val h = σ * (piF/2)) (hσ : |σ| = 1) (hu : |u - (σ * (Real.pi/2) - t)| ≤ 1001/1000 * ulp2)
    (ht : |t| ≤ Real.pi / 2) (he1 : e ≤ 1/1000) (hE : e + 44/10^9 + 2583/1000 * ulp2 ≤ E) :
    Fin' (Lane.sub h r) ∧ |val (Lane.sub h r) - t| ≤ E := by
  have hpp := piF_pi
  have hu0 := u_pos
  have htt : tiny ≤ 1/1000 := by unfold tiny; norm_num
  have d : |σ * (piF/2) - σ * (Real.pi/2)| ≤ 44/10^9 := by
    rw [← mul_sub, abs_mul, hσ, one_mul, ← sub_div, abs_div, abs_of_pos (show (0:ℝ) < 2 by norm_num)]; linarith
  have hq : |val h - val r| ≤ 158/100 := by
    rw [hh]
    have e0 : σ * (piF/2) - val r = (σ * (piF/2) - σ * (Real.pi/2)) + t + -(u - (σ * (Real.pi/2) - t)) + -(val r - u) := by ring
    rw [e0]; refine (abs_add_le _ _).trans ((add_le_add ((abs_add_le _ _).trans (add_le_add (abs_add_le _ _) le_rfl)) le_rfl).trans ?_)
    have hpi := Real.pi_lt_d4
    have hu1 : ulp2 ≤ 1/1000000 := by unfold ulp2; norm_num
    rw [abs_neg, abs_neg]; norm_num at hpi ⊢; linarith
  obtain ⟨m1, m2⟩ := sub_abs fh hr hq (by norm_num)
  refine ⟨m1, ?_⟩
  rw [hh] at m2
  have e0 : val (Lane.sub h r) - t = (val (Lane.sub h r) - (σ * (piF/2) - val r)) + (σ * (piF/2) - σ * (Real.pi/2)) + -(val r - u) + -(u - (σ * (Real.pi/2) - t)) := by ring
  rw [e0]; refine (abs_add_le _ _).trans ((add_le_add ((abs_add_le _ _).trans (add_le_add (abs_add_le _ _) le_rfl)) le_rfl).trans ?_)
  rw [abs_neg, abs_neg]
  have q3 : ulp2 * (158/100 + tiny) ≤ 1581/1000 * ulp2 := by
    rw [mul_comm]; exact mul_le_mul_of_nonneg_right (by linarith) hu0.le
  linarith

theorem hp_pos : (Lane.mul (lit 0x3F800000#32) (lit 0x3FC90FDB#32) : F32 P) = lit 0x3FC90FDB#32 := mul_c (by decide +kernel)
theorem hp_neg : (Lane.mul (lit 0xBF800000#32) (lit 0x3FC90FDB#32) : F32 P) = lit 0xBFC90FDB#32 := mul_c (by decide +kernel)
theorem hpn_val : val (lit 0xBFC90FDB#32 : F32 P) = -1 * (piF/2) := by
  rw [show (lit 0xBFC90FDB#32 : F32 P) = Lane.neg (lit 0x3FC90FDB#32) from by show (0xBFC90FDB#32 : BitVec 32) = IEEE.neg 0x3FC90FDB#32; decide]
  rw [neg_val, halfPi_val]; ring

theorem atan_range (x : ℝ) : |Real.arctan x| ≤ Real.pi / 2 := by
  rw [abs_le]; exact ⟨(Real.neg_pi_div_two_lt_arctan x).le, (Real.arctan_lt_pi_div_two x).le⟩

/-- Both arctangents on every lane that is not NaN. -/
theorem atL_f {poly : F32 P → F32 P} {Q : ℝ → ℝ} {k ε E : ℝ} (hpoly : ∀ (y : F32 P) (z : ℝ), Fin' y → |val y| ≤ 1000001/1000000 → |z| ≤ 1000001/1000000 → |val y - z| ≤ 10001/10000/16777216 →
      Fin' (poly y) ∧ |val (poly y) - Q z| ≤ k * ulp2) (hQ : ∀ x, |x| ≤ 1 → |x * Q (x^2) - Real.arctan x| ≤ ε) (hk : k ≤ 10) (hε : ε ≤ 9/10000)
    (hE : k * ulp2 + 79/100 * ulp2 + ε + 44/10^9 + 2583/1000 * ulp2 ≤ E) (V : F32 P) (hn : ¬ IsNaN V.bits) : Fin' (atL poly V) ∧ |val (atL poly V) - extArctan V.bits| ≤ E := by
  have hu := u_pos
  have hu1 : ulp2 ≤ 1/1000000 := by unfold ulp2; norm_num
  have f1 : Fin' (lit 0x3F800000#32 : F32 P) := lf_3F800000
  have core : ∀ x : F32 P, Fin' x → |val x| ≤ 1 → Fin' (Lane.mul (poly (Lane.mul x x)) x) ∧ |val (Lane.mul (poly (Lane.mul x x)) x) - Real.arctan (val x)| ≤ k * ulp2 + 79/100 * ulp2 + ε := by
    intro x fx h1
    obtain ⟨s1, s2, s3, s4⟩ := at_sq fx h1
    exact at_core fx h1 (hpoly _ _ s1 s2 s3 s4) (hQ _ h1) hk (by linarith)
  have hk2 : k * ulp2 ≤ 10 * ulp2 := mul_le_mul_of_nonneg_right hk hu.le
  have z0 : Lane.eq (lit 0#32 : F32 P) (lit 0#32) = true := by unfold Lane.eq; show IEEE.eq 0#32 0#32 = true; decide +kernel
  have z1 : Lane.eq (lit 0x3F800000#32 : F32 P) (lit 0#32) = false := by unfold Lane.eq; show IEEE.eq 0x3F800000#32 0#32 = false; decide +kernel
  have z2 : Lane.eq (lit 0xBF800000#32 : F32 P) (lit 0#32) = false := by unfold Lane.eq; show IEEE.eq 0xBF800000#32 0#32 = false; decide +kernel
  have fp : Fin' (lit 0x3FC90FDB#32 : F32 P) := lit_fin (by decide)
  have fn : Fin' (lit 0xBFC90FDB#32 : F32 P) := lit_fin (by decide)
  rcases finite_or hn with fV | iV
  · have eT : extArctan V.bits = Real.arctan (val V) := by unfold extArctan; rw [if_neg (not_inf_of_finite fV)]
    rw [eT]
    obtain ⟨a1, a2⟩ := maxabs' (P := P) fV
    have hle : Lane.le (Lane.maxps (Lane.sub (lit 0#32) V) V) (lit 0x3F800000#32) = true ↔ |val V| ≤ 1 := by rw [le_val a1 f1, a2, lv_3F800000]
    by_cases h : |val V| ≤ 1
    · unfold atL
      simp only [hle.2 h, if_true, z0]
      obtain ⟨c1, c2⟩ := core V fV h
      exact ⟨c1, by linarith⟩
    · have hf : Lane.le (Lane.maxps (Lane.sub (lit 0#32) V) V) (lit 0x3F800000#32) = false := by
        rw [Bool.eq_false_iff]; exact fun g => h (hle.1 g)
      push Not at h
      obtain ⟨x1, x2, x3⟩ := recip_f fV h
      obtain ⟨c1, c2⟩ := core _ x1 x2
      have hl := (arctan_lip (val (Lane.div (lit 0x3F800000#32) V)) (val V)⁻¹).trans x3
      have hgt : Lane.gt V (lit 0x3F800000#32) = true ↔ 1 < val V := by
        have := lt_val f1 fV; rw [lv_3F800000] at this; exact this
      unfold atL
      simp only [hf, if_false, Bool.false_eq_true]
      by_cases hp : 1 < val V
      · simp only [hgt.2 hp, if_true, z1, if_false, Bool.false_eq_true, hp_pos]
        refine at_fin (σ := 1) (u := Real.arctan (val (Lane.div (lit 0x3F800000#32) V))) c1 c2 fp (by rw [halfPi_val]; ring) (by simp) ?_ (atan_range _) (by linarith) (by linarith)
        rw [Real.arctan_inv_of_pos (by linarith)] at hl; simpa using hl
      · have hg : Lane.gt V (lit 0x3F800000#32) = false := by rw [Bool.eq_false_iff]; exact fun g => hp (hgt.1 g)
        have hneg : val V < 0 := by
          by_contra g; rw [abs_of_nonneg (not_lt.1 g)] at h; exact hp h
        simp only [hg, if_false, z2, Bool.false_eq_true, hp_neg]
        refine at_fin (σ := -1) (u := Real.arctan (val (Lane.div (lit 0x3F800000#32) V))) c1 c2 fn hpn_val (by simp) ?_ (atan_range _) (by linarith) (by linarith)
        rw [Real.arctan_inv_of_neg (by linarith)] at hl; rwa [show -1 * (Real.pi/2) = -(Real.pi/2) by ring]
  · have hV : ∀ b : BitVec 32, V.bits = b → V = lit b := fun b g => by show (V : BitVec 32) = b; exact g
    have hz : ∀ x : F32 P, x = lit 0#32 ∨ x = lit 0x80000000#32 → Fin' x ∧ val x = 0 := by
      rintro x (rfl | rfl)
      · exact ⟨lit_fin (by decide), zeroL_val⟩
      · exact ⟨lit_fin (by decide), by show value 0x80000000#32 = 0; rw [value_zero_iff]; decide⟩
    have hpp : |Real.pi / 2| ≤ Real.pi / 2 := by rw [abs_of_pos Real.pi_div_two_pos]
    rcases inf_cases iV with g | g
    · have e := hV _ g
      have s1 : (Lane.sub (lit 0#32) (lit 0x7F800000#32) : F32 P) = lit 0xFF800000#32 := ((add_special P 0#32 0x7F800000#32).2.2.1 (by decide) (by decide)).2
      have s2 : (Lane.maxps (lit 0xFF800000#32) (lit 0x7F800000#32) : F32 P) = lit 0x7F800000#32 := by
        unfold Lane.maxps; rw [if_neg]; show ¬ IEEE.lt 0x7F800000#32 0xFF800000#32 = true; decide +kernel
      have s3 : Lane.le (lit 0x7F800000#32 : F32 P) (lit 0x3F800000#32) = false := by show IEEE.le 0x7F800000#32 0x3F800000#32 = false; decide +kernel
      have s4 : Lane.gt (lit 0x7F800000#32 : F32 P) (lit 0x3F800000#32) = true := by unfold Lane.gt; show IEEE.lt 0x3F800000#32 0x7F800000#32 = true; decide +kernel
      have s5 : (Lane.div (lit 0x3F800000#32) (lit 0x7F800000#32) : F32 P) = lit 0#32 := by
        show div P 0x3F800000#32 0x7F800000#32 = 0#32
        unfold div; rw [if_neg (by decide), if_neg (by decide), if_pos (by decide)]; decide
      obtain ⟨w1, w2⟩ := hz _ (Or.inl s5)
      obtain ⟨c1, c2⟩ := core _ w1 (by rw [w2]; simp)
      have eT : extArctan V.bits = Real.pi / 2 := by unfold extArctan sgn; rw [if_pos iV, g, if_neg (by decide)]; ring
      rw [eT, e]
      unfold atL
      simp only [s1, s2, s3, s4, if_true, if_false, Bool.false_eq_true, z1, hp_pos]
      refine at_fin (σ := 1) c1 c2 fp (by rw [halfPi_val]; ring) (by simp) ?_ hpp (by linarith) (by linarith)
      rw [w2]; simp; exact hu.le
    · have e := hV _ g
      have s1 : (Lane.sub (lit 0#32) (lit 0xFF800000#32) : F32 P) = lit 0x7F800000#32 := ((add_special P 0#32 0xFF800000#32).2.2.1 (by decide) (by decide)).2
      have s2 : (Lane.maxps (lit 0x7F800000#32) (lit 0xFF800000#32) : F32 P) = lit 0x7F800000#32 := by
        unfold Lane.maxps; rw [if_pos]; show IEEE.lt 0xFF800000#32 0x7F800000#32 = true; decide +kernel
      have s3 : Lane.le (lit 0x7F800000#32 : F32 P) (lit 0x3F800000#32) = false := by show IEEE.le 0x7F800000#32 0x3F800000#32 = false; decide +kernel
      have s4 : Lane.gt (lit 0xFF800000#32 : F32 P) (lit 0x3F800000#32) = false := by unfold Lane.gt; show IEEE.lt 0x3F800000#32 0xFF800000#32 = false; decide +kernel
      have s5 : (Lane.div (lit 0x3F800000#32) (lit 0xFF800000#32) : F32 P) = lit 0x80000000#32 := by
        show div P 0x3F800000#32 0xFF800000#32 = 0x80000000#32
        unfold div; rw [if_neg (by decide), if_neg (by decide), if_pos (by decide)]; decide
      obtain ⟨w1, w2⟩ := hz _ (Or.inr s5)
      obtain ⟨c1, c2⟩ := core _ w1 (by rw [w2]; simp)
      have eT : extArctan V.bits = -(Real.pi / 2) := by unfold extArctan sgn; rw [if_pos iV, g, if_pos (by decide)]; ring
      rw [eT, e]
      unfold atL
      simp only [s1, s2, s3, s4, if_true, if_false, Bool.false_eq_true, z2, hp_neg]
      refine at_fin (σ := -1) c1 c2 fn hpn_val (by simp) ?_ (by rw [abs_neg]; exact hpp) (by linarith) (by linarith)
      rw [w2]; simp; exact hu.le


/-- A literal with the sign of `Y`. -/
def sgnL (s : Bool) (p n : BitVec 32) : F32 P := if s then lit n else lit p
theorem xpos_mask (a : F32 P) : Lane.ieq (Lane.band a (lit 0x80000000#32)) (lit 0#32) = !sg a.bits := by
  show decide ((a.bits &&& 0x80000000#32) = 0#32) = _
  rw [and_sign]; cases sg a.bits <;> simp
theorem inf_mask (a : F32 P) : Lane.eq (Lane.band a (lit 0x7FFFFFFF#32)) (lit 0x7F800000#32) = isInf a.bits := by
  show IEEE.eq (IEEE.abs a.bits) 0x7F800000#32 = _
  have h1 := am_abs a.bits; have h2 := sg_abs a.bits
  unfold IEEE.eq IEEE.isNaN IEEE.isInf IEEE.key
  rw [h1, h2]
  have e : am 0x7F800000#32 = 0x7F800000 := by decide
  have e2 : sg 0x7F800000#32 = false := by decide
  rw [e, e2]
  generalize am a.bits = n
  by_cases h : n = 0x7F800000
  · subst h; decide
  · have : decide (n = 0x7F800000) = false := by simpa using h
    rw [this]; simp; intro _; exact_mod_cast h
theorem ysign (a : F32 P) : Lane.band a (lit 0x80000000#32) = sgnL (sg a.bits) 0#32 0x80000000#32 := by
  show (a.bits &&& 0x80000000#32) = _
  rw [and_sign]; unfold sgnL; cases sg a.bits <;> rfl
/-- One lane of the two-argument arctangent, given the arctangent of the quotient. -/
def at2L (Y X R0 : F32 P) : F32 P :=
  if isInf Y.bits then
    if isInf X.bits then (if sg X.bits then sgnL (sg Y.bits) 0x4016CBE4#32 0xC016CBE4#32 else sgnL (sg Y.bits) 0x3F490FDB#32 0xBF490FDB#32)
    else sgnL (sg Y.bits) 0x3FC90FDB#32 0xBFC90FDB#32
  else if Lane.eq Y (lit 0#32) then (if sg X.bits then sgnL (sg Y.bits) 0x40490FDB#32 0xC0490FDB#32 else sgnL (sg Y.bits) 0#32 0x80000000#32)
  else if Lane.eq X (lit 0#32) then sgnL (sg Y.bits) 0x3FC90FDB#32 0xBFC90FDB#32
  else Lane.add R0 (if sg X.bits then sgnL (sg Y.bits) 0x40490FDB#32 0xC0490FDB#32 else lit 0x80000000#32)

theorem threeq : (Lane.div (Lane.mul (lit 0x40490FDB#32) (lit 0x40400000#32)) (lit 0x40800000#32) : F32 P) = lit 0x4016CBE4#32 := by
  rw [show (Lane.mul (lit 0x40490FDB#32) (lit 0x40400000#32) : F32 P) = lit 0x4116CBE4#32 from mul_c (by decide +kernel)]
  exact div_c (by decide +kernel)

theorem at2L_lane (c : Cfg) (hc : c.sse = true) (Y X R : V4 (F32 P)) (i : Fin 4) : (atan2Body c Y X R).lane i = at2L (Y.lane i) (X.lane i) (R.lane i) := by
  have hl : ∀ (A B : V4 (F32 P)), (SSE.or A B).lane i = Lane.bor (A.lane i) (B.lane i) := fun A B => by fin_cases i <;> rfl
  have hd : ∀ (A B : V4 (F32 P)), (SSE.add A B).lane i = Lane.add (A.lane i) (B.lane i) := fun A B => by fin_cases i <;> rfl
  have ha : ∀ (A B : V4 (F32 P)), (SSE.and A B).lane i = Lane.band (A.lane i) (B.lane i) := fun A B => by fin_cases i <;> rfl
  have hn : ∀ (A B : V4 (F32 P)), (SSE.andnot A B).lane i = Lane.bandn (A.lane i) (B.lane i) := fun A B => by fin_cases i <;> rfl
  have c3 : ∀ A B : V4 (F32 P), (SSE.cmpeq A B).lane i = Lane.mask (Lane.eq (A.lane i) (B.lane i)) := fun A B => by fin_cases i <;> rfl
  have c4 : ∀ A B : V4 (F32 P), (SSE.cmpeq_epi32 A B).lane i = Lane.mask (Lane.ieq (A.lane i) (B.lane i)) := fun A B => by fin_cases i <;> rfl
  have g0 : (XMVectorZero : V4 (F32 P)).lane i = lit 0#32 := by fin_cases i <;> rfl
  have g1 : (g_XMNegativeZero : V4 (F32 P)).lane i = lit 0x80000000#32 := by fin_cases i <;> rfl
  have g2 : (XMVectorTrueInt : V4 (F32 P)).lane i = lit 0xFFFFFFFF#32 := by fin_cases i <;> rfl
  have g3 : (g_XMAbsMask : V4 (F32 P)).lane i = lit 0x7FFFFFFF#32 := by fin_cases i <;> rfl
  have g4 : (g_XMInfinity : V4 (F32 P)).lane i = lit 0x7F800000#32 := by fin_cases i <;> rfl
  have p1 : (XMVectorSplatX c ATan2Constants : V4 (F32 P)).lane i = lit 0x40490FDB#32 := by unfold XMVectorSplatX; split_ifs <;> fin_cases i <;> rfl
  have p2 : (XMVectorSplatY c ATan2Constants : V4 (F32 P)).lane i = lit 0x3FC90FDB#32 := by unfold XMVectorSplatY; split_ifs <;> fin_cases i <;> rfl
  have p3 : (XMVectorSplatZ c ATan2Constants : V4 (F32 P)).lane i = lit 0x3F490FDB#32 := by unfold XMVectorSplatZ; split_ifs <;> fin_cases i <;> rfl
  have p4 : (XMVectorSplatW c ATan2Constants : V4 (F32 P)).lane i = lit 0x4016CBE4#32 := by
    rw [← threeq]; unfold XMVectorSplatW; split_ifs <;> fin_cases i <;> rfl
  unfold atan2Body XMVectorIsInfinite
  rw [if_pos hc, if_pos hc]
  unfold XMVectorSelect XMVectorEqual XMVectorEqualInt XMVectorAndInt XMVectorOrInt XMVectorAdd
  simp only [hl, hd, ha, hn, c3, c4, g0, g1, g2, g3, g4, p1, p2, p3, p4, sel3, xpos_mask, inf_mask]
  simp only [ysign]
  generalize Y.lane i = y
  generalize X.lane i = x
  generalize R.lane i = r
  have orr : ∀ (s : Bool) (a n : BitVec 32), a ||| 0x80000000#32 = n → Lane.bor (lit a) (sgnL s 0#32 0x80000000#32 : F32 P) = sgnL s a n := by
    intro s a n h
    unfold sgnL; cases s
    · show (a ||| 0#32 : BitVec 32) = a; simp
    · show (a ||| 0x80000000#32 : BitVec 32) = n; exact h
  simp only [fun s => orr s 0x40490FDB#32 0xC0490FDB#32 (by decide), fun s => orr s 0x3FC90FDB#32 0xBFC90FDB#32 (by decide), fun s => orr s 0x3F490FDB#32 0xBF490FDB#32 (by decide),
    fun s => orr s 0x4016CBE4#32 0xC016CBE4#32 (by decide)]
  unfold at2L
  have t0 : ∀ (s : Bool) (a n : BitVec 32), a ≠ 0xFFFFFFFF#32 → n ≠ 0xFFFFFFFF#32 → Lane.ieq (sgnL s a n : F32 P) (lit 0xFFFFFFFF#32) = false := by
    intro s a n h1 h2; unfold sgnL; cases s
    · show decide (a = 0xFFFFFFFF#32) = false; simpa using h1
    · show decide (n = 0xFFFFFFFF#32) = false; simpa using h2
  have t1 : Lane.ieq (lit 0xFFFFFFFF#32 : F32 P) (lit 0xFFFFFFFF#32) = true := by show decide ((0xFFFFFFFF#32 : BitVec 32) = 0xFFFFFFFF#32) = true; decide
  generalize isInf y.bits = iy
  generalize isInf x.bits = ix
  generalize sg x.bits = sx
  generalize sg y.bits = sy
  generalize Lane.eq y (lit 0#32) = zy
  generalize Lane.eq x (lit 0#32) = zx
  have q1 := t0 sy 0x40490FDB#32 0xC0490FDB#32 (by decide) (by decide)
  have q2 := t0 sy 0x3FC90FDB#32 0xBFC90FDB#32 (by decide) (by decide)
  have q3 := t0 sy 0x3F490FDB#32 0xBF490FDB#32 (by decide) (by decide)
  have q4 := t0 sy 0x4016CBE4#32 0xC016CBE4#32 (by decide) (by decide)
  have q5 := t0 sy 0#32 0x80000000#32 (by decide) (by decide)
  cases iy <;> cases ix <;> cases sx <;> cases zy <;> cases zx <;> simp [q1, q2, q3, q4, q5, t1]


theorem sgnL_f (s : Bool) {p n : BitVec 32} (hp : IsFinite p) (hn : n = IEEE.neg p) : Fin' (sgnL s p n : F32 P) ∧ val (sgnL s p n : F32 P) = (if s then -1 else 1) * val (lit p : F32 P) := by
  subst hn
  unfold sgnL; cases s
  · exact ⟨lit_fin hp, by simp⟩
  · exact ⟨neg_fin (a := lit p) hp, by simp; exact neg_val (lit p)⟩

/-- A rounded number has nearly the arctangent of the number, even when it overflows. -/
theorem rounds_atan {w : BitVec 32} {q : ℝ} (r : Rounds q w) :
    ¬ IsNaN w ∧ |extArctan w - Real.arctan q| ≤ 1002/1000 * ulp2 := by
  have hu := u_pos
  have hu1 : ulp2 = 1/2^24 := rfl
  have htt : tiny ≤ 1/10000 := by unfold tiny; norm_num
  have ht0 := tiny_pos
  have hov : (2:ℝ)^100 ≤ overflow := by unfold overflow; norm_num
  have big : ∀ z : ℝ, overflow ≤ z → |Real.pi / 2 - Real.arctan z| ≤ 1002/1000 * ulp2 := by
    intro z hz
    have hz0 : 0 < z := by have : (0:ℝ) < 2^100 := by positivity
                           linarith
    rw [← Real.arctan_inv_of_pos hz0]
    have := arctan_lip z⁻¹ 0
    rw [Real.arctan_zero, sub_zero, sub_zero] at this
    refine this.trans ?_
    rw [abs_of_pos (by positivity), inv_le_comm₀ hz0 (by positivity)]
    refine le_trans ?_ (hov.trans hz)
    rw [hu1]; norm_num
  rcases lt_or_ge |q| overflow with h | h
  · obtain ⟨g1, g2⟩ := rounds_err r h
    refine ⟨not_nan_of_finite g1, ?_⟩
    unfold extArctan; rw [if_neg (not_inf_of_finite g1)]
    rcases le_or_gt |q| 1 with h1 | h1
    · refine (arctan_lip _ _).trans (g2.trans ?_)
      rw [mul_comm]; exact mul_le_mul_of_nonneg_right (by linarith) hu.le
    · have key : ∀ w z : ℝ, 1 < z → |w - z| ≤ ulp2 * (z + tiny) → |Real.arctan w - Real.arctan z| ≤ 1002/1000 * ulp2 := by
        intro w z hz hw
        have hd : |w - z| ≤ 10001/10000 * ulp2 * z := hw.trans (by nlinarith)
        have hw1 : 9999/10000 * z ≤ w := by
          have := (abs_le.1 hd).1
          rw [hu1] at this; norm_num at this; linarith
        have hw0 : 0 < w := by linarith
        have e : Real.arctan w - Real.arctan z = Real.arctan z⁻¹ - Real.arctan w⁻¹ := by
          rw [Real.arctan_inv_of_pos (by linarith), Real.arctan_inv_of_pos hw0]; ring
        rw [e]
        refine (arctan_lip _ _).trans ?_
        have e2 : z⁻¹ - w⁻¹ = (w - z) / (w * z) := by field_simp
        rw [e2, abs_div, abs_of_pos (show 0 < w * z by positivity), div_le_iff₀ (by positivity)]
        refine hd.trans ?_
        have : 10001/10000 * ulp2 * z = ulp2 * (10001/10000) * z := by ring
        have : 1002/1000 * ulp2 * (w * z) = ulp2 * (1002/1000 * w) * z := by ring
        rw [this, show 10001/10000 * ulp2 * z = ulp2 * (10001/10000) * z by ring]
        apply mul_le_mul_of_nonneg_right _ (by linarith)
        apply mul_le_mul_of_nonneg_left _ hu.le
        linarith
      rcases lt_or_ge 0 q with hp | hp
      · rw [abs_of_pos hp] at h1 g2; exact key _ _ h1 g2
      · rw [abs_of_nonpos hp] at h1 g2
        have := key (-value w) (-q) h1 (by rw [show -value w - -q = -(value w - q) by ring, abs_neg]; exact g2)
        rw [Real.arctan_neg, Real.arctan_neg, show -Real.arctan (value w) - -Real.arctan q = -(Real.arctan (value w) - Real.arctan q) by ring, abs_neg] at this
        exact this
  · rcases lt_or_ge 0 q with hp | hp
    · rw [abs_of_pos hp] at h
      rw [r.top h]
      refine ⟨by decide, ?_⟩
      unfold extArctan sgn; rw [if_pos (by decide), if_neg (by decide), one_mul]
      exact big _ h
    · rw [abs_of_nonpos hp] at h
      rw [r.bot (by linarith)]
      refine ⟨by decide, ?_⟩
      unfold extArctan sgn; rw [if_pos (by decide), if_pos (by decide)]
      have := big _ h
      rw [Real.arctan_neg, show Real.pi / 2 - -Real.arctan q = -(-1 * (Real.pi / 2) - Real.arctan q) by ring, abs_neg] at this
      exact this

/-- The rounded quotient has nearly the arctangent of the quotient. -/
theorem quot_atan {Y X : BitVec 32} (fY : IsFinite Y) (fX : IsFinite X) (h0 : value X ≠ 0) :
    ¬ IsNaN (div P Y X) ∧ |extArctan (div P Y X) - Real.arctan (value Y / value X)| ≤ 1002/1000 * ulp2 :=
  rounds_atan (div_rounds P fY fX h0)

theorem quarter_val : val (lit 0x3F490FDB#32 : F32 P) = piF / 4 := by
  rw [lit_val (n := ival 0x3F490FDB#32) rfl, show ival 0x3F490FDB#32 = 13176795 * 2^125 by decide +kernel]; push_cast; norm_num [piF]
theorem threeq_val : |val (lit 0x4016CBE4#32 : F32 P) - 3 * piF / 4| ≤ 1/10^7 := by
  rw [lit_val (n := ival 0x4016CBE4#32) rfl, show ival 0x4016CBE4#32 = 9882596 * 2^127 by decide +kernel]; push_cast; norm_num [piF, abs_le]
theorem value_sgn (b : BitVec 32) : value b = sgn b * |value b| := by
  rw [value_abs, value_sign]; unfold sgn; rw [← sg_eq]
theorem eq_zero_val {a : F32 P} (hn : ¬ IsNaN a.bits) : Lane.eq a (lit 0#32) = true ↔ (¬ IsInf a.bits ∧ val a = 0) := by
  show IEEE.eq a.bits 0#32 = true ↔ _
  have z : value 0#32 = 0 := zeroL_val (P := P)
  rcases finite_or hn with h | h
  · rw [eq_iff]
    unfold FEq
    rw [evalue_finite h, evalue_finite (by decide), z]
    simp only [EReal.coe_eq_coe_iff]
    exact ⟨fun g => ⟨not_inf_of_finite h, g.2.2⟩, fun g => ⟨hn, by decide, g.2⟩⟩
  · constructor
    · intro g
      rcases inf_cases h with e | e <;> rw [e] at g <;> exact absurd g (by decide +kernel)
    · exact fun g => absurd h g.1

/-- The two-argument arctangent, given the arctangent of the quotient. -/
theorem at2_f {Y X R0 : F32 P} {e E : ℝ} (nY : ¬ IsNaN Y.bits) (nX : ¬ IsNaN X.bits)
    (hR : ¬ IsInf Y.bits → val Y ≠ 0 → (IsInf X.bits ∨ val X ≠ 0) → Fin' R0 ∧ |val R0 - (if IsInf X.bits then 0 else Real.arctan (val Y / val X))| ≤ e)
    (he0 : 0 ≤ e) (he : e ≤ 1/1000) (hE : e + 88/10^9 + 32/10 * ulp2 ≤ E) :
    Fin' (at2L Y X R0) ∧ |val (at2L Y X R0) - extAtan2 Y.bits X.bits| ≤ E := by
  have hu := u_pos
  have hu1 : ulp2 = 1/2^24 := rfl
  have htt : tiny ≤ 1/10000 := by unfold tiny; norm_num
  have hpp := piF_pi
  have hpp' := abs_le.1 hpp
  have hsg : ∀ b : BitVec 32, |sgn b| = 1 := fun b => by unfold sgn; split_ifs <;> simp
  have piv := piL_val (P := P)
  have sv : ∀ (p n : BitVec 32) (t d : ℝ), IsFinite p → n = IEEE.neg p → |val (lit p : F32 P) - t| ≤ d → d ≤ E →
      Fin' (sgnL (sg Y.bits) p n : F32 P) ∧ |val (sgnL (sg Y.bits) p n : F32 P) - sgn Y.bits * t| ≤ E := by
    intro p n t d hp hn ht hd
    obtain ⟨a1, a2⟩ := sgnL_f (P := P) (sg Y.bits) hp hn
    refine ⟨a1, ?_⟩
    rw [a2, show (if sg Y.bits = true then (-1:ℝ) else 1) = sgn Y.bits from rfl, ← mul_sub, abs_mul, hsg, one_mul]
    exact ht.trans hd
  have E2 : 2/10^7 ≤ E := by rw [hu1] at hE; norm_num at hE ⊢; linarith
  have E1 : 88/10^9 ≤ E := by norm_num at E2 ⊢; linarith
  have halfv : |val (lit 0x3FC90FDB#32 : F32 P) - Real.pi / 2| ≤ 88/10^9 := by
    rw [halfPi_val, abs_le]; constructor <;> linarith [hpp'.1, hpp'.2]
  have piv' : |val (lit 0x40490FDB#32 : F32 P) - Real.pi| ≤ 88/10^9 := by rw [piv]; exact hpp
  have qv : |val (lit 0x3F490FDB#32 : F32 P) - Real.pi / 4| ≤ 88/10^9 := by
    rw [quarter_val, abs_le]; constructor <;> linarith [hpp'.1, hpp'.2]
  have tv : |val (lit 0x4016CBE4#32 : F32 P) - 3 * Real.pi / 4| ≤ 2/10^7 := by
    have := abs_le.1 (threeq_val (P := P))
    rw [abs_le]; norm_num at this hpp' ⊢; constructor <;> linarith [hpp'.1, hpp'.2, this.1, this.2]
  unfold at2L extAtan2
  by_cases iY : IsInf Y.bits
  · rw [if_pos iY, if_pos ((isInf_iff _).2 iY)]
    by_cases iX : IsInf X.bits
    · rw [if_pos iX, if_pos ((isInf_iff _).2 iX)]
      by_cases sX : signBit X.bits = true
      · rw [if_pos sX, if_pos (show sg X.bits = true from sX)]; exact sv _ _ _ _ (by decide) (by decide) tv E2
      · rw [if_neg sX, if_neg (show ¬ sg X.bits = true from sX)]; exact sv _ _ _ _ (by decide) (by decide) qv E1
    · rw [if_neg iX, if_neg (fun g => iX ((isInf_iff _).1 g))]; exact sv _ _ _ _ (by decide) (by decide) halfv E1
  · rw [if_neg iY, if_neg (fun g => iY ((isInf_iff _).1 g))]
    by_cases y0 : val Y = 0
    · rw [if_pos ((eq_zero_val nY).2 ⟨iY, y0⟩), if_pos (Or.inr y0)]
      by_cases sX : signBit X.bits = true
      · rw [if_pos sX, if_pos (show sg X.bits = true from sX)]; exact sv _ _ _ _ (by decide) (by decide) piv' E1
      · rw [if_neg sX, if_neg (show ¬ sg X.bits = true from sX)]
        exact sv _ _ 0 0 (by decide) (by decide) (by rw [zeroL_val]; simp) (by linarith)
    · rw [if_neg (fun g => y0 ((eq_zero_val nY).1 g).2)]
      by_cases x0 : ¬ IsInf X.bits ∧ val X = 0
      · rw [if_pos ((eq_zero_val nX).2 x0), if_neg (by rintro (g | g); exact x0.1 g; exact y0 g)]
        have hx : value X.bits = 0 := x0.2
        have : Complex.arg ⟨value X.bits, value Y.bits⟩ = sgn Y.bits * (Real.pi / 2) := by
          rw [hx]
          have := value_sgn Y.bits
          have hy : 0 < |value Y.bits| := abs_pos.2 y0
          unfold sgn at this ⊢
          split_ifs at this ⊢
          · rw [Complex.arg_eq_neg_pi_div_two_iff.2 ⟨rfl, by show value Y.bits < 0; linarith⟩]; ring
          · rw [Complex.arg_eq_pi_div_two_iff.2 ⟨rfl, by show 0 < value Y.bits; linarith⟩]; ring
        rw [this]
        exact sv _ _ _ _ (by decide) (by decide) halfv E1
      · rw [if_neg (fun g => x0 ((eq_zero_val nX).1 g))]
        have x0' : IsInf X.bits ∨ val X ≠ 0 := by tauto
        obtain ⟨r1, r2⟩ := hR iY y0 x0'
        set t := (if IsInf X.bits then 0 else Real.arctan (val Y / val X)) with htd
        have htar : (if IsInf X.bits ∨ value Y.bits = 0 then sgn Y.bits * (if signBit X.bits then Real.pi else 0) else Complex.arg ⟨value X.bits, value Y.bits⟩) =
            t + (if signBit X.bits then sgn Y.bits * Real.pi else 0) := by
          by_cases iX : IsInf X.bits
          · rw [if_pos (Or.inl iX), htd, if_pos iX]; split_ifs <;> simp
          · rw [if_neg (by rintro (g | g); exact iX g; exact y0 g), htd, if_neg iX]
            have hx := value_sgn X.bits
            have hy := value_sgn Y.bits
            have hxp : 0 < |value X.bits| := abs_pos.2 (x0'.resolve_left iX)
            have hyp : 0 < |value Y.bits| := abs_pos.2 y0
            unfold sgn at hx
            by_cases sX : signBit X.bits = true
            · rw [if_pos sX] at hx ⊢
              have hxn : value X.bits < 0 := by linarith
              unfold sgn at hy ⊢
              split_ifs at hy ⊢
              · have := Complex.arg_neg_eq_arg_add_pi_of_im_neg (x := ⟨value X.bits, value Y.bits⟩) (by show value Y.bits < 0; linarith)
                rw [show (-⟨value X.bits, value Y.bits⟩ : ℂ) = ⟨-value X.bits, -value Y.bits⟩ by rfl, arg_arctan _ _ (by linarith)] at this
                rw [neg_div_neg_eq] at this; show _ = Real.arctan (value Y.bits / value X.bits) + _; linarith
              · have := Complex.arg_neg_eq_arg_sub_pi_of_im_pos (x := ⟨value X.bits, value Y.bits⟩) (by show 0 < value Y.bits; linarith)
                rw [show (-⟨value X.bits, value Y.bits⟩ : ℂ) = ⟨-value X.bits, -value Y.bits⟩ by rfl, arg_arctan _ _ (by linarith)] at this
                rw [neg_div_neg_eq] at this; show _ = Real.arctan (value Y.bits / value X.bits) + _; linarith
            · rw [if_neg sX] at hx ⊢
              rw [arg_arctan _ _ (by linarith), add_zero]
        rw [htar]
        have tb : |t| ≤ Real.pi / 2 := by
          rw [htd]; split_ifs
          · rw [abs_zero]; exact Real.pi_div_two_pos.le
          · exact atan_range _
        have tb2 : |t + (if signBit X.bits then sgn Y.bits * Real.pi else 0)| ≤ Real.pi := by
          rw [← htar]
          split_ifs
          · rw [abs_mul, hsg, one_mul, abs_of_pos Real.pi_pos]
          · simp [Real.pi_pos.le]
          · exact Complex.abs_arg_le_pi _
        have hpi := Real.pi_lt_d4
        norm_num at hpi
        have fin : ∀ (l : F32 P) (s : ℝ), Fin' l → |val l - s| ≤ 88/10^9 → |t + s| ≤ Real.pi → Fin' (Lane.add R0 l) ∧ |val (Lane.add R0 l) - (t + s)| ≤ E := by
          intro l s fl hl hs
          have hq : |val R0 + val l| ≤ 315/100 := by
            have e0 : val R0 + val l = (val R0 - t) + (val l - s) + (t + s) := by ring
            rw [e0]; refine (abs_add_le _ _).trans ((add_le_add (abs_add_le _ _) le_rfl).trans ?_)
            norm_num at hl ⊢; linarith
          obtain ⟨m1, m2⟩ := add_abs r1 fl hq (by norm_num)
          refine ⟨m1, ?_⟩
          have e0 : val (Lane.add R0 l) - (t + s) = (val (Lane.add R0 l) - (val R0 + val l)) + (val R0 - t) + (val l - s) := by ring
          rw [e0]; refine (abs_add_le _ _).trans ((add_le_add (abs_add_le _ _) le_rfl).trans ?_)
          have q3 : ulp2 * (315/100 + tiny) ≤ 32/10 * ulp2 := by
            rw [mul_comm]; exact mul_le_mul_of_nonneg_right (by linarith) hu.le
          linarith
        by_cases sX : signBit X.bits = true
        · rw [if_pos sX] at tb2 ⊢; rw [if_pos (show sg X.bits = true from sX)]
          obtain ⟨a1, a2⟩ := sgnL_f (P := P) (sg Y.bits) (p := 0x40490FDB#32) (n := 0xC0490FDB#32) (by decide) (by decide)
          refine fin _ _ a1 ?_ tb2
          rw [a2, show (if sg Y.bits = true then (-1:ℝ) else 1) = sgn Y.bits from rfl, ← mul_sub, abs_mul, hsg, one_mul]
          exact piv'
        · rw [if_neg sX] at tb2 ⊢; rw [if_neg (show ¬ sg X.bits = true from sX)]
          refine fin _ _ (lit_fin (by decide)) ?_ tb2
          rw [show val (lit 0x80000000#32 : F32 P) = 0 from by show value 0x80000000#32 = 0; rw [value_zero_iff]; decide]
          simp; norm_num

theorem atP_f (c : Cfg) (V : F32 P) (hn : ¬ IsNaN V.bits) : Fin' (atL (atPV c) V) ∧ |val (atL (atPV c) V) - extArctan V.bits| ≤ 98/10^8 :=
  atL_f (Q := atP) (k := 2247/250) (ε := 97/500000000) (fun y z h1 h2 h3 h4 => ⟨(atPV_err c h1 h2 h3 h4).1, (atPV_err c h1 h2 h3 h4).2.1⟩) atP_arctan (by norm_num) (by norm_num) (by norm_num [ulp2]) V hn
theorem atEP_f (c : Cfg) (V : F32 P) (hn : ¬ IsNaN V.bits) : Fin' (atL (atEPV c) V) ∧ |val (atL (atEPV c) V) - extArctan V.bits| ≤ 1346/10^7 :=
  atL_f (Q := atEP) (k := 2343/500) (ε := 67021/500000000) (fun y z h1 h2 h3 h4 => ⟨(atEPV_err c h1 h2 h3 h4).1, (atEPV_err c h1 h2 h3 h4).2.1⟩) atEP_arctan (by norm_num) (by norm_num) (by norm_num [ulp2]) V hn

/-- C112: the vector arctangents, at every lane that is not NaN. -/
theorem C112_atan (c : Cfg) (hc : c.sse = true) (V : V4 (F32 P)) (i : Fin 4) (hn : ¬ IsNaN (V.lane i).bits) :
    FClose ((XMVectorATan c V).lane i).bits (extArctan (V.lane i).bits) (98/10^8) ∧
    FClose ((XMVectorATanEst c V).lane i).bits (extArctan (V.lane i).bits) (1346/10^7) := by
  rw [atL_lane c hc, atEL_lane c hc]
  exact ⟨atP_f c _ hn, atEP_f c _ hn⟩

/-- C112: the two-argument arctangent, at every pair of lanes that are not NaN. -/
theorem C112_atan2 (c : Cfg) (hc : c.sse = true) (Y X : V4 (F32 P)) (i : Fin 4) (hy : ¬ IsNaN (Y.lane i).bits) (hx : ¬ IsNaN (X.lane i).bits) :
    FClose ((XMVectorATan2 c Y X).lane i).bits (extAtan2 (Y.lane i).bits (X.lane i).bits) (132/10^8) := by
  unfold XMVectorATan2
  rw [if_pos hc, at2L_lane c hc, atL_lane c hc]
  rw [show (XMVectorDivide Y X).lane i = Lane.div (Y.lane i) (X.lane i) from by fin_cases i <;> rfl]
  refine at2_f (e := 104/10^8) hy hx ?_ (by norm_num) (by norm_num) (by norm_num [ulp2])
  intro iY y0 hX
  have fY := (finite_or hy).resolve_right iY
  by_cases iX : IsInf (X.lane i).bits
  · obtain ⟨d1, d2⟩ := (div_special P (Y.lane i).bits (X.lane i).bits).2.2.2.2.2.1 fY iX
    obtain ⟨a1, a2⟩ := atP_f c (Lane.div (Y.lane i) (X.lane i)) (not_nan_of_finite d1)
    refine ⟨a1, ?_⟩
    rw [if_pos iX]
    unfold extArctan at a2
    rw [if_neg (show ¬ IsInf (Lane.div (Y.lane i) (X.lane i)).bits from not_inf_of_finite d1), show value (Lane.div (Y.lane i) (X.lane i)).bits = 0 from d2, Real.arctan_zero] at a2
    exact a2.trans (by norm_num)
  · have fX := (finite_or hx).resolve_right iX
    obtain ⟨q1, q2⟩ := quot_atan (P := P) fY fX (hX.resolve_left iX)
    obtain ⟨a1, a2⟩ := atP_f c (Lane.div (Y.lane i) (X.lane i)) q1
    refine ⟨a1, ?_⟩
    rw [if_neg iX]
    have := abs_sub_le (val (atL (atPV c) (Lane.div (Y.lane i) (X.lane i)))) (extArctan (Lane.div (Y.lane i) (X.lane i)).bits) (Real.arctan (val (Y.lane i) / val (X.lane i)))
    refine this.trans ((add_le_add a2 q2).trans (by norm_num [ulp2]))

/-- A case: -2 and infinity are admissible; the target of (y, x) = (-0, -1) is -pi, and of (0, -1) pi. -/
example : ¬ IsNaN 0xC0000000#32 ∧ ¬ IsNaN 0x7F800000#32 ∧ extAtan2 0x80000000#32 0xBF800000#32 = -Real.pi ∧ extAtan2 0#32 0xBF800000#32 = Real.pi := by
  have z : ∀ b : BitVec 32, b = 0#32 ∨ b = 0x80000000#32 → value b = 0 := by rintro b (rfl | rfl) <;> rw [value_zero_iff] <;> decide
  refine ⟨by decide, by decide, ?_, ?_⟩ <;> unfold extAtan2 sgn
  · rw [if_neg (by decide), if_pos (Or.inr (z _ (Or.inr rfl))), if_pos (by decide), if_pos (by decide)]; ring
  · rw [if_neg (by decide), if_pos (Or.inr (z _ (Or.inl rfl))), if_neg (by decide), if_pos (by decide)]; ring

end DXM.Props
