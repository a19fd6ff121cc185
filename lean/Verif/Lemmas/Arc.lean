import Verif.Lemmas.ArcPoly
import Verif.Lemmas.Trig
import Mathlib.Analysis.SpecialFunctions.Complex.Arg
import Mathlib.Analysis.SpecialFunctions.Complex.Arctan

/-
Inverse trigonometric functions on exact-real lanes.
-/

set_option linter.all false

namespace DXM.Trig
open DXM.E Real

/-- A polynomial `P` approximates arccos on [0,1] as `√(1-x) P x`; extend to [-1,1]. -/
noncomputable def acosF (P : ℝ → ℝ) (x : ℝ) : ℝ := if 0 ≤ x then √(1 - |x|) * P |x| else piF - √(1 - |x|) * P |x|

theorem acosF_close (P : ℝ → ℝ) (ε : ℝ) (hP : ∀ x, 0 ≤ x → x ≤ 1 → |√(1 - x) * P x - arccos x| ≤ ε) (x : ℝ) (h : |x| ≤ 1) :
    |acosF P x - arccos x| ≤ ε + 88/10^9 ∧ |(piF/2 - acosF P x) - arcsin x| ≤ ε + 132/10^9 := by
  have hp := piF_pi
  have e1 : |acosF P x - arccos x| ≤ ε + 88/10^9 := by
    have a := hP |x| (abs_nonneg x) h
    unfold acosF
    split_ifs with hx
    · rw [abs_of_nonneg hx] at a ⊢
      have : (0:ℝ) ≤ 88/10^9 := by norm_num
      linarith
    · rw [abs_of_neg (not_le.1 hx)] at a ⊢
      rw [arccos_neg] at a
      have : piF - √(1 - -x) * P (-x) - arccos x = (piF - π) - (√(1 - -x) * P (-x) - (π - arccos x)) := by ring
      rw [this]
      have := abs_sub (piF - π) (√(1 - -x) * P (-x) - (π - arccos x))
      linarith
  refine ⟨e1, ?_⟩
  have : piF/2 - acosF P x - arcsin x = (piF - π)/2 - (acosF P x - arccos x) := by rw [arccos]; ring
  rw [this]
  have := abs_sub ((piF - π)/2) (acosF P x - arccos x)
  have h2 : |(piF - π)/2| ≤ 44/10^9 := by rw [abs_div]; norm_num at *; linarith
  norm_num at *; linarith

theorem scalarArcPoly_num (x : ℝ) (h : |x| ≤ 1) : scalarArcPoly (num x) = num (√(1 - |x|) * arcP |x|) := by
  have h2 : 0 ≤ 1 - |x| := by linarith
  simp [scalarArcPoly, not_lt.2 h, sqrt_num _ h2]
  rw [mul_comm]; congr 1; unfold arcP; ring
theorem scalarArcEstPoly_num (x : ℝ) (h : |x| ≤ 1) : scalarArcEstPoly (num x) = num (√(1 - |x|) * arcEP |x|) := by
  have h2 : 0 ≤ 1 - |x| := by linarith
  simp [scalarArcEstPoly, not_lt.2 h, sqrt_num _ h2]
  rw [mul_comm]; congr 1; unfold arcEP; ring
theorem XMScalarACos_num (x : ℝ) (h : |x| ≤ 1) : XMScalarACos (num x) = num (acosF arcP x) := by
  simp [XMScalarACos, scalarArcPoly_num x h, acosF, XM_PI, piF]; split_ifs <;> rfl
theorem XMScalarACosEst_num (x : ℝ) (h : |x| ≤ 1) : XMScalarACosEst (num x) = num (acosF arcEP x) := by
  simp [XMScalarACosEst, scalarArcEstPoly_num x h, acosF, XM_PI, piF]; split_ifs <;> rfl
theorem XMScalarASin_num (x : ℝ) (h : |x| ≤ 1) : XMScalarASin (num x) = num (piF/2 - acosF arcP x) := by
  simp [XMScalarASin, scalarArcPoly_num x h, acosF, XM_PIDIV2, piF]
  split_ifs <;> simp <;> ring
theorem XMScalarASinEst_num (x : ℝ) (h : |x| ≤ 1) : XMScalarASinEst (num x) = num (piF/2 - acosF arcEP x) := by
  simp [XMScalarASinEst, scalarArcEstPoly_num x h, acosF, XM_PIDIV2, piF]
  split_ifs <;> simp <;> ring

theorem arc_lane (P : ℝ → ℝ) (x : ℝ) (h : |x| ≤ 1) (r : ℝ) (hr : r = P |x|) :
    (Lane.bor (if 0 ≤ x then Lane.mul (num r) (Lane.sqrt (num (max 0 (1 - max x (-x))))) else num 0)
      (if 0 ≤ x then num 0 else Lane.sub (num (13176795/4194304)) (Lane.mul (num r) (Lane.sqrt (num (max 0 (1 - max x (-x))))))) : E)
    = num (acosF P x) := by
  have e : max x (-x) = |x| := rfl
  have h2 : 0 ≤ 1 - |x| := by linarith
  rw [e, max_eq_right h2, sqrt_num _ h2, hr]
  unfold acosF
  split_ifs <;> simp [mul_comm, piF]

theorem arcPoly_num (c : Cfg) (a : Fin 4 → ℝ) (h : ∀ i, |a i| ≤ 1) : arcPoly c ⟨num (a 0), num (a 1), num (a 2), num (a 3)⟩ =
    ⟨num (acosF arcP (a 0)), num (acosF arcP (a 1)), num (acosF arcP (a 2)), num (acosF arcP (a 3))⟩ := by
  unfold arcPoly
  simp
  refine ⟨?_, ?_, ?_, ?_⟩
  all_goals refine arc_lane _ _ (h _) _ ?_; unfold arcP; rw [abs_eq_max_neg]
theorem arcEstPoly_num (c : Cfg) (a : Fin 4 → ℝ) (h : ∀ i, |a i| ≤ 1) : arcEstPoly c ⟨num (a 0), num (a 1), num (a 2), num (a 3)⟩ =
    ⟨num (acosF arcEP (a 0)), num (acosF arcEP (a 1)), num (acosF arcEP (a 2)), num (acosF arcEP (a 3))⟩ := by
  unfold arcEstPoly
  simp
  refine ⟨?_, ?_, ?_, ?_⟩
  all_goals refine arc_lane _ _ (h _) _ ?_; unfold arcEP; rw [abs_eq_max_neg]

/-! ### arctangent -/

noncomputable def atanF (P : ℝ → ℝ) (x : ℝ) : ℝ :=
  if |x| ≤ 1 then x * P (x^2) else (if 1 < x then 1 else -1) * (piF/2) - x⁻¹ * P (x⁻¹^2)

theorem atanF_close (P : ℝ → ℝ) (ε : ℝ) (hP : ∀ x, |x| ≤ 1 → |x * P (x^2) - arctan x| ≤ ε) (x : ℝ) :
    |atanF P x - arctan x| ≤ ε + 44/10^9 := by
  have hp := piF_pi
  have h2 : |(piF - π)/2| ≤ 44/10^9 := by rw [abs_div]; norm_num at *; linarith
  unfold atanF
  split_ifs with h h1
  · have := hP x h; have := abs_nonneg ((piF - π)/2); linarith
  · have hi : |x⁻¹| ≤ 1 := by rw [abs_inv]; exact inv_le_one_of_one_le₀ (not_le.1 h).le
    have a := hP _ hi
    rw [arctan_inv_of_pos (by linarith)] at a
    have : 1 * (piF/2) - x⁻¹ * P (x⁻¹^2) - arctan x = (piF - π)/2 - (x⁻¹ * P (x⁻¹^2) - (π/2 - arctan x)) := by ring
    rw [this]
    have := abs_sub ((piF - π)/2) (x⁻¹ * P (x⁻¹^2) - (π/2 - arctan x))
    linarith
  · have hi : |x⁻¹| ≤ 1 := by rw [abs_inv]; exact inv_le_one_of_one_le₀ (not_le.1 h).le
    have a := hP _ hi
    have hx : x < 0 := by
      by_contra hx; rw [abs_of_nonneg (not_lt.1 hx)] at h; linarith
    rw [arctan_inv_of_neg hx] at a
    have : -1 * (piF/2) - x⁻¹ * P (x⁻¹^2) - arctan x = -((piF - π)/2) - (x⁻¹ * P (x⁻¹^2) - (-(π/2) - arctan x)) := by ring
    rw [this]
    have := abs_sub (-((piF - π)/2)) (x⁻¹ * P (x⁻¹^2) - (-(π/2) - arctan x))
    rw [abs_neg] at this
    linarith

noncomputable def atX (x : ℝ) : ℝ := if |x| ≤ 1 then x else x⁻¹
noncomputable def atS (x : ℝ) : ℝ := if |x| ≤ 1 then 0 else if 1 < x then 1 else -1
theorem atanReduce_num (c : Cfg) (a b d e : ℝ) : atanReduce c ⟨num a, num b, num d, num e⟩ =
    (⟨num (atX a), num (atX b), num (atX d), num (atX e)⟩, ⟨num (atS a), num (atS b), num (atS d), num (atS e)⟩) := by
  have k1 : ∀ x : ℝ, (Lane.bor (if |x| ≤ 1 then num x else num 0) (if |x| ≤ 1 then num 0 else Lane.div (num 1) (num x)) : E) = num (atX x) := by
    intro x; unfold atX
    by_cases h : |x| ≤ 1
    · simp [h]
    · have hx : x ≠ 0 := by rintro rfl; simp at h
      simp [h, div_num _ _ hx]
  have k2 : ∀ x : ℝ, (if |x| ≤ 1 then num 0 else Lane.bor (if 1 < x then num 1 else num 0) (if 1 < x then num 0 else num (-1)) : E) = num (atS x) := by
    intro x; unfold atS
    split_ifs <;> simp
  unfold atanReduce
  simp [k1, k2]
theorem atanFinish_num (s1 s2 s3 s4 r1 r2 r3 r4 : ℝ) : atanFinish ⟨num s1, num s2, num s3, num s4⟩ ⟨num r1, num r2, num r3, num r4⟩ =
    ⟨num (if s1 = 0 then r1 else s1 * (piF/2) - r1), num (if s2 = 0 then r2 else s2 * (piF/2) - r2),
     num (if s3 = 0 then r3 else s3 * (piF/2) - r3), num (if s4 = 0 then r4 else s4 * (piF/2) - r4)⟩ := by
  have k : ∀ s r : ℝ, (Lane.bor (if s = 0 then num r else num 0) (if s = 0 then num 0 else num (s * (13176795/8388608) - r)) : E) =
      num (if s = 0 then r else s * (piF/2) - r) := by
    intro s r; split_ifs <;> simp <;> norm_num
  unfold atanFinish
  simp [k]
theorem atanF_eq (P : ℝ → ℝ) (x : ℝ) : (if atS x = 0 then atX x * P (atX x ^ 2) else atS x * (piF/2) - atX x * P (atX x ^ 2)) = atanF P x := by
  unfold atS atX atanF
  by_cases h : |x| ≤ 1
  · simp [h]
  · by_cases h1 : 1 < x <;> simp [h, h1]
theorem XMVectorATan_num (c : Cfg) (hc : c.sse = true) (a : Fin 4 → ℝ) : XMVectorATan c ⟨num (a 0), num (a 1), num (a 2), num (a 3)⟩ =
    ⟨num (atanF atP (a 0)), num (atanF atP (a 1)), num (atanF atP (a 2)), num (atanF atP (a 3))⟩ := by
  unfold XMVectorATan
  simp only [hc, if_true, atanReduce_num]
  simp only [← atanF_eq]
  simp [atanFinish_num]
  refine ⟨?_, ?_, ?_, ?_⟩ <;> unfold atP <;> split_ifs <;> ring
theorem XMVectorATanEst_num (c : Cfg) (hc : c.sse = true) (a : Fin 4 → ℝ) : XMVectorATanEst c ⟨num (a 0), num (a 1), num (a 2), num (a 3)⟩ =
    ⟨num (atanF atEP (a 0)), num (atanF atEP (a 1)), num (atanF atEP (a 2)), num (atanF atEP (a 3))⟩ := by
  unfold XMVectorATanEst
  simp only [hc, if_true, atanReduce_num]
  simp only [← atanF_eq]
  simp [atanFinish_num]
  refine ⟨?_, ?_, ?_, ?_⟩ <;> unfold atEP <;> split_ifs <;> ring

theorem XMVectorIsInfinite_num (c : Cfg) (y : Fin 4 → ℝ) : XMVectorIsInfinite c (⟨num (y 0), num (y 1), num (y 2), num (y 3)⟩ : V4 E) = ⟨num 0, num 0, num 0, num 0⟩ := by
  have k : ∀ r : ℝ, Lane.eq (num r) posInf = false := fun r => by simp [Lane.eq, E.eq, nanLike, real?]
  unfold XMVectorIsInfinite
  split_ifs <;> simp [k]
theorem ATan2Constants_num : (ATan2Constants : V4 E) = ⟨num piF, num (piF/2), num (piF/4), num (3*piF/4)⟩ := by
  simp [ATan2Constants, div_num _ (4:ℝ) (by norm_num)]; norm_num
noncomputable def at2 (P : ℝ → ℝ) (y x : ℝ) : ℝ := if y = 0 then (if x < 0 then piF else 0) else if x = 0 then (if y < 0 then -(piF/2) else piF/2)
  else atanF P (y/x) + (if x < 0 then (if y < 0 then -piF else piF) else 0)
theorem at2_lane (P : ℝ → ℝ) (y x : ℝ) (r : E) (hr : x ≠ 0 → r = num (atanF P (y/x))) : (if
          Lane.ieq
              (Lane.bor
                (if y = 0 then num 0
                else
                  Lane.bor (if x = 0 then num 0 else ones)
                    (if x = 0 then Lane.bor (num (piF / 2)) (if y < 0 then negZero else num 0) else num 0))
                (if y = 0 then
                  if Lane.ieq (if x < 0 then negZero else num 0) (num 0) = true then
                    if y < 0 then negZero else num 0
                  else Lane.bor (num piF) (if y < 0 then negZero else num 0)
                else num 0))
              ones =
            true then
        Lane.add r
          (if Lane.ieq (if x < 0 then negZero else num 0) (num 0) = true then negZero
          else Lane.bor (num piF) (if y < 0 then negZero else num 0))
      else
        Lane.bor
          (if y = 0 then num 0
          else
            Lane.bor (if x = 0 then num 0 else ones)
              (if x = 0 then Lane.bor (num (piF / 2)) (if y < 0 then negZero else num 0) else num 0))
          (if y = 0 then
            if Lane.ieq (if x < 0 then negZero else num 0) (num 0) = true then if y < 0 then negZero else num 0
            else Lane.bor (num piF) (if y < 0 then negZero else num 0)
          else num 0)) = (num (at2 P y x) : E) := by
  have p0 : (piF : ℝ) ≠ 0 := by unfold piF; norm_num
  have pp : (0:ℝ) ≤ piF := by unfold piF; norm_num
  have pp2 : |(piF / 2 : ℝ)| = piF / 2 := abs_of_nonneg (by linarith)
  have p2 : (piF/2 : ℝ) ≠ 0 := by unfold piF; norm_num
  have n1 : ∀ a : ℝ, Lane.ieq (num a) ones = false := fun a => by simp [ieq_def, E.ieq]
  have n1' : Lane.ieq negZero (ones) = false := by simp [ieq_def, E.ieq]
  have n2 : Lane.ieq ones (ones : E) = true := by simp [ieq_def, E.ieq]
  have b1 : (Lane.bor ones (num 0) : E) = ones := by simp
  have n3 : Lane.ieq negZero (num 0 : E) = false := by simp [ieq_def, E.ieq]
  have n4 : Lane.ieq (num 0) (num 0 : E) = true := by simp
  unfold at2
  by_cases hy : y = 0
  · subst hy
    by_cases hx : x < 0 <;> simp [hx, n1, n3]
  · by_cases hx0 : x = 0
    · subst hx0
      by_cases hy1 : y < 0 <;> simp [hy, hy1, n1, bor_num_negZero _ p2, pp2]
    · rw [hr hx0]
      by_cases hx : x < 0 <;> by_cases hy1 : y < 0 <;> simp [hx, hx0, hy, hy1, n1, n2, n3, bor_num_negZero _ p0, abs_of_nonneg pp] 
theorem XMVectorATan_lanes (c : Cfg) (hc : c.sse = true) (a b d e : E) : XMVectorATan c ⟨a, b, d, e⟩ = 
   ⟨(XMVectorATan c ⟨a,a,a,a⟩).x, (XMVectorATan c ⟨b,b,b,b⟩).x, (XMVectorATan c ⟨d,d,d,d⟩).x, (XMVectorATan c ⟨e,e,e,e⟩).x⟩ := by
  unfold XMVectorATan
  simp only [hc, if_true]
  unfold atanReduce atanFinish XMVectorAbs
  simp [hc]
theorem XMVectorATan_lane (c : Cfg) (hc : c.sse = true) (a : ℝ) : (XMVectorATan c ⟨num a, num a, num a, num a⟩).x = num (atanF atP a) := by
  have h := XMVectorATan_num c hc (fun _ => a)
  rw [h]
theorem XMVectorATan2_num (c : Cfg) (hc : c.sse = true) (y x : Fin 4 → ℝ) : XMVectorATan2 c ⟨num (y 0), num (y 1), num (y 2), num (y 3)⟩ ⟨num (x 0), num (x 1), num (x 2), num (x 3)⟩  = 
   ⟨num (at2 atP (y 0) (x 0)), num (at2 atP (y 1) (x 1)), num (at2 atP (y 2) (x 2)), num (at2 atP (y 3) (x 3))⟩ := by
  unfold XMVectorATan2
  simp only [hc, if_true]
  have k : ∀ y x : ℝ, x ≠ 0 → (XMVectorATan c ⟨Lane.div (num y) (num x), Lane.div (num y) (num x), Lane.div (num y) (num x), Lane.div (num y) (num x)⟩).x = num (atanF atP (y/x)) := by
    intro y x h
    rw [div_num _ _ h, XMVectorATan_lane c hc]
  unfold atan2Body
  simp [band_num_negZero, XMVectorIsInfinite_num, ATan2Constants_num, -V4.mk.injEq]
  rw [XMVectorATan_lanes c hc]
  simp only [V4.mk.injEq]
  exact ⟨at2_lane _ _ _ _ (k _ _), at2_lane _ _ _ _ (k _ _), at2_lane _ _ _ _ (k _ _), at2_lane _ _ _ _ (k _ _)⟩
theorem arg_arctan (y x : ℝ) (h : 0 < x) : Complex.arg ⟨x, y⟩ = Real.arctan (y/x) := by
  have h1 : Real.tan (Complex.arg ⟨x, y⟩) = y / x := Complex.tan_arg ⟨x, y⟩
  have h2 := Complex.abs_arg_lt_pi_div_two_iff (z := ⟨x, y⟩) |>.2 (Or.inl h)
  rw [← h1, Real.arctan_tan] <;> linarith [abs_lt.1 h2]
theorem at2_close (P : ℝ → ℝ) (e : ℝ) (he : 0 ≤ e) (hP : ∀ x, |atanF P x - Real.arctan x| ≤ e) (y x : ℝ) : |at2 P y x - Complex.arg ⟨x, y⟩| ≤ e + 88/10^9 := by
  have hp := piF_pi
  have hp' := abs_le.1 hp
  unfold at2
  split_ifs with h1 h2 h3 h4 h5 h6
  · subst h1
    rw [show (⟨x, 0⟩ : ℂ) = (x : ℂ) from rfl, Complex.arg_ofReal_of_neg h2]; linarith
  · subst h1
    rw [show (⟨x, 0⟩ : ℂ) = (x : ℂ) from rfl, Complex.arg_ofReal_of_nonneg (by linarith)]; simp; linarith
  · subst h3
    rw [Complex.arg_eq_neg_pi_div_two_iff.2 ⟨rfl, h4⟩]; rw [abs_le]; constructor <;> linarith
  · subst h3
    rw [Complex.arg_eq_pi_div_two_iff.2 ⟨rfl, lt_of_le_of_ne (not_lt.1 h4) (Ne.symm h1)⟩]; rw [abs_le]; constructor <;> linarith
  · have k : Complex.arg ⟨x, y⟩ = Real.arctan (y/x) - Real.pi := by
      have := Complex.arg_neg_eq_arg_add_pi_of_im_neg (x := ⟨x, y⟩) h6
      rw [show (-⟨x, y⟩ : ℂ) = ⟨-x, -y⟩ by rfl, arg_arctan _ _ (by linarith)] at this
      rw [neg_div_neg_eq] at this; linarith
    have := abs_le.1 (hP (y/x))
    rw [k, abs_le]; constructor <;> linarith
  · have k : Complex.arg ⟨x, y⟩ = Real.arctan (y/x) + Real.pi := by
      have := Complex.arg_neg_eq_arg_sub_pi_of_im_pos (x := ⟨x, y⟩) (lt_of_le_of_ne (not_lt.1 h6) (Ne.symm h1))
      rw [show (-⟨x, y⟩ : ℂ) = ⟨-x, -y⟩ by rfl, arg_arctan _ _ (by linarith)] at this
      rw [neg_div_neg_eq] at this; linarith
    have := abs_le.1 (hP (y/x))
    rw [k, abs_le]; constructor <;> linarith
  · rw [arg_arctan _ _ (lt_of_le_of_ne (not_lt.1 h5) (Ne.symm h3))]
    have := hP (y/x); simp only [add_zero]; linarith

end DXM.Trig
