import Verif.Lemmas.FErr
import Verif.Lemmas.Movement
import Verif.Model.Collision

/-
Rounding is monotone; comparisons of rounded sums; predicates on vectors of masks for any lawful lanes.
-/

set_option linter.all false

namespace DXM.FErr
open DXM.Spec DXM.IEEE

theorem evalue_top : evalue 0x7F800000#32 = ⊤ := by
  unfold evalue; rw [if_pos (by decide), if_neg (by decide)]
theorem evalue_bot : evalue 0xFF800000#32 = ⊥ := by
  unfold evalue; rw [if_pos (by decide), if_pos (by decide)]

/-- A rounded number is not a NaN. -/
theorem rounds_num {x : ℝ} {r : BitVec 32} (h : Rounds x r) : ¬ IsNaN r := by
  rcases lt_or_ge x overflow with h1 | h1
  · rcases lt_or_ge (-overflow) x with h2 | h2
    · exact not_nan_of_finite (h.finite (abs_lt.2 ⟨h2, h1⟩))
    · rw [h.bot h2]; decide
  · rw [h.top h1]; decide

/-- Rounding is monotone. -/
theorem rounds_mono {x y : ℝ} {r s : BitVec 32} (h : x < y) (hr : Rounds x r) (hs : Rounds y s) : evalue r ≤ evalue s := by
  rcases lt_or_ge y overflow with h1 | h1
  · rcases lt_or_ge (-overflow) x with h2 | h2
    · have hx : |x| < overflow := abs_lt.2 ⟨h2, h.trans h1⟩
      have hy : |y| < overflow := abs_lt.2 ⟨h2.trans h, h1⟩
      have fr := hr.finite hx; have fs := hs.finite hy
      rw [evalue_finite fr, evalue_finite fs, EReal.coe_le_coe_iff]
      by_contra hc
      push Not at hc
      have n1 := hr.nearest hx s fs
      have n2 := hs.nearest hy r fr
      have a1 := abs_le_abs_iff_sq_le_sq n1
      have a2 := abs_le_abs_iff_sq_le_sq n2
      nlinarith
    · rw [hr.bot h2, evalue_bot]; exact bot_le
  · rw [hs.top h1, evalue_top]; exact le_top
where abs_le_abs_iff_sq_le_sq {a b : ℝ} (h : |a| ≤ |b|) : a ^ 2 ≤ b ^ 2 := sq_le_sq.2 h

/-- Rounding does not cross a representable number. -/
theorem rounds_le {x : ℝ} {r e : BitVec 32} (hr : Rounds x r) (he : IsFinite e) (h : x ≤ value e) : evalue r ≤ (value e : EReal) := by
  have hlt : |value e| < overflow := by
    rw [value_abs, overflow_eq, mul_lt_mul_iff_left₀ u149]
    have : mag e ≤ magN 0x7F7FFFFF := magN_strictMono.monotone (by have := (finite_iff e).1 he; omega)
    have e1 : magN 0x7F7FFFFF = 16777215 * 2^253 := by decide +kernel
    rw [e1] at this
    have h' : (mag e : ℝ) ≤ 16777215 * 2^253 := by exact_mod_cast this
    linarith
  rcases lt_or_ge (-overflow) x with h2 | h2
  · have hx : |x| < overflow := abs_lt.2 ⟨h2, h.trans_lt (abs_lt.1 hlt).2⟩
    have fr := hr.finite hx
    rw [evalue_finite fr, EReal.coe_le_coe_iff]
    by_contra hc
    push Not at hc
    have n1 := hr.nearest hx e he
    rw [abs_of_nonneg (by linarith : 0 ≤ value e - x), abs_of_nonneg (by linarith : 0 ≤ value r - x)] at n1
    linarith
  · rw [hr.bot h2, evalue_bot]; exact bot_le
theorem le_rounds {x : ℝ} {r e : BitVec 32} (hr : Rounds x r) (he : IsFinite e) (h : value e ≤ x) : (value e : EReal) ≤ evalue r := by
  have hlt : |value e| < overflow := by
    rw [value_abs, overflow_eq, mul_lt_mul_iff_left₀ u149]
    have : mag e ≤ magN 0x7F7FFFFF := magN_strictMono.monotone (by have := (finite_iff e).1 he; omega)
    have e1 : magN 0x7F7FFFFF = 16777215 * 2^253 := by decide +kernel
    rw [e1] at this
    have h' : (mag e : ℝ) ≤ 16777215 * 2^253 := by exact_mod_cast this
    linarith
  rcases lt_or_ge x overflow with h2 | h2
  · have hx : |x| < overflow := abs_lt.2 ⟨(abs_lt.1 hlt).1.trans_le h, h2⟩
    have fr := hr.finite hx
    rw [evalue_finite fr, EReal.coe_le_coe_iff]
    by_contra hc
    push Not at hc
    have n1 := hr.nearest hx e he
    rw [abs_of_nonpos (by linarith : value e - x ≤ 0), abs_of_nonpos (by linarith : value r - x ≤ 0)] at n1
    linarith
  · rw [hr.top h2, evalue_top]; exact le_top

variable {P : Env}

/-- A sum or difference of finite numbers is an integer rounded, up to the sign of zero. -/
theorem add_roundI {a b : F32 P} (ha : Fin' a) (hb : Fin' b) : ∃ z, ∃ n : ℤ, (Lane.add a b).bits = roundI z n 1 ∧ val a + val b = n * (2:ℝ)^(-149:ℤ) := by
  refine ⟨sg a.bits && sg b.bits, ival a.bits + ival b.bits, ?_, ?_⟩
  · show add P a.bits b.bits = _
    unfold add addCore
    rw [isNaN_f (not_nan_of_finite ha), isNaN_f (not_nan_of_finite hb), isInf_f (not_inf_of_finite ha), isInf_f (not_inf_of_finite hb)]
    simp
  · unfold val; rw [value_eq, value_eq]; push_cast; ring
theorem sub_roundI {a b : F32 P} (ha : Fin' a) (hb : Fin' b) : ∃ z, ∃ n : ℤ, (Lane.sub a b).bits = roundI z n 1 ∧ val a - val b = n * (2:ℝ)^(-149:ℤ) := by
  have hb' : IsFinite (neg b.bits) := finite_neg.2 hb
  refine ⟨sg a.bits && sg (neg b.bits), ival a.bits + ival (neg b.bits), ?_, ?_⟩
  · show sub P a.bits b.bits = _
    unfold sub addCore
    rw [isNaN_f (not_nan_of_finite ha), isNaN_f (not_nan_of_finite hb), isInf_f (not_inf_of_finite ha), isInf_f (not_inf_of_finite hb')]
    simp
  · have := neg_value b.bits
    unfold val
    rw [value_eq] at this
    push_cast
    rw [add_mul, this, value_eq a.bits]; ring

/-- Rounded integers compare as the integers. -/
theorem roundI_mono {z z' : Bool} {n m : ℤ} (h : n ≤ m) : evalue (roundI z n 1) ≤ evalue (roundI z' m 1) := by
  rcases h.lt_or_eq with h | h
  · refine rounds_mono ?_ (rounds_int z n 1 (by norm_num)) (rounds_int z' m 1 (by norm_num))
    have : (n:ℝ) < m := by exact_mod_cast h
    have := u149
    push_cast
    rw [div_one, div_one]
    exact mul_lt_mul_of_pos_right ‹_› ‹_›
  · subst h
    unfold roundI
    split_ifs with h0
    · rw [evalue_mk0, evalue_mk0]
    · exact le_rfl

theorem cmp_int {n m : ℤ} (h : (n:ℝ) * (2:ℝ)^(-149:ℤ) ≤ m * (2:ℝ)^(-149:ℤ)) : n ≤ m := by
  have := le_of_mul_le_mul_right h u149
  exact_mod_cast this

variable {a b d e : F32 P}
/-- Exact order of sums and differences is kept by rounding, overflow included. -/
theorem sub_le_add (ha : Fin' a) (hb : Fin' b) (hd : Fin' d) (he : Fin' e) (h : val a - val b ≤ val d + val e) :
    FLe (Lane.sub a b).bits (Lane.add d e).bits := by
  refine ⟨rounds_num (sub_rounds P ha hb), rounds_num (add_rounds P hd he), ?_⟩
  obtain ⟨z, n, e1, e2⟩ := sub_roundI ha hb; obtain ⟨z', m, e3, e4⟩ := add_roundI hd he
  rw [e1, e3]; rw [e2, e4] at h; exact roundI_mono (cmp_int h)
theorem sub_le_sub (ha : Fin' a) (hb : Fin' b) (hd : Fin' d) (he : Fin' e) (h : val a - val b ≤ val d - val e) :
    FLe (Lane.sub a b).bits (Lane.sub d e).bits := by
  refine ⟨rounds_num (sub_rounds P ha hb), rounds_num (sub_rounds P hd he), ?_⟩
  obtain ⟨z, n, e1, e2⟩ := sub_roundI ha hb; obtain ⟨z', m, e3, e4⟩ := sub_roundI hd he
  rw [e1, e3]; rw [e2, e4] at h; exact roundI_mono (cmp_int h)
theorem add_le_add' (ha : Fin' a) (hb : Fin' b) (hd : Fin' d) (he : Fin' e) (h : val a + val b ≤ val d + val e) :
    FLe (Lane.add a b).bits (Lane.add d e).bits := by
  refine ⟨rounds_num (add_rounds P ha hb), rounds_num (add_rounds P hd he), ?_⟩
  obtain ⟨z, n, e1, e2⟩ := add_roundI ha hb; obtain ⟨z', m, e3, e4⟩ := add_roundI hd he
  rw [e1, e3]; rw [e2, e4] at h; exact roundI_mono (cmp_int h)

end DXM.FErr

namespace DXM
variable {α : Type} [Lane α] [LawfulLane α]
/-- Masks in the lanes. -/
theorem anyTrue_mask (c : Cfg) (p q r : Bool) (w : α) : XMVector3AnyTrue c ⟨Lane.mask p, Lane.mask q, Lane.mask r, w⟩ = (p || q || r) := by
  unfold XMVector3AnyTrue XMVector4EqualIntR
  rw [swizzleC_eq]
  cases p <;> cases q <;> cases r <;> by_cases hs : c.sse = true <;>
    simp [hs, SSE.movemask, SSE.cmpeq_epi32, V4.map2, XMVectorTrueInt, V4.splat, SSE.mm, XMComparisonAnyTrue, V4.lane,
      LawfulLane.ieq_ones_ones, LawfulLane.ieq_zero_ones, LawfulLane.sgn_ones, LawfulLane.sgn_zero] <;> decide
theorem allTrue_mask (c : Cfg) (p q r : Bool) (w : α) : XMVector3AllTrue c ⟨Lane.mask p, Lane.mask q, Lane.mask r, w⟩ = (p && q && r) := by
  unfold XMVector3AllTrue XMVector4EqualIntR
  rw [swizzleC_eq]
  cases p <;> cases q <;> cases r <;> by_cases hs : c.sse = true <;>
    simp [hs, SSE.movemask, SSE.cmpeq_epi32, V4.map2, XMVectorTrueInt, V4.splat, SSE.mm, XMComparisonAllTrue, V4.lane,
      LawfulLane.ieq_ones_ones, LawfulLane.ieq_zero_ones, LawfulLane.sgn_ones, LawfulLane.sgn_zero] <;> decide
theorem bor_mask_mask (a b : Bool) (h : Lane.bor (Lane.ofBits 0xFFFFFFFF#32 : α) (Lane.ofBits 0xFFFFFFFF#32) = Lane.ofBits 0xFFFFFFFF#32) :
    Lane.bor (Lane.mask a : α) (Lane.mask b) = Lane.mask (a || b) := by
  cases a <;> cases b <;> simp [LawfulLane.bor_zero_left, LawfulLane.bor_zero_right, h]
theorem bandn_mask_mask (a b : Bool) : Lane.bandn (Lane.mask a : α) (Lane.mask b) = Lane.mask (!a && b) := by
  cases a <;> cases b <;> simp [LawfulLane.bandn_ones_left, LawfulLane.bandn_zero_left]
theorem equal4_mask (c : Cfg) (p q r s : Bool) : XMVector4EqualInt c (⟨Lane.mask p, Lane.mask q, Lane.mask r, Lane.mask s⟩ : V4 α) XMVectorTrueInt = (p && q && r && s) := by
  unfold XMVector4EqualInt
  cases p <;> cases q <;> cases r <;> cases s <;> by_cases hs : c.sse = true <;>
    simp [hs, SSE.movemask, SSE.cmpeq_epi32, V4.map2, XMVectorTrueInt, V4.splat, SSE.mm,
      LawfulLane.ieq_ones_ones, LawfulLane.ieq_zero_ones, LawfulLane.sgn_ones, LawfulLane.sgn_zero]
theorem equal3_mask (c : Cfg) (p q r : Bool) (w : α) : XMVector3EqualInt c (⟨Lane.mask p, Lane.mask q, Lane.mask r, w⟩ : V4 α) XMVectorTrueInt = (p && q && r) := by
  unfold XMVector3EqualInt
  cases p <;> cases q <;> cases r <;> by_cases hs : c.sse = true <;> cases hw : Lane.ieq w (Lane.ofBits 0xFFFFFFFF#32) <;>
    simp [hs, hw, SSE.movemask, SSE.cmpeq_epi32, V4.map2, XMVectorTrueInt, V4.splat, SSE.mm,
      LawfulLane.ieq_ones_ones, LawfulLane.ieq_zero_ones, LawfulLane.sgn_ones, LawfulLane.sgn_zero]
variable {P : Env}
theorem bor_mask (a b : Bool) : Lane.bor (Lane.mask a : F32 P) (Lane.mask b) = Lane.mask (a || b) :=
  bor_mask_mask a b (by show (0xFFFFFFFF#32 ||| 0xFFFFFFFF#32 : BitVec 32) = 0xFFFFFFFF#32; decide)
end DXM
