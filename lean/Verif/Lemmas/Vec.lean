import Verif.Lemmas.ESimp
import Verif.Lemmas.Movement
import Verif.Model.Geom

/-
Reduction of the vector functions on exact-real lanes to real formulas (simp set).  Lanes a function does not use are
arbitrary `E` values.
-/

set_option linter.all false

namespace DXM
open Lane

section generic
variable {α : Type}
@[simp] theorem XMVectorSplatX_eq (c : Cfg) (V : V4 α) : XMVectorSplatX c V = .splat V.x := by simp [XMVectorSplatX]
@[simp] theorem XMVectorSplatY_eq (c : Cfg) (V : V4 α) : XMVectorSplatY c V = .splat V.y := by simp [XMVectorSplatY]
@[simp] theorem XMVectorSplatZ_eq (c : Cfg) (V : V4 α) : XMVectorSplatZ c V = .splat V.z := by simp [XMVectorSplatZ]
@[simp] theorem XMVectorSplatW_eq (c : Cfg) (V : V4 α) : XMVectorSplatW c V = .splat V.w := by simp [XMVectorSplatW]
@[simp] theorem XMVectorGetX_eq (V : V4 α) : XMVectorGetX V = V.x := rfl
@[simp] theorem XMVectorGetY_eq (c : Cfg) (V : V4 α) : XMVectorGetY c V = V.y := by simp [XMVectorGetY]
@[simp] theorem XMVectorGetZ_eq (c : Cfg) (V : V4 α) : XMVectorGetZ c V = V.z := by simp [XMVectorGetZ]
@[simp] theorem XMVectorGetW_eq (c : Cfg) (V : V4 α) : XMVectorGetW c V = V.w := by simp [XMVectorGetW]
@[simp] theorem XMVectorMergeXY_eq (c : Cfg) (V1 V2 : V4 α) : XMVectorMergeXY c V1 V2 = ⟨V1.x, V2.x, V1.y, V2.y⟩ := by simp [XMVectorMergeXY]
@[simp] theorem XMVectorMergeZW_eq (c : Cfg) (V1 V2 : V4 α) : XMVectorMergeZW c V1 V2 = ⟨V1.z, V2.z, V1.w, V2.w⟩ := by simp [XMVectorMergeZW]
variable [Lane α]
@[simp] theorem XMVectorSetX_eq (c : Cfg) (V : V4 α) (v : α) : XMVectorSetX c V v = ⟨v, V.y, V.z, V.w⟩ := by simp [XMVectorSetX]
@[simp] theorem XMVectorSetY_eq (c : Cfg) (V : V4 α) (v : α) : XMVectorSetY c V v = ⟨V.x, v, V.z, V.w⟩ := by simp [XMVectorSetY, V4.setLane]
@[simp] theorem XMVectorSetZ_eq (c : Cfg) (V : V4 α) (v : α) : XMVectorSetZ c V v = ⟨V.x, V.y, v, V.w⟩ := by simp [XMVectorSetZ, V4.setLane]
@[simp] theorem XMVectorSetW_eq (c : Cfg) (V : V4 α) (v : α) : XMVectorSetW c V v = ⟨V.x, V.y, V.z, v⟩ := by simp [XMVectorSetW, V4.setLane]
attribute [simp] XMVectorSet XMVectorReplicate XMVectorZero XMVectorTrueInt XMVectorFalseInt XMVectorSplatSignMask
  XMVectorEqual XMVectorNotEqual XMVectorEqualInt XMVectorGreater XMVectorGreaterOrEqual XMVectorLess XMVectorLessOrEqual
  XMVectorMin XMVectorMax XMVectorClamp XMVectorAndInt XMVectorAndCInt XMVectorOrInt XMVectorXorInt
  XMVectorAdd XMVectorSubtract XMVectorMultiply XMVectorDivide XMVectorReciprocal XMVectorSqrt XMVectorReciprocalSqrt
  XMVectorSelect
@[simp] theorem movemask_eq (p q r s : α) : SSE.movemask ⟨p, q, r, s⟩ = SSE.mm (sgn p) (sgn q) (sgn r) (sgn s) := rfl
attribute [simp] SSE.mm_eq_15 SSE.mm_eq_0 SSE.mm_ne_0 SSE.mm_ne_15 SSE.mm_and7_eq_7 SSE.mm_and7_eq_0 SSE.mm_and7_ne_7
  SSE.mm_and7_ne_0 SSE.mm_and3_eq_3 SSE.mm_and3_eq_0 SSE.mm_and3_ne_3 SSE.mm_and3_ne_0
end generic

namespace E
@[simp] theorem fmadd_E (c : Cfg) (x y z : V4 E) : SSE.fmadd c x y z = SSE.add (SSE.mul x y) z := by
  unfold SSE.fmadd; split <;> rfl
@[simp] theorem fnmadd_E (c : Cfg) (x y z : V4 E) : SSE.fnmadd c x y z = SSE.sub z (SSE.mul x y) := by
  unfold SSE.fnmadd; split <;> rfl
theorem mul_comm' (a b : E) : Lane.mul a b = Lane.mul b a := by
  show E.mul a b = E.mul b a
  cases a <;> cases b <;> simp [E.mul, lift2, nanLike, mul_comm]
theorem add_comm' (a b : E) : Lane.add a b = Lane.add b a := by
  show E.add a b = E.add b a
  cases a <;> cases b <;> simp [E.add, lift2, nanLike, add_comm]
@[simp] theorem zero_sub' (a : E) : (Lane.sub (num 0) a : E) = Lane.neg a := by
  show E.sub (num 0) a = E.neg a
  cases a <;> simp [E.sub, E.neg, lift2, lift1, nanLike]
end E

open E

@[simp] theorem XMVectorMultiplyAdd_E (c : Cfg) (x y z : V4 E) : XMVectorMultiplyAdd c x y z = SSE.add (SSE.mul x y) z := by
  simp [XMVectorMultiplyAdd]
@[simp] theorem XMVectorNegativeMultiplySubtract_E (c : Cfg) (x y z : V4 E) :
    XMVectorNegativeMultiplySubtract c x y z = SSE.sub z (SSE.mul x y) := by
  simp [XMVectorNegativeMultiplySubtract]
@[simp] theorem XMVectorNegate_E (c : Cfg) (x : V4 E) : XMVectorNegate c x = .map Lane.neg x := by
  simp [XMVectorNegate]
@[simp] theorem XMVectorScale_E (c : Cfg) (x : V4 E) (s : E) : XMVectorScale c x s = .map (fun v => Lane.mul v s) x := by
  simp [XMVectorScale, E.mul_comm' s]
@[simp] theorem XMVectorSplatOne_E (c : Cfg) : (XMVectorSplatOne c : V4 E) = .splat (num 1) := by simp [XMVectorSplatOne]
@[simp] theorem XMVectorSplatInfinity_E (c : Cfg) : (XMVectorSplatInfinity c : V4 E) = .splat posInf := by simp [XMVectorSplatInfinity]
@[simp] theorem XMVectorSplatQNaN_E (c : Cfg) : (XMVectorSplatQNaN c : V4 E) = .splat nan := by simp [XMVectorSplatQNaN]
@[simp] theorem XMVectorSplatEpsilon_E (c : Cfg) : (XMVectorSplatEpsilon c : V4 E) = .splat (num (1/8388608)) := by simp [XMVectorSplatEpsilon]
theorem max_neg_self' (r : ℝ) : max (-r) r = |r| := by rw [max_comm]; rfl
@[simp] theorem XMVectorAbs_num (c : Cfg) (a b d e : ℝ) :
    XMVectorAbs c ⟨num a, num b, num d, num e⟩ = ⟨num |a|, num |b|, num |d|, num |e|⟩ := by
  simp [XMVectorAbs, max_neg_self']
@[simp] theorem XMVectorSaturate_num (c : Cfg) (a b d e : ℝ) :
    XMVectorSaturate c ⟨num a, num b, num d, num e⟩ =
      ⟨num (min 1 (max 0 a)), num (min 1 (max 0 b)), num (min 1 (max 0 d)), num (min 1 (max 0 e))⟩ := by
  simp [XMVectorSaturate, max_comm, min_comm]
@[simp] theorem XMVectorNearEqual_num (c : Cfg) (a b d e a' b' d' e' p q r s : ℝ) :
    XMVectorNearEqual c ⟨num a, num b, num d, num e⟩ ⟨num a', num b', num d', num e'⟩ ⟨num p, num q, num r, num s⟩ =
      (⟨mask (decide (|a - a'| ≤ p)), mask (decide (|b - b'| ≤ q)), mask (decide (|d - d'| ≤ r)), mask (decide (|e - e'| ≤ s))⟩ : V4 E) := by
  simp only [XMVectorNearEqual]
  split <;> simp [max_neg_self', -neg_sub]
@[simp] theorem XMVectorInBounds_num (c : Cfg) (a b d e p q r s : ℝ) :
    XMVectorInBounds c ⟨num a, num b, num d, num e⟩ ⟨num p, num q, num r, num s⟩ =
      (⟨mask (decide (a ≤ p ∧ -p ≤ a)), mask (decide (b ≤ q ∧ -q ≤ b)), mask (decide (d ≤ r ∧ -r ≤ d)), mask (decide (e ≤ s ∧ -s ≤ e))⟩ : V4 E) := by
  simp only [XMVectorInBounds]
  split <;> simp [Lane.band_mask_mask, -E.band_mask_l, -E.band_mask_r]

@[simp] theorem XMVectorSum_num (c : Cfg) (a b d e : ℝ) :
    XMVectorSum c ⟨num a, num b, num d, num e⟩ = .splat (num (a + b + d + e)) := by
  simp only [XMVectorSum]; split_ifs <;> simp <;> ring_nf <;> simp

theorem ss2 (a b : ℝ) : 0 ≤ a * a + b * b := add_nonneg (mul_self_nonneg a) (mul_self_nonneg b)
theorem ss3 (a b d : ℝ) : 0 ≤ a * a + b * b + d * d := add_nonneg (ss2 a b) (mul_self_nonneg d)
theorem ss4 (a b d e : ℝ) : 0 ≤ a * a + b * b + d * d + e * e := add_nonneg (ss3 a b d) (mul_self_nonneg e)

/-! Dot, cross, length -/
section two
variable (c : Cfg) (a1 a2 b1 b2 : ℝ) (p q r s : E)
@[simp] theorem XMVector2Dot_num : XMVector2Dot c ⟨num a1, num a2, p, q⟩ ⟨num b1, num b2, r, s⟩ = .splat (num (a1 * b1 + a2 * b2)) := by
  simp [XMVector2Dot]
@[simp] theorem XMVector2Cross_num : XMVector2Cross c ⟨num a1, num a2, p, q⟩ ⟨num b1, num b2, r, s⟩ = .splat (num (a1 * b2 - a2 * b1)) := by
  simp [XMVector2Cross, mul_comm]
@[simp] theorem XMVector2LengthSq_num : XMVector2LengthSq c ⟨num a1, num a2, p, q⟩ = .splat (num (a1 * a1 + a2 * a2)) := by
  simp [XMVector2LengthSq]
@[simp] theorem XMVector2Length_num : XMVector2Length c ⟨num a1, num a2, p, q⟩ = .splat (num √(a1 * a1 + a2 * a2)) := by
  have h : (0:ℝ) ≤ a1 * a1 + a2 * a2 := ss2 _ _
  simp [XMVector2Length, sqrt_num, h]
@[simp] theorem XMVector2LengthEst_num : XMVector2LengthEst c ⟨num a1, num a2, p, q⟩ = .splat (num √(a1 * a1 + a2 * a2)) := by
  have h : (0:ℝ) ≤ a1 * a1 + a2 * a2 := ss2 _ _
  simp [XMVector2LengthEst, sqrt_num, h]
theorem XMVector2ReciprocalLength_num (h : a1 * a1 + a2 * a2 ≠ 0) :
    XMVector2ReciprocalLength c ⟨num a1, num a2, p, q⟩ = .splat (num (1 / √(a1 * a1 + a2 * a2))) := by
  have h0 : (0:ℝ) ≤ a1 * a1 + a2 * a2 := ss2 _ _
  have h1 : √(a1 * a1 + a2 * a2) ≠ 0 := by rw [Real.sqrt_ne_zero h0]; exact h
  simp [XMVector2ReciprocalLength, sqrt_num, h0, div_num, h1]
end two

section three
variable (c : Cfg) (a1 a2 a3 b1 b2 b3 : ℝ) (q s : E)
@[simp] theorem sum3ss_num : sum3ss ⟨num a1, num a2, num a3, q⟩ = .splat (num (a1 + a2 + a3)) := by simp [sum3ss]
@[simp] theorem sum3ss'_num : sum3ss' ⟨num a1, num a2, num a3, q⟩ = .splat (num (a1 + a2 + a3)) := by
  simp [sum3ss']; ring
@[simp] theorem sum3h_num : sum3h ⟨num a1, num a2, num a3, q⟩ = .splat (num (a1 + a2 + a3)) := by simp [sum3h]
@[simp] theorem XMVector3Dot_num : XMVector3Dot c ⟨num a1, num a2, num a3, q⟩ ⟨num b1, num b2, num b3, s⟩ =
    .splat (num (a1 * b1 + a2 * b2 + a3 * b3)) := by
  simp [XMVector3Dot]
@[simp] theorem XMVector3Cross_num : XMVector3Cross c ⟨num a1, num a2, num a3, q⟩ ⟨num b1, num b2, num b3, s⟩ =
    ⟨num (a2 * b3 - a3 * b2), num (a3 * b1 - a1 * b3), num (a1 * b2 - a2 * b1), num 0⟩ := by
  simp [XMVector3Cross]
@[simp] theorem XMVector3LengthSq_num : XMVector3LengthSq c ⟨num a1, num a2, num a3, q⟩ =
    .splat (num (a1 * a1 + a2 * a2 + a3 * a3)) := by
  simp [XMVector3LengthSq]
@[simp] theorem XMVector3Length_num : XMVector3Length c ⟨num a1, num a2, num a3, q⟩ =
    .splat (num √(a1 * a1 + a2 * a2 + a3 * a3)) := by
  have h : (0:ℝ) ≤ a1 * a1 + a2 * a2 + a3 * a3 := ss3 _ _ _
  simp [XMVector3Length, sqrt_num, h]
theorem XMVector3ReciprocalLength_num (h : a1 * a1 + a2 * a2 + a3 * a3 ≠ 0) :
    XMVector3ReciprocalLength c ⟨num a1, num a2, num a3, q⟩ = .splat (num (1 / √(a1 * a1 + a2 * a2 + a3 * a3))) := by
  have h0 : (0:ℝ) ≤ a1 * a1 + a2 * a2 + a3 * a3 := ss3 _ _ _
  have h1 : √(a1 * a1 + a2 * a2 + a3 * a3) ≠ 0 := by rw [Real.sqrt_ne_zero h0]; exact h
  simp [XMVector3ReciprocalLength, sqrt_num, h0, div_num, h1]
end three

section four
variable (c : Cfg) (a1 a2 a3 a4 b1 b2 b3 b4 : ℝ)
@[simp] theorem sum4ss_num : sum4ss ⟨num a1, num a2, num a3, num a4⟩ = .splat (num (a1 + a2 + a3 + a4)) := by
  simp [sum4ss]; ring
@[simp] theorem sum4h_num : sum4h ⟨num a1, num a2, num a3, num a4⟩ = .splat (num (a1 + a2 + a3 + a4)) := by
  simp [sum4h]; ring
@[simp] theorem XMVector4Dot_num : XMVector4Dot c ⟨num a1, num a2, num a3, num a4⟩ ⟨num b1, num b2, num b3, num b4⟩ =
    .splat (num (a1 * b1 + a2 * b2 + a3 * b3 + a4 * b4)) := by
  simp only [XMVector4Dot]; split_ifs <;> simp <;> ring
@[simp] theorem lengthSq4_num : lengthSq4 c ⟨num a1, num a2, num a3, num a4⟩ =
    .splat (num (a1 * a1 + a2 * a2 + a3 * a3 + a4 * a4)) := by
  simp only [lengthSq4]; split_ifs <;> simp <;> ring
@[simp] theorem XMVector4LengthSq_num : XMVector4LengthSq c ⟨num a1, num a2, num a3, num a4⟩ =
    .splat (num (a1 * a1 + a2 * a2 + a3 * a3 + a4 * a4)) := by
  simp [XMVector4LengthSq]
@[simp] theorem XMVector4Length_num : XMVector4Length c ⟨num a1, num a2, num a3, num a4⟩ =
    .splat (num √(a1 * a1 + a2 * a2 + a3 * a3 + a4 * a4)) := by
  have h : (0:ℝ) ≤ a1 * a1 + a2 * a2 + a3 * a3 + a4 * a4 := ss4 _ _ _ _
  simp [XMVector4Length, sqrt_num, h]
theorem XMVector4ReciprocalLength_num (h : a1 * a1 + a2 * a2 + a3 * a3 + a4 * a4 ≠ 0) :
    XMVector4ReciprocalLength c ⟨num a1, num a2, num a3, num a4⟩ =
      .splat (num (1 / √(a1 * a1 + a2 * a2 + a3 * a3 + a4 * a4))) := by
  have h0 : (0:ℝ) ≤ a1 * a1 + a2 * a2 + a3 * a3 + a4 * a4 := ss4 _ _ _ _
  have h1 : √(a1 * a1 + a2 * a2 + a3 * a3 + a4 * a4) ≠ 0 := by rw [Real.sqrt_ne_zero h0]; exact h
  simp [XMVector4ReciprocalLength, sqrt_num, h0, div_num, h1]
end four

end DXM
