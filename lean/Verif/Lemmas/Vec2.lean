import Verif.Lemmas.Vec

/-
Exact-real reductions, continued: normalize, clamp, reflect, refract, orthogonal, transforms, interpolation.
-/

set_option linter.all false

namespace DXM
open Lane E

namespace E
@[simp] theorem eq_num_posInf (a : ℝ) : Lane.eq (num a) posInf = false := by
  show E.eq (num a) posInf = false; simp [E.eq, nanLike, real?]
@[simp] theorem ne_num_posInf (a : ℝ) : Lane.ne (num a) posInf = true := by simp [Lane.ne]
@[simp] theorem ieq_num_posInf (a : ℝ) : Lane.ieq (num a) posInf = false := by
  show E.ieq (num a) posInf = false; simp [E.ieq]
@[simp] theorem ieq_mask_mask (a b : Bool) : Lane.ieq (mask a : E) (mask b) = (a == b) := by
  cases a <;> cases b <;> simp [ieq_def, E.ieq]
@[simp] theorem ieq_zero_mask (b : Bool) : Lane.ieq (num 0 : E) (mask b) = !b := by
  cases b <;> simp [ieq_def, E.ieq]
@[simp] theorem ieq_ones_ones' : Lane.ieq (ones : E) ones = true := by simp [ieq_def, E.ieq]
@[simp] theorem ieq_ones_num (r : ℝ) : Lane.ieq (ones : E) (num r) = false := by simp [ieq_def, E.ieq]
@[simp] theorem ieq_num_ones (r : ℝ) : Lane.ieq (num r : E) ones = false := by simp [ieq_def, E.ieq]
@[simp] theorem sel_mask (b : Bool) (x y : E) : Lane.bor (Lane.bandn (mask b) x) (Lane.band y (mask b)) = if b then y else x :=
  Lane.select_mask b x y
@[simp] theorem bor_ite_zero_l (b : Bool) (x y : E) : Lane.bor (if b = true then num 0 else x) (if b = true then y else num 0) = if b = true then y else x := by
  cases b <;> simp
end E

theorem normalizeTail_pos (V : V4 E) (L : ℝ) (h : 0 < L) :
    normalizeTail V ⟨num L, num L, num L, num L⟩ = V.map (fun v => Lane.div v (num √L)) := by
  have h1 : √L ≠ 0 := (Real.sqrt_pos.2 h).ne'
  simp [normalizeTail, sqrt_num, h.le, h1.symm]
theorem normalizeTail_zero (V : V4 E) :
    normalizeTail V ⟨num 0, num 0, num 0, num 0⟩ = .splat (num 0) := by
  simp [normalizeTail, sqrt_num]
theorem normalizeNOI_pos (V : V4 E) (L : ℝ) (p q r : E) (h : 0 < L) :
    normalizeNOI V ⟨num L, p, q, r⟩ = V.map (fun v => Lane.mul v (num (1 / L))) := by
  simp [normalizeNOI, h, div_num, h.ne']
theorem normalizeNOI_zero (V : V4 E) (p q r : E) :
    normalizeNOI V ⟨num 0, p, q, r⟩ = V.map (fun v => Lane.mul v (num 0)) := by
  simp [normalizeNOI]

/-- What a Normalize function does to a lane outside its dimension. -/
noncomputable def nrmLane (c : Cfg) (L : ℝ) (v : E) : E := if c.sse then Lane.div v (num √L) else Lane.mul v (num (1 / √L))
/-- The same for a zero vector. -/
noncomputable def nrmLane0 (c : Cfg) (v : E) : E := if c.sse then num 0 else Lane.mul v (num 0)

theorem XMVector2Normalize_num (c : Cfg) (a1 a2 : ℝ) (p q : E) (h : 0 < a1 * a1 + a2 * a2) :
    XMVector2Normalize c ⟨num a1, num a2, p, q⟩ =
      ⟨num (a1 / √(a1 * a1 + a2 * a2)), num (a2 / √(a1 * a1 + a2 * a2)),
       nrmLane c (a1 * a1 + a2 * a2) p, nrmLane c (a1 * a1 + a2 * a2) q⟩ := by
  have h1 : √(a1 * a1 + a2 * a2) ≠ 0 := (Real.sqrt_pos.2 h).ne'
  unfold XMVector2Normalize nrmLane
  split_ifs <;> simp [normalizeTail_pos, h, div_num, h1, normalizeNOI_pos, div_eq_mul_inv]
theorem XMVector2Normalize_zero (c : Cfg) (p q : E) :
    XMVector2Normalize c ⟨num 0, num 0, p, q⟩ = ⟨num 0, num 0, nrmLane0 c p, nrmLane0 c q⟩ := by
  unfold XMVector2Normalize nrmLane0
  split_ifs <;> simp [normalizeTail_zero, normalizeNOI_zero]
theorem XMVector3Normalize_num (c : Cfg) (a1 a2 a3 : ℝ) (q : E) (h : 0 < a1 * a1 + a2 * a2 + a3 * a3) :
    XMVector3Normalize c ⟨num a1, num a2, num a3, q⟩ =
      ⟨num (a1 / √(a1 * a1 + a2 * a2 + a3 * a3)), num (a2 / √(a1 * a1 + a2 * a2 + a3 * a3)),
       num (a3 / √(a1 * a1 + a2 * a2 + a3 * a3)), nrmLane c (a1 * a1 + a2 * a2 + a3 * a3) q⟩ := by
  have h1 : √(a1 * a1 + a2 * a2 + a3 * a3) ≠ 0 := (Real.sqrt_pos.2 h).ne'
  unfold XMVector3Normalize nrmLane
  split_ifs <;> simp [normalizeTail_pos, h, div_num, h1, normalizeNOI_pos, div_eq_mul_inv]
theorem XMVector3Normalize_zero (c : Cfg) (q : E) :
    XMVector3Normalize c ⟨num 0, num 0, num 0, q⟩ = ⟨num 0, num 0, num 0, nrmLane0 c q⟩ := by
  unfold XMVector3Normalize nrmLane0
  split_ifs <;> simp [normalizeTail_zero, normalizeNOI_zero]
theorem XMVector4Normalize_num (c : Cfg) (a1 a2 a3 a4 : ℝ) (h : 0 < a1 * a1 + a2 * a2 + a3 * a3 + a4 * a4) :
    XMVector4Normalize c ⟨num a1, num a2, num a3, num a4⟩ =
      ⟨num (a1 / √(a1 * a1 + a2 * a2 + a3 * a3 + a4 * a4)), num (a2 / √(a1 * a1 + a2 * a2 + a3 * a3 + a4 * a4)),
       num (a3 / √(a1 * a1 + a2 * a2 + a3 * a3 + a4 * a4)), num (a4 / √(a1 * a1 + a2 * a2 + a3 * a3 + a4 * a4))⟩ := by
  have h1 : √(a1 * a1 + a2 * a2 + a3 * a3 + a4 * a4) ≠ 0 := (Real.sqrt_pos.2 h).ne'
  unfold XMVector4Normalize
  split_ifs <;> simp [normalizeTail_pos, h, div_num, h1, normalizeNOI_pos, div_eq_mul_inv]
theorem XMVector4Normalize_zero (c : Cfg) :
    XMVector4Normalize c ⟨num 0, num 0, num 0, num 0⟩ = ⟨num 0, num 0, num 0, num 0⟩ := by
  unfold XMVector4Normalize
  split_ifs <;> simp [normalizeTail_zero, normalizeNOI_zero]

/-- What ClampLength does to one lane, given the length `ℓ > 0`. -/
noncomputable def clampLane (ℓ lo hi : ℝ) (v : E) : E :=
  if ℓ < lo then Lane.mul (Lane.mul v (num (1 / ℓ))) (num lo)
  else if hi < ℓ then Lane.mul (Lane.mul v (num (1 / ℓ))) (num hi) else v

theorem clampLengthBody_pos (V : V4 E) (L lo hi : ℝ) (h : 0 < L) (hl : lo ≤ hi) :
    clampLengthBody V ⟨num lo, num lo, num lo, num lo⟩ ⟨num hi, num hi, num hi, num hi⟩ ⟨num L, num L, num L, num L⟩ =
      V.map (clampLane √L lo hi) := by
  have h1 : √L ≠ 0 := (Real.sqrt_pos.2 h).ne'
  have h2 : L * (√L)⁻¹ = √L := by rw [← div_eq_mul_inv, Real.div_sqrt]
  simp only [clampLengthBody, clampLane]
  by_cases ha : √L < lo <;> by_cases hb : hi < √L
  · linarith
  all_goals simp [clampLane, sqrt_num, h.le, h1, div_num, h.ne', ha, hb, h2]
theorem clampLengthBody_zero (V : V4 E) (lo hi : ℝ) (h0 : 0 ≤ lo) (hl : lo ≤ hi) :
    clampLengthBody V ⟨num lo, num lo, num lo, num lo⟩ ⟨num hi, num hi, num hi, num hi⟩ ⟨num 0, num 0, num 0, num 0⟩ =
      V.map (fun v => if 0 < lo then num 0 else v) := by
  simp only [clampLengthBody]
  have hb : ¬ hi < 0 := by linarith
  by_cases ha : 0 < lo
  all_goals simp [ha, hb]

@[simp] theorem clampLane_num (ℓ lo hi v : ℝ) :
    clampLane ℓ lo hi (num v) = num (v * (if ℓ < lo then lo / ℓ else if hi < ℓ then hi / ℓ else 1)) := by
  unfold clampLane; split_ifs <;> simp <;> ring

/-! Reflect, refract, orthogonal -/
section
variable (c : Cfg) (a1 a2 a3 a4 b1 b2 b3 b4 r : ℝ) (p q s t : E)
@[simp] theorem XMVector2Reflect_num : XMVector2Reflect c ⟨num a1, num a2, p, q⟩ ⟨num b1, num b2, s, t⟩ =
    ⟨num (a1 - 2 * (a1 * b1 + a2 * b2) * b1), num (a2 - 2 * (a1 * b1 + a2 * b2) * b2),
     Lane.sub p (Lane.mul (num (2 * (a1 * b1 + a2 * b2))) s), Lane.sub q (Lane.mul (num (2 * (a1 * b1 + a2 * b2))) t)⟩ := by
  simp [XMVector2Reflect, ← two_mul]
@[simp] theorem XMVector3Reflect_num : XMVector3Reflect c ⟨num a1, num a2, num a3, q⟩ ⟨num b1, num b2, num b3, t⟩ =
    ⟨num (a1 - 2 * (a1 * b1 + a2 * b2 + a3 * b3) * b1), num (a2 - 2 * (a1 * b1 + a2 * b2 + a3 * b3) * b2),
     num (a3 - 2 * (a1 * b1 + a2 * b2 + a3 * b3) * b3), Lane.sub q (Lane.mul (num (2 * (a1 * b1 + a2 * b2 + a3 * b3))) t)⟩ := by
  simp [XMVector3Reflect, ← two_mul]
@[simp] theorem XMVector4Reflect_num : XMVector4Reflect c ⟨num a1, num a2, num a3, num a4⟩ ⟨num b1, num b2, num b3, num b4⟩ =
    ⟨num (a1 - 2 * (a1 * b1 + a2 * b2 + a3 * b3 + a4 * b4) * b1), num (a2 - 2 * (a1 * b1 + a2 * b2 + a3 * b3 + a4 * b4) * b2),
     num (a3 - 2 * (a1 * b1 + a2 * b2 + a3 * b3 + a4 * b4) * b3), num (a4 - 2 * (a1 * b1 + a2 * b2 + a3 * b3 + a4 * b4) * b4)⟩ := by
  simp [XMVector4Reflect, ← two_mul]
@[simp] theorem XMVector2Orthogonal_num : XMVector2Orthogonal c ⟨num a1, num a2, p, q⟩ =
    ⟨num (-a2), num a1, if c.sse then Lane.mul p (num 1) else num 0, if c.sse then Lane.mul q (num 1) else num 0⟩ := by
  unfold XMVector2Orthogonal; split_ifs <;> simp
@[simp] theorem XMVector4Orthogonal_num : XMVector4Orthogonal c ⟨num a1, num a2, num a3, num a4⟩ =
    ⟨num a3, num a4, num (-a1), num (-a2)⟩ := by
  simp [XMVector4Orthogonal]
/-- The value of the first lane / factor used by Vector3Orthogonal. -/
@[simp] theorem XMVector3Orthogonal_num : XMVector3Orthogonal c ⟨num a1, num a2, num a3, q⟩ =
    if (a3 < 0 ↔ a2 < 0) then ⟨num (a2 + a3), num (-a1), num (-a1), num (-a1)⟩ else
    ⟨num (a2 - a3), num (-a1), num a1, num a1⟩ := by
  simp only [XMVector3Orthogonal]
  by_cases h : a3 < 0 <;> by_cases h' : a2 < 0 <;> simp [h, h']
@[simp] theorem XMVector4Cross_num (d1 d2 d3 d4 : ℝ) :
  XMVector4Cross c ⟨num a1, num a2, num a3, num a4⟩ ⟨num b1, num b2, num b3, num b4⟩ ⟨num d1, num d2, num d3, num d4⟩ =
    ⟨num ((b3 * d4 - b4 * d3) * a2 - (b2 * d4 - b4 * d2) * a3 + (b2 * d3 - b3 * d2) * a4),
     num ((b4 * d3 - b3 * d4) * a1 - (b4 * d1 - b1 * d4) * a3 + (b3 * d1 - b1 * d3) * a4),
     num ((b2 * d4 - b4 * d2) * a1 - (b1 * d4 - b4 * d1) * a2 + (b1 * d2 - b2 * d1) * a4),
     num ((b3 * d2 - b2 * d3) * a1 - (b3 * d1 - b1 * d3) * a2 + (b2 * d1 - b1 * d2) * a3)⟩ := by
  unfold XMVector4Cross minor2
  split_ifs
  · simp; refine ⟨?_, ?_, ?_, ?_⟩ <;> ring
  · simp
end

/-! Transforms and interpolation -/
section
variable (c : Cfg) (v1 v2 v3 v4 : ℝ) (p q : E) (m11 m12 m13 m14 m21 m22 m23 m24 m31 m32 m33 m34 m41 m42 m43 m44 : ℝ)
@[simp] theorem XMVector2Transform_num : XMVector2Transform c ⟨num v1, num v2, p, q⟩
    ⟨⟨num m11, num m12, num m13, num m14⟩, ⟨num m21, num m22, num m23, num m24⟩, ⟨num m31, num m32, num m33, num m34⟩, ⟨num m41, num m42, num m43, num m44⟩⟩ =
    ⟨num (v1 * m11 + v2 * m21 + m41), num (v1 * m12 + v2 * m22 + m42), num (v1 * m13 + v2 * m23 + m43), num (v1 * m14 + v2 * m24 + m44)⟩ := by
  simp [XMVector2Transform, add_assoc]
@[simp] theorem XMVector2TransformNormal_num : XMVector2TransformNormal c ⟨num v1, num v2, p, q⟩
    ⟨⟨num m11, num m12, num m13, num m14⟩, ⟨num m21, num m22, num m23, num m24⟩, ⟨num m31, num m32, num m33, num m34⟩, ⟨num m41, num m42, num m43, num m44⟩⟩ =
    ⟨num (v1 * m11 + v2 * m21), num (v1 * m12 + v2 * m22), num (v1 * m13 + v2 * m23), num (v1 * m14 + v2 * m24)⟩ := by
  simp [XMVector2TransformNormal, add_assoc]
@[simp] theorem XMVector3Transform_num : XMVector3Transform c ⟨num v1, num v2, num v3, q⟩
    ⟨⟨num m11, num m12, num m13, num m14⟩, ⟨num m21, num m22, num m23, num m24⟩, ⟨num m31, num m32, num m33, num m34⟩, ⟨num m41, num m42, num m43, num m44⟩⟩ =
    ⟨num (v1 * m11 + v2 * m21 + v3 * m31 + m41), num (v1 * m12 + v2 * m22 + v3 * m32 + m42),
     num (v1 * m13 + v2 * m23 + v3 * m33 + m43), num (v1 * m14 + v2 * m24 + v3 * m34 + m44)⟩ := by
  simp [XMVector3Transform, add_assoc]
@[simp] theorem XMVector3TransformNormal_num : XMVector3TransformNormal c ⟨num v1, num v2, num v3, q⟩
    ⟨⟨num m11, num m12, num m13, num m14⟩, ⟨num m21, num m22, num m23, num m24⟩, ⟨num m31, num m32, num m33, num m34⟩, ⟨num m41, num m42, num m43, num m44⟩⟩ =
    ⟨num (v1 * m11 + v2 * m21 + v3 * m31), num (v1 * m12 + v2 * m22 + v3 * m32),
     num (v1 * m13 + v2 * m23 + v3 * m33), num (v1 * m14 + v2 * m24 + v3 * m34)⟩ := by
  simp [XMVector3TransformNormal, add_assoc]
@[simp] theorem XMVector4Transform_num : XMVector4Transform c ⟨num v1, num v2, num v3, num v4⟩
    ⟨⟨num m11, num m12, num m13, num m14⟩, ⟨num m21, num m22, num m23, num m24⟩, ⟨num m31, num m32, num m33, num m34⟩, ⟨num m41, num m42, num m43, num m44⟩⟩ =
    ⟨num (v1 * m11 + v2 * m21 + v3 * m31 + v4 * m41), num (v1 * m12 + v2 * m22 + v3 * m32 + v4 * m42),
     num (v1 * m13 + v2 * m23 + v3 * m33 + v4 * m43), num (v1 * m14 + v2 * m24 + v3 * m34 + v4 * m44)⟩ := by
  simp [XMVector4Transform, add_assoc, mul_comm]
theorem XMVector2TransformCoord_num (h : v1 * m14 + v2 * m24 + m44 ≠ 0) : XMVector2TransformCoord c ⟨num v1, num v2, p, q⟩
    ⟨⟨num m11, num m12, num m13, num m14⟩, ⟨num m21, num m22, num m23, num m24⟩, ⟨num m31, num m32, num m33, num m34⟩, ⟨num m41, num m42, num m43, num m44⟩⟩ =
    ⟨num ((v1 * m11 + v2 * m21 + m41) / (v1 * m14 + v2 * m24 + m44)), num ((v1 * m12 + v2 * m22 + m42) / (v1 * m14 + v2 * m24 + m44)),
     num ((v1 * m13 + v2 * m23 + m43) / (v1 * m14 + v2 * m24 + m44)), num ((v1 * m14 + v2 * m24 + m44) / (v1 * m14 + v2 * m24 + m44))⟩ := by
  rw [add_assoc] at h
  simp [XMVector2TransformCoord, add_assoc, div_num, h]
theorem XMVector3TransformCoord_num (h : v1 * m14 + v2 * m24 + v3 * m34 + m44 ≠ 0) : XMVector3TransformCoord c ⟨num v1, num v2, num v3, q⟩
    ⟨⟨num m11, num m12, num m13, num m14⟩, ⟨num m21, num m22, num m23, num m24⟩, ⟨num m31, num m32, num m33, num m34⟩, ⟨num m41, num m42, num m43, num m44⟩⟩ =
    ⟨num ((v1 * m11 + v2 * m21 + v3 * m31 + m41) / (v1 * m14 + v2 * m24 + v3 * m34 + m44)),
     num ((v1 * m12 + v2 * m22 + v3 * m32 + m42) / (v1 * m14 + v2 * m24 + v3 * m34 + m44)),
     num ((v1 * m13 + v2 * m23 + v3 * m33 + m43) / (v1 * m14 + v2 * m24 + v3 * m34 + m44)),
     num ((v1 * m14 + v2 * m24 + v3 * m34 + m44) / (v1 * m14 + v2 * m24 + v3 * m34 + m44))⟩ := by
  simp only [add_assoc] at h
  simp [XMVector3TransformCoord, add_assoc, div_num, h]
end

end DXM
