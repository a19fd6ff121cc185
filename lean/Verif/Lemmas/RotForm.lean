import Verif.Lemmas.Movement
import Verif.Model.Matrix
import Verif.Model.Misc
import Verif.Model.Space

/-
The rotation constructors lane by lane, on any lane type: which operations are applied to which lanes in each build.
-/

set_option linter.all false

namespace DXM
open Lane
variable {α : Type} [Lane α]

theorem XMMatrixRotationQuaternion_sse (c : Cfg) (hc : c.sse = true) (Q : V4 α) :
    let d := Lane.add Q.x Q.x; let e := Lane.add Q.y Q.y; let f := Lane.add Q.z Q.z; let g := Lane.add Q.w Q.w
    let o : α := ofBits 0xFFFFFFFF#32; let w := Lane.sub (Lane.sub (ofBits 0#32) (band (mul Q.w g) (ofBits 0#32))) (band (mul Q.w g) (ofBits 0#32))
    XMMatrixRotationQuaternion c Q =
    ⟨⟨Lane.sub (Lane.sub (ofBits 0x3F800000#32) (band (mul Q.y e) o)) (band (mul Q.z f) o), Lane.add (mul Q.x e) (mul Q.w f), Lane.sub (mul Q.x f) (mul Q.w e), w⟩,
     ⟨Lane.sub (mul Q.x e) (mul Q.w f), Lane.sub (Lane.sub (ofBits 0x3F800000#32) (band (mul Q.x d) o)) (band (mul Q.z f) o), Lane.add (mul Q.y f) (mul Q.w d), w⟩,
     ⟨Lane.add (mul Q.x f) (mul Q.w e), Lane.sub (mul Q.y f) (mul Q.w d), Lane.sub (Lane.sub (ofBits 0x3F800000#32) (band (mul Q.x d) o)) (band (mul Q.y e) o), w⟩,
     ⟨ofBits 0#32, ofBits 0#32, ofBits 0#32, ofBits 0x3F800000#32⟩⟩ := by
  intro d e f g o
  unfold XMMatrixRotationQuaternion
  rw [if_pos hc]
  rfl
theorem XMMatrixRotationQuaternion_noi [LawfulLane α] (c : Cfg) (hc : ¬ c.sse = true) (Q : V4 α) :
    let d := Lane.add Q.x Q.x; let e := Lane.add Q.y Q.y; let f := Lane.add Q.z Q.z
    let w : α := Lane.sub (Lane.sub (ofBits 0#32) (ofBits 0#32)) (ofBits 0#32)
    XMMatrixRotationQuaternion c Q =
    ⟨⟨Lane.sub (Lane.sub (ofBits 0x3F800000#32) (mul Q.y e)) (mul Q.z f), Lane.add (mul Q.x e) (mul Q.w f), Lane.sub (mul Q.x f) (mul Q.w e), w⟩,
     ⟨Lane.sub (mul Q.x e) (mul Q.w f), Lane.sub (Lane.sub (ofBits 0x3F800000#32) (mul Q.x d)) (mul Q.z f), Lane.add (mul Q.y f) (mul Q.w d), w⟩,
     ⟨Lane.add (mul Q.x f) (mul Q.w e), Lane.sub (mul Q.y f) (mul Q.w d), Lane.sub (Lane.sub (ofBits 0x3F800000#32) (mul Q.x d)) (mul Q.y e), w⟩,
     ⟨ofBits 0#32, ofBits 0#32, ofBits 0#32, ofBits 0x3F800000#32⟩⟩ := by
  obtain ⟨sse, sse3, sse4, avx, avx2, fma, f16c, fi, ni⟩ := c
  cases sse <;> simp only [not_true, not_false_eq_true, Bool.false_eq_true] at hc
  intro d e f w
  unfold XMMatrixRotationQuaternion
  simp only [↓reduceIte, Bool.false_eq_true, swizzleC_eq, permuteC_eq]
  rfl
theorem XMMatrixRotationNormal_sse (c : Cfg) (hc : c.sse = true) (N : V4 α) (A s k : α) (h : XMScalarSinCos A = (s, k)) :
    let o : α := ofBits 0xFFFFFFFF#32; let t := Lane.sub (ofBits 0x3F800000#32) k; let w := band (Lane.add (mul (mul t N.w) N.w) k) (ofBits 0#32)
    XMMatrixRotationNormal c N A =
    ⟨⟨band (Lane.add (mul (mul t N.x) N.x) k) o, Lane.add (mul s N.z) (mul (mul t N.x) N.y), Lane.sub (mul (mul t N.z) N.x) (mul s N.y), w⟩,
     ⟨Lane.sub (mul (mul t N.x) N.y) (mul s N.z), band (Lane.add (mul (mul t N.y) N.y) k) o, Lane.add (mul s N.x) (mul (mul t N.y) N.z), w⟩,
     ⟨Lane.add (mul s N.y) (mul (mul t N.z) N.x), Lane.sub (mul (mul t N.y) N.z) (mul s N.x), band (Lane.add (mul (mul t N.z) N.z) k) o, w⟩,
     ⟨ofBits 0#32, ofBits 0#32, ofBits 0#32, ofBits 0x3F800000#32⟩⟩ := by
  intro o t w
  unfold XMMatrixRotationNormal
  rw [h, if_pos hc]
  rfl
theorem XMMatrixRotationNormal_noi [LawfulLane α] (c : Cfg) (hc : ¬ c.sse = true) (N : V4 α) (A s k : α) (h : XMScalarSinCos A = (s, k)) :
    let o : α := ofBits 0xFFFFFFFF#32; let z : α := ofBits 0#32; let t := Lane.sub (ofBits 0x3F800000#32) k
    let w := bor (bandn z z) (band (Lane.add (mul (mul t N.w) N.w) k) z)
    XMMatrixRotationNormal c N A =
    ⟨⟨bor (bandn o s) (band (Lane.add (mul (mul t N.x) N.x) k) o), Lane.add (mul s N.z) (mul (mul t N.x) N.y), Lane.sub (mul (mul t N.z) N.x) (mul s N.y), w⟩,
     ⟨Lane.sub (mul (mul t N.x) N.y) (mul s N.z), bor (bandn o k) (band (Lane.add (mul (mul t N.y) N.y) k) o), Lane.add (mul s N.x) (mul (mul t N.y) N.z), w⟩,
     ⟨Lane.add (mul s N.y) (mul (mul t N.z) N.x), Lane.sub (mul (mul t N.y) N.z) (mul s N.x), bor (bandn o t) (band (Lane.add (mul (mul t N.z) N.z) k) o), w⟩,
     ⟨ofBits 0#32, ofBits 0#32, ofBits 0#32, ofBits 0x3F800000#32⟩⟩ := by
  obtain ⟨sse, sse3, sse4, avx, avx2, fma, f16c, fi, ni⟩ := c
  cases sse <;> simp only [not_true, not_false_eq_true, Bool.false_eq_true] at hc
  intro o z t w
  unfold XMMatrixRotationNormal
  rw [h]
  simp only [↓reduceIte, Bool.false_eq_true, swizzleC_eq, permuteC_eq]
  rfl
theorem XMQuaternionRotationNormal_sse [LawfulLane α] (c : Cfg) (hc : c.sse = true) (N : V4 α) (A : α) (S K : V4 α) (h : XMVectorSinCos c (.splat (mul cHalf A)) = (S, K)) :
    XMQuaternionRotationNormal c N A = ⟨mul N.x S.x, mul N.y S.y, mul N.z S.z, mul (ofBits 0x3F800000#32) K.w⟩ := by
  unfold XMQuaternionRotationNormal
  rw [if_pos hc]; dsimp only; rw [h]
  simp only [SSE.mul, SSE.or, SSE.and, V4.map2, g_XMMask3, g_XMMaskW, g_XMIdentityR3, LawfulLane.band_ones_right, LawfulLane.band_zero_right, LawfulLane.bor_zero_left, LawfulLane.bor_zero_right, c1, c0]
theorem XMQuaternionRotationNormal_noi [LawfulLane α] (c : Cfg) (hc : ¬ c.sse = true) (N : V4 α) (A s k : α) (h : XMScalarSinCos (mul cHalf A) = (s, k)) :
    XMQuaternionRotationNormal c N A = ⟨mul N.x s, mul N.y s, mul N.z s, mul (ofBits 0x3F800000#32) k⟩ := by
  unfold XMQuaternionRotationNormal
  rw [if_neg hc, h]
  simp only [XMVectorMultiply, XMVectorSelect, XMVectorSet, SSE.mul, SSE.or, SSE.and, SSE.andnot, V4.map2, g_XMSelect1110, g_XMOne, V4.splat, LawfulLane.band_ones_right, LawfulLane.band_zero_right,
    LawfulLane.bandn_ones_left, LawfulLane.bandn_zero_left, LawfulLane.bor_zero_left, LawfulLane.bor_zero_right, c1]
theorem XMQuaternionRotationRollPitchYaw_form [LawfulLane α] (c : Cfg) (A S K : V4 α) (h : XMVectorSinCos c (XMVectorMultiply A g_XMOneHalf) = (S, K)) :
    XMQuaternionRotationRollPitchYawFromVector c A = XMVectorMultiplyAdd c
      ⟨mul (mul K.x (ofBits 0x3F800000#32)) S.y, mul (mul S.x (ofBits 0xBF800000#32)) K.y, mul (mul S.x (ofBits 0xBF800000#32)) S.y, mul (mul S.x (ofBits 0x3F800000#32)) S.y⟩ ⟨S.z, S.z, K.z, S.z⟩
      ⟨mul (mul S.x K.y) K.z, mul (mul K.x S.y) K.z, mul (mul K.x K.y) S.z, mul (mul K.x K.y) K.z⟩ := by
  unfold XMQuaternionRotationRollPitchYawFromVector
  dsimp only; rw [h]
  simp only [permuteC_eq]
  rfl
theorem XMVector3Rotate_form [LawfulLane α] (c : Cfg) (V Q : V4 α) :
    XMVector3Rotate c V Q = XMQuaternionMultiply c (XMQuaternionMultiply c (XMQuaternionConjugate c Q) ⟨V.x, V.y, V.z, ofBits 0#32⟩) Q := by
  unfold XMVector3Rotate
  simp only [XMVectorSelect, SSE.or, SSE.and, SSE.andnot, V4.map2, g_XMSelect1110, LawfulLane.band_ones_right, LawfulLane.band_zero_right, LawfulLane.bandn_ones_left, LawfulLane.bandn_zero_left, LawfulLane.bor_zero_left, LawfulLane.bor_zero_right]
theorem XMVector3InverseRotate_form [LawfulLane α] (c : Cfg) (V Q : V4 α) :
    XMVector3InverseRotate c V Q = XMQuaternionMultiply c (XMQuaternionMultiply c Q ⟨V.x, V.y, V.z, ofBits 0#32⟩) (XMQuaternionConjugate c Q) := by
  unfold XMVector3InverseRotate
  simp only [XMVectorSelect, SSE.or, SSE.and, SSE.andnot, V4.map2, g_XMSelect1110, LawfulLane.band_ones_right, LawfulLane.band_zero_right, LawfulLane.bandn_ones_left, LawfulLane.bandn_zero_left, LawfulLane.bor_zero_left, LawfulLane.bor_zero_right]
theorem XMMatrixRotationX_sse (c : Cfg) (hc : c.sse = true) (A s k : α) (h : XMScalarSinCos A = (s, k)) :
    XMMatrixRotationX c A = ⟨⟨ofBits 0x3F800000#32, ofBits 0#32, ofBits 0#32, ofBits 0#32⟩, ⟨ofBits 0#32, k, s, ofBits 0#32⟩, ⟨mul (ofBits 0#32) (ofBits 0x3F800000#32), mul s (ofBits 0xBF800000#32), mul k (ofBits 0x3F800000#32), mul (ofBits 0#32) (ofBits 0x3F800000#32)⟩, ⟨ofBits 0#32, ofBits 0#32, ofBits 0#32, ofBits 0x3F800000#32⟩⟩ := by
  unfold XMMatrixRotationX
  rw [h, if_pos hc]
  rfl
theorem XMMatrixRotationY_sse (c : Cfg) (hc : c.sse = true) (A s k : α) (h : XMScalarSinCos A = (s, k)) :
    XMMatrixRotationY c A = ⟨⟨mul k (ofBits 0x3F800000#32), mul (ofBits 0#32) (ofBits 0x3F800000#32), mul s (ofBits 0xBF800000#32), mul (ofBits 0#32) (ofBits 0x3F800000#32)⟩, ⟨ofBits 0#32, ofBits 0x3F800000#32, ofBits 0#32, ofBits 0#32⟩, ⟨s, ofBits 0#32, k, ofBits 0#32⟩, ⟨ofBits 0#32, ofBits 0#32, ofBits 0#32, ofBits 0x3F800000#32⟩⟩ := by
  unfold XMMatrixRotationY
  rw [h, if_pos hc]
  rfl
theorem XMMatrixRotationZ_sse (c : Cfg) (hc : c.sse = true) (A s k : α) (h : XMScalarSinCos A = (s, k)) :
    XMMatrixRotationZ c A = ⟨⟨k, s, ofBits 0#32, ofBits 0#32⟩, ⟨mul s (ofBits 0xBF800000#32), mul k (ofBits 0x3F800000#32), mul (ofBits 0#32) (ofBits 0x3F800000#32), mul (ofBits 0#32) (ofBits 0x3F800000#32)⟩, ⟨ofBits 0#32, ofBits 0#32, ofBits 0x3F800000#32, ofBits 0#32⟩, ⟨ofBits 0#32, ofBits 0#32, ofBits 0#32, ofBits 0x3F800000#32⟩⟩ := by
  unfold XMMatrixRotationZ
  rw [h, if_pos hc]
  rfl
theorem XMMatrixRotationX_noi (c : Cfg) (hc : ¬ c.sse = true) (A s k : α) (h : XMScalarSinCos A = (s, k)) :
    XMMatrixRotationX c A = ⟨⟨ofBits 0x3F800000#32, ofBits 0#32, ofBits 0#32, ofBits 0#32⟩, ⟨ofBits 0#32, k, s, ofBits 0#32⟩, ⟨ofBits 0#32, neg s, k, ofBits 0#32⟩, ⟨ofBits 0#32, ofBits 0#32, ofBits 0#32, ofBits 0x3F800000#32⟩⟩ := by
  unfold XMMatrixRotationX
  rw [h, if_neg hc]
theorem XMMatrixRotationY_noi (c : Cfg) (hc : ¬ c.sse = true) (A s k : α) (h : XMScalarSinCos A = (s, k)) :
    XMMatrixRotationY c A = ⟨⟨k, ofBits 0#32, neg s, ofBits 0#32⟩, ⟨ofBits 0#32, ofBits 0x3F800000#32, ofBits 0#32, ofBits 0#32⟩, ⟨s, ofBits 0#32, k, ofBits 0#32⟩, ⟨ofBits 0#32, ofBits 0#32, ofBits 0#32, ofBits 0x3F800000#32⟩⟩ := by
  unfold XMMatrixRotationY
  rw [h, if_neg hc]
theorem XMMatrixRotationZ_noi (c : Cfg) (hc : ¬ c.sse = true) (A s k : α) (h : XMScalarSinCos A = (s, k)) :
    XMMatrixRotationZ c A = ⟨⟨k, s, ofBits 0#32, ofBits 0#32⟩, ⟨neg s, k, ofBits 0#32, ofBits 0#32⟩, ⟨ofBits 0#32, ofBits 0#32, ofBits 0x3F800000#32, ofBits 0#32⟩, ⟨ofBits 0#32, ofBits 0#32, ofBits 0#32, ofBits 0x3F800000#32⟩⟩ := by
  unfold XMMatrixRotationZ
  rw [h, if_neg hc]
end DXM
