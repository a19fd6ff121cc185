import Verif.Model.Matrix

/-
src/vector.rs: functions that need the quaternion or matrix modules.
-/

namespace DXM
open Lane
variable {α : Type} [Lane α]

/-- vector.rs:10817-10828 -/
def XMVector3Rotate (c : Cfg) (V RotationQuaternion : V4 α) : V4 α :=
  let A := XMVectorSelect g_XMSelect1110 V g_XMSelect1110
  let Q := XMQuaternionConjugate c RotationQuaternion
  let Result := XMQuaternionMultiply c Q A
  XMQuaternionMultiply c Result RotationQuaternion
/-- vector.rs:10847-10858 -/
def XMVector3InverseRotate (c : Cfg) (V RotationQuaternion : V4 α) : V4 α :=
  let A := XMVectorSelect g_XMSelect1110 V g_XMSelect1110
  let Result := XMQuaternionMultiply c RotationQuaternion A
  let Q := XMQuaternionConjugate c RotationQuaternion
  XMQuaternionMultiply c Result Q
/-- vector.rs:11074-11101 -/
def XMVector3Project (c : Cfg) (V : V4 α) (ViewportX ViewportY ViewportWidth ViewportHeight ViewportMinZ ViewportMaxZ : α)
    (Projection View World : M4 α) : V4 α :=
  let HalfViewportWidth := Lane.mul ViewportWidth cHalf
  let HalfViewportHeight := Lane.mul ViewportHeight cHalf
  let Scale := XMVectorSet HalfViewportWidth (neg HalfViewportHeight) (Lane.sub ViewportMaxZ ViewportMinZ) c0
  let Offset := XMVectorSet (Lane.add ViewportX HalfViewportWidth) (Lane.add ViewportY HalfViewportHeight) ViewportMinZ c0
  let Transform := XMMatrixMultiply c World View
  let Transform := XMMatrixMultiply c Transform Projection
  let Result := XMVector3TransformCoord c V Transform
  XMVectorMultiplyAdd c Result Scale Offset
/-- vector.rs:11154-11183 -/
def XMVector3Unproject (c : Cfg) (V : V4 α) (ViewportX ViewportY ViewportWidth ViewportHeight ViewportMinZ ViewportMaxZ : α)
    (Projection View World : M4 α) : V4 α :=
  let D : V4 α := ⟨cNeg1, c1, c0, c0⟩
  let Scale := XMVectorSet (Lane.mul ViewportWidth cHalf) (Lane.mul (neg ViewportHeight) cHalf)
    (Lane.sub ViewportMaxZ ViewportMinZ) c1
  let Scale := XMVectorReciprocal Scale
  let Offset := XMVectorSet (neg ViewportX) (neg ViewportY) (neg ViewportMinZ) c0
  let Offset := XMVectorMultiplyAdd c Scale Offset D
  let Transform := XMMatrixMultiply c World View
  let Transform := XMMatrixMultiply c Transform Projection
  let Transform := (XMMatrixInverse c Transform).1
  let Result := XMVectorMultiplyAdd c V Scale Offset
  XMVector3TransformCoord c Result Transform

end DXM
