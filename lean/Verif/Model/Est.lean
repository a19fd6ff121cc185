import Verif.Model.Geom
import Verif.Model.Misc

/-
The estimating functions built on `rcpps` / `rsqrtps` (the lane primitives `rcpE`, `rsqrtE`) that the other model files do not contain.
-/

namespace DXM
open Lane
variable {α : Type} [Lane α]

/-- vector.rs:4409-4435 (both: `sqrt`) -/
def XMVectorSqrtEst (V : V4 α) : V4 α := SSE.sqrt V
/-- vector.rs:8121-8185 -/
def XMVector2NormalizeEst (c : Cfg) (V : V4 α) : V4 α :=
  if c.sse then
    if c.sse4 then SSE.mul (SSE.rsqrt (SSE.dp3f V V)) V
    else if c.sse3 then
      let vLengthSq := SSE.mul V V
      let vTemp := SSE.perm vLengthSq 1 1 1 1
      let vLengthSq := SSE.add_ss vLengthSq vTemp
      let vLengthSq := SSE.rsqrt_ss vLengthSq
      let vLengthSq := SSE.perm vLengthSq 0 0 0 0
      SSE.mul vLengthSq V
    else
      let vLengthSq := SSE.mul V V
      let vTemp := SSE.perm vLengthSq 1 1 1 1
      let vLengthSq := SSE.add_ss vLengthSq vTemp
      let vLengthSq := SSE.perm vLengthSq 0 0 0 0
      normalizeTail V vLengthSq
  else XMVectorMultiply V (XMVector2ReciprocalLength c V)
/-- vector.rs:9912-9965 -/
def XMVector3LengthEst (c : Cfg) (V : V4 α) : V4 α :=
  if c.sse then
    SSE.sqrt (if c.sse4 then SSE.dp7f V V else if c.sse3 then sum3h (SSE.mul V V) else sum3ss' (SSE.mul V V))
  else XMVectorSqrtEst (XMVector3LengthSq c V)
/-- vector.rs:10058-10115 -/
def XMVector3NormalizeEst (c : Cfg) (V : V4 α) : V4 α :=
  if c.sse then
    SSE.mul (SSE.rsqrt (if c.sse4 then SSE.dp7f V V else if c.sse3 then sum3h (SSE.mul V V) else sum3ss (SSE.mul V V))) V
  else XMVectorMultiply V (XMVector3ReciprocalLength c V)
/-- vector.rs:12127-12181 -/
def XMVector4LengthEst (c : Cfg) (V : V4 α) : V4 α :=
  if c.sse then SSE.sqrt (lengthSq4 c V) else XMVectorSqrtEst (XMVector4LengthSq c V)
/-- vector.rs:12248-12306 -/
def XMVector4NormalizeEst (c : Cfg) (V : V4 α) : V4 α :=
  if c.sse then SSE.mul (SSE.rsqrt (lengthSq4 c V)) V else XMVectorMultiply V (XMVector4ReciprocalLength c V)
/-- vector.rs:12826-12837 -/
def XMVector4AngleBetweenNormalsEst (c : Cfg) (N1 N2 : V4 α) : V4 α :=
  XMVectorACosEst c (XMVectorClamp (XMVector4Dot c N1 N2) g_XMNegativeOne g_XMOne)
/-- misc.rs:376-381 -/
def XMQuaternionNormalizeEst (c : Cfg) (Q : V4 α) : V4 α := XMVector4NormalizeEst c Q
/-- misc.rs:1917-1952 -/
def XMPlaneNormalizeEst (c : Cfg) (P : V4 α) : V4 α :=
  if c.sse then SSE.mul (SSE.rsqrt (sum3ss (SSE.mul P P))) P
  else XMVectorMultiply P (XMVector3ReciprocalLengthEst c P)

end DXM
