import Verif.Model.Vector2
import Verif.Model.Preds

/-
src/vector.rs, part 4: Vector2/3/4 geometry (7797-9026, 9659-11019, 11825-12954) and the `XMVector` operators (12960-13112).
The functions that need quaternions or matrix products (Rotate, InverseRotate, Project, Unproject) are in Model/Space.lean.
-/

namespace DXM
open Lane
variable {α : Type} [Lane α]

section vec2

/-- vector.rs:7797-7829 -/
def XMVector2Dot (c : Cfg) (V1 V2 : V4 α) : V4 α :=
  if c.sse then
    let vLengthSq := SSE.mul V1 V2
    let vTemp := SSE.perm vLengthSq 1 1 1 1
    let vLengthSq := SSE.add_ss vLengthSq vTemp
    SSE.perm vLengthSq 0 0 0 0
  else .splat (Lane.add (Lane.mul V1.x V2.x) (Lane.mul V1.y V2.y))
/-- vector.rs:7866-7901 -/
def XMVector2Cross (c : Cfg) (V1 V2 : V4 α) : V4 α :=
  if c.sse then
    let vR := SSE.perm V2 0 1 0 1
    let vR := SSE.mul vR V1
    let vTemp := SSE.perm vR 1 1 1 1
    let vR := SSE.sub_ss vR vTemp
    SSE.perm vR 0 0 0 0
  else .splat (Lane.sub (Lane.mul V1.x V2.y) (Lane.mul V1.y V2.x))
/-- vector.rs:7907-7912 -/
def XMVector2LengthSq (c : Cfg) (V : V4 α) : V4 α := XMVector2Dot c V V
/-- vector.rs:7918-7962 -/
def XMVector2ReciprocalLengthEst (c : Cfg) (V : V4 α) : V4 α :=
  if c.sse then
    if c.sse4 then SSE.rsqrt (SSE.dp3f V V)
    else if c.sse3 then
      let vLengthSq := SSE.mul V V
      let vTemp := SSE.hadd vLengthSq vLengthSq
      SSE.perm (SSE.rsqrt_ss vTemp) 0 0 0 0
    else
      let vLengthSq := SSE.mul V V
      let vTemp := SSE.perm vLengthSq 1 1 1 1
      let vLengthSq := SSE.add_ss vLengthSq vTemp
      SSE.perm (SSE.rsqrt_ss vLengthSq) 0 0 0 0
  else XMVectorReciprocalSqrtEst c (XMVector2LengthSq c V)
/-- vector.rs:7968-8015 -/
def XMVector2ReciprocalLength (c : Cfg) (V : V4 α) : V4 α :=
  if c.sse then
    if c.sse4 then SSE.div g_XMOne (SSE.sqrt (SSE.dp3f V V))
    else if c.sse3 then
      let vLengthSq := SSE.mul V V
      let vTemp := SSE.hadd vLengthSq vLengthSq
      let vLengthSq := SSE.sqrt_ss vTemp
      let vLengthSq := SSE.div_ss g_XMOne vLengthSq
      SSE.perm vLengthSq 0 0 0 0
    else
      let vLengthSq := SSE.mul V V
      let vTemp := SSE.perm vLengthSq 1 1 1 1
      let vLengthSq := SSE.add_ss vLengthSq vTemp
      let vLengthSq := SSE.sqrt_ss vLengthSq
      let vLengthSq := SSE.div_ss g_XMOne vLengthSq
      SSE.perm vLengthSq 0 0 0 0
  else XMVectorReciprocalSqrt (XMVector2LengthSq c V)
/-- vector.rs:8021-8065 (LengthEst) -/
def XMVector2LengthEst (c : Cfg) (V : V4 α) : V4 α :=
  if c.sse then
    if c.sse4 then SSE.sqrt (SSE.dp3f V V)
    else if c.sse3 then
      let vLengthSq := SSE.mul V V
      let vTemp := SSE.hadd vLengthSq vLengthSq
      SSE.perm (SSE.sqrt_ss vTemp) 0 0 0 0
    else
      let vLengthSq := SSE.mul V V
      let vTemp := SSE.perm vLengthSq 1 1 1 1
      let vLengthSq := SSE.add_ss vLengthSq vTemp
      SSE.perm (SSE.sqrt_ss vLengthSq) 0 0 0 0
  else XMVectorSqrt (XMVector2LengthSq c V)
/-- vector.rs:8071-8115 -/
def XMVector2Length (c : Cfg) (V : V4 α) : V4 α :=
  if c.sse then
    if c.sse4 then SSE.sqrt (SSE.dp3f V V)
    else if c.sse3 then
      let vLengthSq := SSE.mul V V
      let vTemp := SSE.hadd vLengthSq vLengthSq
      SSE.perm (SSE.sqrt_ss vTemp) 0 0 0 0
    else
      let vLengthSq := SSE.mul V V
      let vTemp := SSE.perm vLengthSq 1 1 1 1
      let vLengthSq := SSE.add_ss vLengthSq vTemp
      SSE.sqrt (SSE.perm vLengthSq 0 0 0 0)
  else XMVectorSqrt (XMVector2LengthSq c V)

/-- The common tail of the SSE Normalize functions (e.g. vector.rs:8222-8238, 10206-10222, 12346-12362):
divide by the length, zero for zero length, QNaN for infinite squared length. -/
def normalizeTail (V vLengthSq : V4 α) : V4 α :=
  let vR := SSE.sqrt vLengthSq
  let vZeroMask := SSE.cmpneq SSE.setzero vR
  let vLengthSq := SSE.cmpneq vLengthSq g_XMInfinity
  let vR := SSE.div V vR
  let vR := SSE.and vR vZeroMask
  let vTemp1 := SSE.andnot vLengthSq g_XMQNaN
  let vTemp2 := SSE.and vR vLengthSq
  SSE.or vTemp1 vTemp2
/-- The NOI Normalize (8197-8210, 10177-10194, 12318-12334) given the length vector. -/
def normalizeNOI (V vLength : V4 α) : V4 α :=
  let fLength := vLength.x
  let fLength := if gt fLength c0 then Lane.div c1 fLength else fLength
  .map (fun v => Lane.mul v fLength) V

/-- vector.rs:8191-8292 -/
def XMVector2Normalize (c : Cfg) (V : V4 α) : V4 α :=
  if c.sse then
    if c.sse4 then normalizeTail V (SSE.dp3f V V)
    else if c.sse3 then
      let vLengthSq := SSE.mul V V
      let vLengthSq := SSE.hadd vLengthSq vLengthSq
      let vLengthSq := SSE.moveldup vLengthSq
      normalizeTail V vLengthSq
    else
      let vLengthSq := SSE.mul V V
      let vTemp := SSE.perm vLengthSq 1 1 1 1
      let vLengthSq := SSE.add_ss vLengthSq vTemp
      normalizeTail V (SSE.perm vLengthSq 0 0 0 0)
  else normalizeNOI V (XMVector2Length c V)
/-- The body shared by the three ClampLengthV functions, given the squared length
(vector.rs:8327-8357, 10329-10358, 12497-12526). -/
def clampLengthBody (V LengthMin LengthMax LengthSq : V4 α) : V4 α :=
  let Zero := XMVectorZero
  let RcpLength := XMVectorReciprocalSqrt LengthSq
  let InfiniteLength := XMVectorEqualInt LengthSq g_XMInfinity
  let ZeroLength := XMVectorEqual LengthSq Zero
  let Length := XMVectorMultiply LengthSq RcpLength
  let Normal := XMVectorMultiply V RcpLength
  let Select := XMVectorEqualInt InfiniteLength ZeroLength
  let Length := XMVectorSelect LengthSq Length Select
  let Normal := XMVectorSelect LengthSq Normal Select
  let ControlMax := XMVectorGreater Length LengthMax
  let ControlMin := XMVectorLess Length LengthMin
  let ClampLength := XMVectorSelect Length LengthMax ControlMax
  let ClampLength := XMVectorSelect ClampLength LengthMin ControlMin
  let Result := XMVectorMultiply Normal ClampLength
  let Control := XMVectorEqualInt ControlMax ControlMin
  XMVectorSelect Result V Control
/-- vector.rs:8314-8359 -/
def XMVector2ClampLengthV (c : Cfg) (V LengthMin LengthMax : V4 α) : V4 α :=
  clampLengthBody V LengthMin LengthMax (XMVector2LengthSq c V)
/-- vector.rs:8299-8308 -/
def XMVector2ClampLength (c : Cfg) (V : V4 α) (LengthMin LengthMax : α) : V4 α :=
  XMVector2ClampLengthV c V (XMVectorReplicate LengthMin) (XMVectorReplicate LengthMax)
/-- vector.rs:8394-8406 -/
def XMVector2Reflect (c : Cfg) (Incident Normal : V4 α) : V4 α :=
  let Result := XMVector2Dot c Incident Normal
  let Result := XMVectorAdd Result Result
  XMVectorNegativeMultiplySubtract c Result Normal Incident
/-- One lane of the NOI Refract (vector.rs:8508-8526). -/
def refractLane (IDotN RY0 idx inc nrm : α) : α :=
  let RX := Lane.sub c1 (Lane.mul (Lane.mul RY0 idx) idx)
  if ge RX c0 then Lane.sub (Lane.mul idx inc) (Lane.mul nrm (Lane.add (Lane.mul idx IDotN) (Lane.sqrt RX))) else c0
/-- vector.rs:8495-8562 -/
def XMVector2RefractV (c : Cfg) (Incident Normal RefractionIndex : V4 α) : V4 α :=
  if c.sse then
    let IDotN := XMVector2Dot c Incident Normal
    let vTemp := SSE.fnmadd c IDotN IDotN g_XMOne
    let vTemp := SSE.mul vTemp RefractionIndex
    let vTemp := SSE.fnmadd c vTemp RefractionIndex g_XMOne
    let vMask := SSE.cmpgt vTemp g_XMZero
    let vTemp := SSE.sqrt vTemp
    let vTemp := SSE.fmadd c RefractionIndex IDotN vTemp
    let vR := SSE.mul RefractionIndex Incident
    let vR := SSE.fnmadd c vTemp Normal vR
    SSE.and vR vMask
  else
    let IDotN := Lane.add (Lane.mul Incident.x Normal.x) (Lane.mul Incident.y Normal.y)
    let RY := Lane.sub c1 (Lane.mul IDotN IDotN)
    ⟨refractLane IDotN RY RefractionIndex.x Incident.x Normal.x, refractLane IDotN RY RefractionIndex.y Incident.y Normal.y, c0, c0⟩
/-- vector.rs:8460-8468 -/
def XMVector2Refract (c : Cfg) (Incident Normal : V4 α) (idx : α) : V4 α := XMVector2RefractV c Incident Normal (XMVectorReplicate idx)
/-- vector.rs:8596-8622 -/
def XMVector2Orthogonal (c : Cfg) (V : V4 α) : V4 α :=
  if c.sse then SSE.mul (SSE.perm V 3 2 0 1) g_XMNegateX else ⟨neg V.y, V.x, c0, c0⟩
/-- vector.rs:8676-8687 -/
def XMVector2AngleBetweenNormals (c : Cfg) (N1 N2 : V4 α) : V4 α :=
  XMVectorACos c (XMVectorClamp (XMVector2Dot c N1 N2) g_XMNegativeOne g_XMOne)
/-- vector.rs:8647-8658 -/
def XMVector2AngleBetweenNormalsEst (c : Cfg) (N1 N2 : V4 α) : V4 α :=
  XMVectorACosEst c (XMVectorClamp (XMVector2Dot c N1 N2) g_XMNegativeOne g_XMOne)
/-- vector.rs:8709-8727 -/
def XMVector2AngleBetweenVectors (c : Cfg) (V1 V2 : V4 α) : V4 α :=
  let L1 := XMVector2ReciprocalLength c V1
  let L2 := XMVector2ReciprocalLength c V2
  let Dot := XMVector2Dot c V1 V2
  let L1 := XMVectorMultiply L1 L2
  let CosAngle := XMVectorMultiply Dot L1
  XMVectorACos c (XMVectorClamp CosAngle g_XMNegativeOne g_XMOne)
/-- vector.rs:8747-8772 -/
def XMVector2LinePointDistance (c : Cfg) (LinePoint1 LinePoint2 Point : V4 α) : V4 α :=
  let PointVector := XMVectorSubtract Point LinePoint1
  let LineVector := XMVectorSubtract LinePoint2 LinePoint1
  let LengthSq := XMVector2LengthSq c LineVector
  let Scale := XMVector2Dot c PointVector LineVector
  let Scale := XMVectorDivide Scale LengthSq
  let DistanceVector := XMVectorMultiply LineVector Scale
  let DistanceVector := XMVectorSubtract PointVector DistanceVector
  XMVector2Length c DistanceVector
/-- vector.rs:8795-8875 -/
def XMVector2IntersectLine (c : Cfg) (Line1Point1 Line1Point2 Line2Point1 Line2Point2 : V4 α) : V4 α :=
  let V1 := SSE.sub Line1Point2 Line1Point1
  let V2 := SSE.sub Line2Point2 Line2Point1
  let V3 := SSE.sub Line1Point1 Line2Point1
  let C1 := XMVector2Cross c V1 V2
  let C2 := XMVector2Cross c V2 V3
  if c.sse then
    let vRMask := SSE.sub SSE.setzero C1
    let vRMask := SSE.max vRMask C1
    let vRMask := SSE.cmpgt vRMask g_XMEpsilon
    let vFailMask := SSE.sub SSE.setzero C2
    let vFailMask := SSE.max vFailMask C2
    let vFailMask := SSE.cmple vFailMask g_XMEpsilon
    let vFail := SSE.and vFailMask g_XMInfinity
    let vFailMask := SSE.andnot vFailMask g_XMQNaN
    let vFail := SSE.or vFail vFailMask
    let vR := SSE.div C2 C1
    let vR := SSE.fmadd c vR V1 Line1Point1
    let vR := SSE.and vR vRMask
    let vRMask := SSE.andnot vRMask vFail
    SSE.or vR vRMask
  else
    if XMVector2NearEqual c C1 g_XMZero g_XMEpsilon then
      (if XMVector2NearEqual c C2 g_XMZero g_XMEpsilon then g_XMInfinity else g_XMQNaN)
    else
      let Scale := XMVectorReciprocal C1
      let Scale := XMVectorMultiply C2 Scale
      XMVectorMultiplyAdd c V1 Scale Line1Point1
/-- vector.rs:8902-8931 -/
def XMVector2Transform (c : Cfg) (V : V4 α) (M : M4 α) : V4 α :=
  if c.sse then
    let vR := SSE.perm V 1 1 1 1
    let vR := SSE.fmadd c vR M.r1 M.r3
    let vTemp := SSE.perm V 0 0 0 0
    SSE.fmadd c vTemp M.r0 vR
  else
    let Y := XMVectorSplatY c V
    let X := XMVectorSplatX c V
    let Result := XMVectorMultiplyAdd c Y M.r1 M.r3
    XMVectorMultiplyAdd c X M.r0 Result
/-- vector.rs:8960-8974 -/
def XMVector2TransformCoord (c : Cfg) (V : V4 α) (M : M4 α) : V4 α :=
  let Y := XMVectorSplatY c V
  let X := XMVectorSplatX c V
  let Result := XMVectorMultiplyAdd c Y M.r1 M.r3
  let Result := XMVectorMultiplyAdd c X M.r0 Result
  let W := XMVectorSplatW c Result
  XMVectorDivide Result W
/-- vector.rs:8999-9028 -/
def XMVector2TransformNormal (c : Cfg) (V : V4 α) (M : M4 α) : V4 α :=
  if c.sse then
    let vR := SSE.perm V 1 1 1 1
    let vR := SSE.mul vR M.r1
    let vTemp := SSE.perm V 0 0 0 0
    SSE.fmadd c vTemp M.r0 vR
  else
    let Y := XMVectorSplatY c V
    let X := XMVectorSplatX c V
    let Result := XMVectorMultiply Y M.r1
    XMVectorMultiplyAdd c X M.r0 Result
end vec2

section vec3
/-- vector.rs:9700-9710: the SSE2 three-lane horizontal sum of a product vector, splatted (order x, y, z). -/
def sum3ss (vDot : V4 α) : V4 α :=
  let vTemp := SSE.perm vDot 2 1 2 1
  let vDot := SSE.add_ss vDot vTemp
  let vTemp := SSE.perm vTemp 1 1 1 1
  let vDot := SSE.add_ss vDot vTemp
  SSE.perm vDot 0 0 0 0
/-- The variant with `_MM_SHUFFLE(1,2,1,2)` (vector.rs:9830-9838, 9952-9960, 10021-10029; order x, z, y). -/
def sum3ss' (vDot : V4 α) : V4 α :=
  let vTemp := SSE.perm vDot 1 2 1 2
  let vDot := SSE.add_ss vDot vTemp
  let vTemp := SSE.perm vTemp 1 1 1 1
  let vDot := SSE.add_ss vDot vTemp
  SSE.perm vDot 0 0 0 0
/-- The SSE3 form: mask the w lane, two horizontal adds (vector.rs:9877-9880, 9939-9942, 10008-10011, 10228-10231). -/
def sum3h (vDot : V4 α) : V4 α :=
  let vDot := SSE.and vDot g_XMMask3
  let vDot := SSE.hadd vDot vDot
  SSE.hadd vDot vDot
/-- vector.rs:9659-9712 -/
def XMVector3Dot (c : Cfg) (V1 V2 : V4 α) : V4 α :=
  if c.sse then (if c.sse4 then SSE.dp7f V1 V2 else sum3ss (SSE.mul V1 V2))
  else .splat (Lane.add (Lane.add (Lane.mul V1.x V2.x) (Lane.mul V1.y V2.y)) (Lane.mul V1.z V2.z))
/-- vector.rs:9743-9783 -/
def XMVector3Cross (c : Cfg) (V1 V2 : V4 α) : V4 α :=
  if c.sse then
    let vTemp1 := SSE.perm V1 3 0 2 1
    let vTemp2 := SSE.perm V2 3 1 0 2
    let vR := SSE.mul vTemp1 vTemp2
    let vTemp1 := SSE.perm vTemp1 3 0 2 1
    let vTemp2 := SSE.perm vTemp2 3 1 0 2
    let vR := SSE.fnmadd c vTemp1 vTemp2 vR
    SSE.and vR g_XMMask3
  else ⟨Lane.sub (Lane.mul V1.y V2.z) (Lane.mul V1.z V2.y), Lane.sub (Lane.mul V1.z V2.x) (Lane.mul V1.x V2.z),
        Lane.sub (Lane.mul V1.x V2.y) (Lane.mul V1.y V2.x), c0⟩
/-- vector.rs:9789-9794 -/
def XMVector3LengthSq (c : Cfg) (V : V4 α) : V4 α := XMVector3Dot c V V
/-- vector.rs:9800-9843 -/
def XMVector3ReciprocalLengthEst (c : Cfg) (V : V4 α) : V4 α :=
  if c.sse then SSE.rsqrt (if c.sse4 then SSE.dp7f V V else sum3ss' (SSE.mul V V))
  else XMVectorReciprocalSqrtEst c (XMVector3LengthSq c V)
/-- vector.rs:9849-9906 -/
def XMVector3ReciprocalLength (c : Cfg) (V : V4 α) : V4 α :=
  if c.sse then
    SSE.div g_XMOne (SSE.sqrt (if c.sse4 then SSE.dp7f V V else if c.sse3 then sum3h (SSE.mul V V) else sum3ss (SSE.mul V V)))
  else XMVectorReciprocalSqrt (XMVector3LengthSq c V)
/-- vector.rs:9981-10034 and LengthEst 9912-9965 -/
def XMVector3Length (c : Cfg) (V : V4 α) : V4 α :=
  if c.sse then
    SSE.sqrt (if c.sse4 then SSE.dp7f V V else if c.sse3 then sum3h (SSE.mul V V) else sum3ss' (SSE.mul V V))
  else XMVectorSqrt (XMVector3LengthSq c V)
/-- vector.rs:10171-10280 -/
def XMVector3Normalize (c : Cfg) (V : V4 α) : V4 α :=
  if c.sse then
    normalizeTail V (if c.sse4 then SSE.dp7f V V else if c.sse3 then sum3h (SSE.mul V V) else sum3ss (SSE.mul V V))
  else normalizeNOI V (XMVector3Length c V)
/-- vector.rs:10323-10359 -/
def XMVector3ClampLengthV (c : Cfg) (V LengthMin LengthMax : V4 α) : V4 α :=
  clampLengthBody V LengthMin LengthMax (XMVector3LengthSq c V)
/-- vector.rs:10307-10317 -/
def XMVector3ClampLength (c : Cfg) (V : V4 α) (LengthMin LengthMax : α) : V4 α :=
  XMVector3ClampLengthV c V (XMVectorReplicate LengthMin) (XMVectorReplicate LengthMax)
/-- vector.rs:10393-10405 -/
def XMVector3Reflect (c : Cfg) (Incident Normal : V4 α) : V4 α :=
  let Result := XMVector3Dot c Incident Normal
  let Result := XMVectorAdd Result Result
  XMVectorNegativeMultiplySubtract c Result Normal Incident
/-- The body shared by Vector3RefractV (10495-10566) and Vector4RefractV (12665-12739), given the dot product. -/
def refractBody (c : Cfg) (Incident Normal RefractionIndex IDotN : V4 α) : V4 α :=
  if c.sse then
    let R := SSE.fnmadd c IDotN IDotN g_XMOne
    let R2 := SSE.mul RefractionIndex RefractionIndex
    let R := SSE.fnmadd c R R2 g_XMOne
    let vR := SSE.cmple R g_XMZero
    if SSE.movemask vR == 0x0f then g_XMZero
    else
      let R := SSE.sqrt R
      let R := SSE.fmadd c RefractionIndex IDotN R
      let vR := SSE.mul RefractionIndex Incident
      SSE.fnmadd c R Normal vR
  else
    let R := XMVectorNegativeMultiplySubtract c IDotN IDotN g_XMOne
    let R := XMVectorMultiply R RefractionIndex
    let R := XMVectorNegativeMultiplySubtract c R RefractionIndex g_XMOne
    if XMVector4LessOrEqual c R g_XMZero then g_XMZero
    else
      let R := XMVectorSqrt R
      let R := XMVectorMultiplyAdd c RefractionIndex IDotN R
      let Result := XMVectorMultiply RefractionIndex Incident
      XMVectorNegativeMultiplySubtract c Normal R Result
/-- vector.rs:10495-10566 -/
def XMVector3RefractV (c : Cfg) (Incident Normal RefractionIndex : V4 α) : V4 α :=
  refractBody c Incident Normal RefractionIndex (XMVector3Dot c Incident Normal)
/-- vector.rs:10460-10468 -/
def XMVector3Refract (c : Cfg) (Incident Normal : V4 α) (idx : α) : V4 α := XMVector3RefractV c Incident Normal (XMVectorReplicate idx)
/-- vector.rs:10582-10613 -/
def XMVector3Orthogonal (c : Cfg) (V : V4 α) : V4 α :=
  let Zero := XMVectorZero
  let Z := XMVectorSplatZ c V
  let YZYY := XMVectorSwizzleC c V 1 2 1 1
  let NegativeV := XMVectorSubtract Zero V
  let ZIsNegative := XMVectorLess Z Zero
  let YZYYIsNegative := XMVectorLess YZYY Zero
  let S := XMVectorAdd YZYY Z
  let D := XMVectorSubtract YZYY Z
  let Select := XMVectorEqualInt ZIsNegative YZYYIsNegative
  let R0 := XMVectorPermuteC c NegativeV S 4 0 0 0
  let R1 := XMVectorPermuteC c V D 4 0 0 0
  XMVectorSelect R1 R0 Select
/-- vector.rs:10667-10678 -/
def XMVector3AngleBetweenNormals (c : Cfg) (N1 N2 : V4 α) : V4 α :=
  XMVectorACos c (XMVectorClamp (XMVector3Dot c N1 N2) g_XMNegativeOne g_XMOne)
/-- vector.rs:10638-10649 -/
def XMVector3AngleBetweenNormalsEst (c : Cfg) (N1 N2 : V4 α) : V4 α :=
  XMVectorACosEst c (XMVectorClamp (XMVector3Dot c N1 N2) g_XMNegativeOne g_XMOne)
/-- vector.rs:10700-10718 -/
def XMVector3AngleBetweenVectors (c : Cfg) (V1 V2 : V4 α) : V4 α :=
  let L1 := XMVector3ReciprocalLength c V1
  let L2 := XMVector3ReciprocalLength c V2
  let Dot := XMVector3Dot c V1 V2
  let L1 := XMVectorMultiply L1 L2
  let CosAngle := XMVectorMultiply Dot L1
  XMVectorACos c (XMVectorClamp CosAngle g_XMNegativeOne g_XMOne)
/-- vector.rs:10738-10763 -/
def XMVector3LinePointDistance (c : Cfg) (LinePoint1 LinePoint2 Point : V4 α) : V4 α :=
  let PointVector := XMVectorSubtract Point LinePoint1
  let LineVector := XMVectorSubtract LinePoint2 LinePoint1
  let LengthSq := XMVector3LengthSq c LineVector
  let Scale := XMVector3Dot c PointVector LineVector
  let Scale := XMVectorDivide Scale LengthSq
  let DistanceVector := XMVectorMultiply LineVector Scale
  let DistanceVector := XMVectorSubtract PointVector DistanceVector
  XMVector3Length c DistanceVector
/-- vector.rs:10785-10798; returns (parallel, perpendicular). -/
def XMVector3ComponentsFromNormal (c : Cfg) (V Normal : V4 α) : V4 α × V4 α :=
  let Scale := XMVector3Dot c V Normal
  let Parallel := XMVectorMultiply Normal Scale
  (Parallel, XMVectorSubtract V Parallel)
/-- vector.rs:10884-10917 -/
def XMVector3Transform (c : Cfg) (V : V4 α) (M : M4 α) : V4 α :=
  if c.sse then
    let vR := SSE.perm V 2 2 2 2
    let vR := SSE.fmadd c vR M.r2 M.r3
    let vTemp := SSE.perm V 1 1 1 1
    let vR := SSE.fmadd c vTemp M.r1 vR
    let vTemp := SSE.perm V 0 0 0 0
    SSE.fmadd c vTemp M.r0 vR
  else
    let Z := XMVectorSplatZ c V
    let Y := XMVectorSplatY c V
    let X := XMVectorSplatX c V
    let Result := XMVectorMultiplyAdd c Z M.r2 M.r3
    let Result := XMVectorMultiplyAdd c Y M.r1 Result
    XMVectorMultiplyAdd c X M.r0 Result
/-- vector.rs:10943-10960 -/
def XMVector3TransformCoord (c : Cfg) (V : V4 α) (M : M4 α) : V4 α :=
  let Z := XMVectorSplatZ c V
  let Y := XMVectorSplatY c V
  let X := XMVectorSplatX c V
  let Result := XMVectorMultiplyAdd c Z M.r2 M.r3
  let Result := XMVectorMultiplyAdd c Y M.r1 Result
  let Result := XMVectorMultiplyAdd c X M.r0 Result
  let W := XMVectorSplatW c Result
  XMVectorDivide Result W
/-- vector.rs:10988-11021 -/
def XMVector3TransformNormal (c : Cfg) (V : V4 α) (M : M4 α) : V4 α :=
  if c.sse then
    let vR := SSE.perm V 2 2 2 2
    let vR := SSE.mul vR M.r2
    let vTemp := SSE.perm V 1 1 1 1
    let vR := SSE.fmadd c vTemp M.r1 vR
    let vTemp := SSE.perm V 0 0 0 0
    SSE.fmadd c vTemp M.r0 vR
  else
    let Z := XMVectorSplatZ c V
    let Y := XMVectorSplatY c V
    let X := XMVectorSplatX c V
    let Result := XMVectorMultiply Z M.r2
    let Result := XMVectorMultiplyAdd c Y M.r1 Result
    XMVectorMultiplyAdd c X M.r0 Result
end vec3

section vec4
/-- The SSE2 four-lane horizontal sum used by the Length family (vector.rs:12042-12052 and repeats). -/
def sum4ss (vLengthSq : V4 α) : V4 α :=
  let vTemp := SSE.perm vLengthSq 3 2 3 2
  let vLengthSq := SSE.add vLengthSq vTemp
  let vLengthSq := SSE.perm vLengthSq 1 0 0 0
  let vTemp := SSE.shuffle vTemp vLengthSq 3 3 0 0
  let vLengthSq := SSE.add vLengthSq vTemp
  SSE.perm vLengthSq 2 2 2 2
/-- vector.rs:11853-11855 and repeats -/
def sum4h (v : V4 α) : V4 α := SSE.hadd (SSE.hadd v v) (SSE.hadd v v)
/-- vector.rs:11825-11868 -/
def XMVector4Dot (c : Cfg) (V1 V2 : V4 α) : V4 α :=
  if c.sse then
    if c.sse4 then SSE.dpff V1 V2
    else if c.sse3 then
      let vTemp := SSE.mul V1 V2
      let vTemp := SSE.hadd vTemp vTemp
      SSE.hadd vTemp vTemp
    else
      let vTemp := SSE.mul V1 V2
      let vTemp2 := SSE.shuffle V2 vTemp 1 0 0 0
      let vTemp2 := SSE.add vTemp2 vTemp
      let vTemp := SSE.shuffle vTemp vTemp2 0 3 0 0
      let vTemp := SSE.add vTemp vTemp2
      SSE.perm vTemp 2 2 2 2
  else .splat (Lane.add (Lane.add (Lane.add (Lane.mul V1.x V2.x) (Lane.mul V1.y V2.y)) (Lane.mul V1.z V2.z)) (Lane.mul V1.w V2.w))
/-- `(a*b - c*d) * e`, the shape of every minor in the NOI Cross (vector.rs:11933-11936). -/
def minor2 (a b c' d e : α) : α := Lane.mul (Lane.sub (Lane.mul a b) (Lane.mul c' d)) e
/-- vector.rs:11918-11986 -/
def XMVector4Cross (c : Cfg) (V1 V2 V3 : V4 α) : V4 α :=
  if c.sse then
    let vR := SSE.perm V2 2 1 3 2
    let vTemp3 := SSE.perm V3 1 3 2 3
    let vR := SSE.mul vR vTemp3
    let vTemp2 := SSE.perm V2 1 3 2 3
    let vTemp3 := SSE.perm vTemp3 1 3 0 1
    let vR := SSE.fnmadd c vTemp2 vTemp3 vR
    let vTemp1 := SSE.perm V1 0 0 0 1
    let vR := SSE.mul vR vTemp1
    let vTemp2 := SSE.perm V2 2 0 3 1
    let vTemp3 := SSE.perm V3 0 3 0 3
    let vTemp3 := SSE.mul vTemp3 vTemp2
    let vTemp2 := SSE.perm vTemp2 2 1 2 1
    let vTemp1 := SSE.perm V3 2 0 3 1
    let vTemp3 := SSE.fnmadd c vTemp2 vTemp1 vTemp3
    let vTemp1 := SSE.perm V1 1 1 2 2
    let vR := SSE.fnmadd c vTemp1 vTemp3 vR
    let vTemp2 := SSE.perm V2 1 0 2 1
    let vTemp3 := SSE.perm V3 0 1 0 2
    let vTemp3 := SSE.mul vTemp3 vTemp2
    let vTemp2 := SSE.perm vTemp2 2 0 2 1
    let vTemp1 := SSE.perm V3 1 0 2 1
    let vTemp3 := SSE.fnmadd c vTemp1 vTemp2 vTemp3
    let vTemp1 := SSE.perm V1 2 3 3 3
    SSE.fmadd c vTemp3 vTemp1 vR
  else
    ⟨Lane.add (Lane.sub (minor2 V2.z V3.w V2.w V3.z V1.y) (minor2 V2.y V3.w V2.w V3.y V1.z)) (minor2 V2.y V3.z V2.z V3.y V1.w),
     Lane.add (Lane.sub (minor2 V2.w V3.z V2.z V3.w V1.x) (minor2 V2.w V3.x V2.x V3.w V1.z)) (minor2 V2.z V3.x V2.x V3.z V1.w),
     Lane.add (Lane.sub (minor2 V2.y V3.w V2.w V3.y V1.x) (minor2 V2.x V3.w V2.w V3.x V1.y)) (minor2 V2.x V3.y V2.y V3.x V1.w),
     Lane.add (Lane.sub (minor2 V2.z V3.y V2.y V3.z V1.x) (minor2 V2.z V3.x V2.x V3.z V1.y)) (minor2 V2.y V3.x V2.x V3.y V1.z)⟩
/-- vector.rs:11992-11997 -/
def XMVector4LengthSq (c : Cfg) (V : V4 α) : V4 α := XMVector4Dot c V V
/-- The squared length as computed inside the SSE Length / ReciprocalLength / Normalize bodies. -/
def lengthSq4 (c : Cfg) (V : V4 α) : V4 α :=
  if c.sse4 then SSE.dpff V V else if c.sse3 then sum4h (SSE.mul V V) else sum4ss (SSE.mul V V)
/-- vector.rs:12003-12057 -/
def XMVector4ReciprocalLengthEst (c : Cfg) (V : V4 α) : V4 α :=
  if c.sse then SSE.rsqrt (lengthSq4 c V) else XMVectorReciprocalSqrtEst c (XMVector4LengthSq c V)
/-- vector.rs:12063-12121 -/
def XMVector4ReciprocalLength (c : Cfg) (V : V4 α) : V4 α :=
  if c.sse then SSE.div g_XMOne (SSE.sqrt (lengthSq4 c V)) else XMVectorReciprocalSqrt (XMVector4LengthSq c V)
/-- vector.rs:12188-12242 and LengthEst 12127-12181 -/
def XMVector4Length (c : Cfg) (V : V4 α) : V4 α :=
  if c.sse then SSE.sqrt (lengthSq4 c V) else XMVectorSqrt (XMVector4LengthSq c V)
/-- vector.rs:12312-12426 -/
def XMVector4Normalize (c : Cfg) (V : V4 α) : V4 α :=
  if c.sse then normalizeTail V (lengthSq4 c V) else normalizeNOI V (XMVector4Length c V)
/-- vector.rs:12484-12528 -/
def XMVector4ClampLengthV (c : Cfg) (V LengthMin LengthMax : V4 α) : V4 α :=
  clampLengthBody V LengthMin LengthMax (XMVector4LengthSq c V)
/-- vector.rs:12446-12456 -/
def XMVector4ClampLength (c : Cfg) (V : V4 α) (LengthMin LengthMax : α) : V4 α :=
  XMVector4ClampLengthV c V (XMVectorReplicate LengthMin) (XMVectorReplicate LengthMax)
/-- vector.rs:12563-12575 -/
def XMVector4Reflect (c : Cfg) (Incident Normal : V4 α) : V4 α :=
  let Result := XMVector4Dot c Incident Normal
  let Result := XMVectorAdd Result Result
  XMVectorNegativeMultiplySubtract c Result Normal Incident
/-- vector.rs:12665-12739 -/
def XMVector4RefractV (c : Cfg) (Incident Normal RefractionIndex : V4 α) : V4 α :=
  refractBody c Incident Normal RefractionIndex (XMVector4Dot c Incident Normal)
/-- vector.rs:12630-12638 -/
def XMVector4Refract (c : Cfg) (Incident Normal : V4 α) (idx : α) : V4 α := XMVector4RefractV c Incident Normal (XMVectorReplicate idx)
/-- vector.rs:12774-12801 -/
def XMVector4Orthogonal (c : Cfg) (V : V4 α) : V4 α :=
  if c.sse then SSE.mul (SSE.perm V 1 0 3 2) ⟨c1, c1, cNeg1, cNeg1⟩ else ⟨V.z, V.w, neg V.x, neg V.y⟩
/-- vector.rs:12855-12866 -/
def XMVector4AngleBetweenNormals (c : Cfg) (N1 N2 : V4 α) : V4 α :=
  XMVectorACos c (XMVectorClamp (XMVector4Dot c N1 N2) g_XMNegativeOne g_XMOne)
/-- vector.rs:12888-12906 -/
def XMVector4AngleBetweenVectors (c : Cfg) (V1 V2 : V4 α) : V4 α :=
  let L1 := XMVector4ReciprocalLength c V1
  let L2 := XMVector4ReciprocalLength c V2
  let Dot := XMVector4Dot c V1 V2
  let L1 := XMVectorMultiply L1 L2
  let CosAngle := XMVectorMultiply Dot L1
  XMVectorACos c (XMVectorClamp CosAngle g_XMNegativeOne g_XMOne)
/-- vector.rs:12924-12956 -/
def XMVector4Transform (c : Cfg) (V : V4 α) (M : M4 α) : V4 α :=
  if c.sse then
    let vR := SSE.perm V 3 3 3 3
    let vR := SSE.mul vR M.r3
    let vTemp := SSE.perm V 2 2 2 2
    let vR := SSE.fmadd c vTemp M.r2 vR
    let vTemp := SSE.perm V 1 1 1 1
    let vR := SSE.fmadd c vTemp M.r1 vR
    let vTemp := SSE.perm V 0 0 0 0
    SSE.fmadd c vTemp M.r0 vR
  else
    let f (a b c' d : α) : α := Lane.add (Lane.add (Lane.add (Lane.mul a V.x) (Lane.mul b V.y)) (Lane.mul c' V.z)) (Lane.mul d V.w)
    ⟨f M.r0.x M.r1.x M.r2.x M.r3.x, f M.r0.y M.r1.y M.r2.y M.r3.y, f M.r0.z M.r1.z M.r2.z M.r3.z, f M.r0.w M.r1.w M.r2.w M.r3.w⟩
end vec4

/-! The `XMVector` operator wrappers, vector.rs:12960-13112.  The struct wraps one XMVECTOR; `op=` forms store the result of the
corresponding function into `self`. -/
section ops
/-- 12989-12995 `+` -/
def XMVector.add (V1 V2 : V4 α) : V4 α := XMVectorAdd V1 V2
/-- 12997-13002 `+=`: the new value of `self` -/
def XMVector.addAssign (self V2 : V4 α) : V4 α := XMVectorAdd self V2
/-- 13004-13010 `-` -/
def XMVector.sub (V1 V2 : V4 α) : V4 α := XMVectorSubtract V1 V2
/-- 13012-13017 `-=` -/
def XMVector.subAssign (self V2 : V4 α) : V4 α := XMVectorSubtract self V2
/-- 13019-13025 `*` -/
def XMVector.mul (V1 V2 : V4 α) : V4 α := XMVectorMultiply V1 V2
/-- 13027-13032 `*=` -/
def XMVector.mulAssign (self V2 : V4 α) : V4 α := XMVectorMultiply self V2
/-- 13034-13040 `/` -/
def XMVector.div (V1 V2 : V4 α) : V4 α := XMVectorDivide V1 V2
/-- 13042-13047 `/=` -/
def XMVector.divAssign (self V2 : V4 α) : V4 α := XMVectorDivide self V2
/-- 13049-13056 `f32 * V` -/
def XMVector.scaleL (c : Cfg) (self : α) (V : V4 α) : V4 α := let S := self; XMVectorScale c V S
/-- 13058-13064 `V * f32` -/
def XMVector.scale (c : Cfg) (V : V4 α) (S : α) : V4 α := XMVectorScale c V S
/-- 13066-13071 `V *= f32` -/
def XMVector.scaleAssign (c : Cfg) (self : V4 α) (S : α) : V4 α := XMVectorScale c self S
/-- 13073-13080 `V / f32` -/
def XMVector.divScalar (V : V4 α) (S : α) : V4 α := XMVectorDivide V (XMVectorReplicate S)
/-- 13082-13088 `V /= f32` -/
def XMVector.divScalarAssign (self : V4 α) (S : α) : V4 α := XMVectorDivide self (XMVectorReplicate S)
/-- 13090-13096 -/
def XMVector.neg (c : Cfg) (V : V4 α) : V4 α := XMVectorNegate c V
/-- 13098-13103 `==` -/
def XMVector.eq (c : Cfg) (V1 V2 : V4 α) : Bool := XMVector4Equal c V1 V2
end ops

end DXM
