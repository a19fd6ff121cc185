import Verif.Model.Geom

/-
src/misc.rs: quaternions, planes, the Fresnel term, scalar functions; and XMVectorSplatConstant (src/lib.rs:2841-2873).
-/

namespace DXM
open Lane
variable {α : Type} [Lane α]

/-- lib.rs:2841-2873 with convert.rs:11-24.  SSE: `cvtepi32_ps(IntConstant) * 2^-DivExponent`.
NOI: the pattern is converted as `u32` and multiplied by `1.0 / (1 >> DivExponent) as f32` (sic: `>>`).
The debug asserts (-16 ≤ IntConstant ≤ 15, DivExponent < 32) are preconditions. -/
def XMVectorSplatConstant (c : Cfg) (IntConstant : Int) (DivExponent : Nat) : V4 α :=
  let k : α := ofBits (BitVec.ofInt 32 IntConstant)
  if c.sse then .splat (Lane.mul (i2f k) (ofBits (0x3F800000#32 - BitVec.ofNat 32 (DivExponent * 2^23))))
  else .splat (Lane.mul (u2f k) (Lane.div c1 (if DivExponent = 0 then c1 else c0)))

section scalar
/-- lib.rs:1417 -/
def XMConvertToRadians (d : α) : α := Lane.mul d (Lane.div XM_PI (ofBits 0x43340000#32))
/-- lib.rs:1423 -/
def XMConvertToDegrees (r : α) : α := Lane.mul r (Lane.div (ofBits 0x43340000#32) XM_PI)
/-- misc.rs:2445-2453 -/
def XMScalarNearEqual (S1 S2 Epsilon : α) : Bool := Lane.le (Lane.abs (Lane.sub S1 S2)) Epsilon
/-- misc.rs:2471-2491 -/
def XMScalarModAngle (Angle : α) : α :=
  let Angle := Lane.add Angle XM_PI
  let fTemp := Lane.abs Angle
  let fTemp := Lane.sub fTemp (Lane.mul XM_2PI (castI (Lane.div fTemp XM_2PI)))
  let fTemp := Lane.sub fTemp XM_PI
  if Lane.lt Angle c0 then neg fTemp else fTemp
/-- misc.rs:2505-2526, 2583-2611, 2710-2737: the range reduction shared by ScalarSin/Cos/SinCos(+Est): (y, sign). -/
def scalarReduce (Value : α) : α × α :=
  let quotient := Lane.mul XM_1DIV2PI Value
  let quotient := if ge Value c0 then castI (Lane.add quotient cHalf) else castI (Lane.sub quotient cHalf)
  let y := Lane.sub Value (Lane.mul XM_2PI quotient)
  if gt y XM_PIDIV2 then (Lane.sub XM_PI y, cNeg1)
  else if Lane.lt y (neg XM_PIDIV2) then (Lane.sub (neg XM_PI) y, cNeg1)
  else (y, c1)
/-- misc.rs:2529, 2742 -/
def scalarSinPoly (y : α) : α :=
  let y2 := Lane.mul y y
  let p := Lane.add (Lane.mul (ofBits 0xB2CD365B#32) y2) (ofBits 0x3638B88E#32)
  let p := Lane.sub (Lane.mul p y2) (ofBits 0x39500BF1#32)
  let p := Lane.add (Lane.mul p y2) (ofBits 0x3C088886#32)
  let p := Lane.sub (Lane.mul p y2) (ofBits 0x3E2AAAAB#32)
  let p := Lane.add (Lane.mul p y2) c1
  Lane.mul p y
/-- misc.rs:2614, 2745 -/
def scalarCosPoly (y : α) : α :=
  let y2 := Lane.mul y y
  let p := Lane.add (Lane.mul (ofBits 0xB48BDD11#32) y2) (ofBits 0x37CFB4C2#32)
  let p := Lane.sub (Lane.mul p y2) (ofBits 0x3AB609AA#32)
  let p := Lane.add (Lane.mul p y2) (ofBits 0x3D2AAAA3#32)
  let p := Lane.sub (Lane.mul p y2) cHalf
  Lane.add (Lane.mul p y2) c1
/-- misc.rs:2568, 2816 -/
def scalarSinEstPoly (y : α) : α :=
  let y2 := Lane.mul y y
  let p := Lane.add (Lane.mul (ofBits 0xB9423EC8#32) y2) (ofBits 0x3C08373C#32)
  let p := Lane.sub (Lane.mul p y2) (ofBits 0x3E2AA888#32)
  let p := Lane.add (Lane.mul p y2) c1
  Lane.mul p y
/-- misc.rs:2675, 2819 -/
def scalarCosEstPoly (y : α) : α :=
  let y2 := Lane.mul y y
  let p := Lane.add (Lane.mul (ofBits 0xBAA69FDB#32) y2) (ofBits 0x3D29F587#32)
  let p := Lane.sub (Lane.mul p y2) (ofBits 0x3EFFF67E#32)
  Lane.add (Lane.mul p y2) c1
/-- misc.rs:2501-2530 -/
def XMScalarSin (Value : α) : α := scalarSinPoly (scalarReduce Value).1
/-- misc.rs:2540-2569 -/
def XMScalarSinEst (Value : α) : α := scalarSinEstPoly (scalarReduce Value).1
/-- misc.rs:2579-2616 -/
def XMScalarCos (Value : α) : α := let r := scalarReduce Value; Lane.mul r.2 (scalarCosPoly r.1)
/-- misc.rs:2640-2677 -/
def XMScalarCosEst (Value : α) : α := let r := scalarReduce Value; Lane.mul r.2 (scalarCosEstPoly r.1)
/-- misc.rs:2701-2747; returns (sin, cos). -/
def XMScalarSinCos (Value : α) : α × α := let r := scalarReduce Value; (scalarSinPoly r.1, Lane.mul r.2 (scalarCosPoly r.1))
/-- misc.rs:2775-2821 -/
def XMScalarSinCosEst (Value : α) : α × α := let r := scalarReduce Value; (scalarSinEstPoly r.1, Lane.mul r.2 (scalarCosEstPoly r.1))
/-- misc.rs:2846-2857, 2933-2944: `acos |Value|` by the 7-degree approximation. -/
def scalarArcPoly (Value : α) : α :=
  let x := Lane.abs Value
  let omx := Lane.sub c1 x
  let omx := if Lane.lt omx c0 then c0 else omx
  let root := Lane.sqrt omx
  let p := Lane.add (Lane.mul (ofBits 0xBAA57A2C#32) x) (ofBits 0x3BDA90C5#32)
  let p := Lane.sub (Lane.mul p x) (ofBits 0x3C8BFC66#32)
  let p := Lane.add (Lane.mul p x) (ofBits 0x3CFD10F8#32)
  let p := Lane.sub (Lane.mul p x) (ofBits 0x3D4D8392#32)
  let p := Lane.add (Lane.mul p x) (ofBits 0x3DB63A9E#32)
  let p := Lane.sub (Lane.mul p x) (ofBits 0x3E5BBFCA#32)
  let p := Lane.add (Lane.mul p x) (ofBits 0x3FC90FDA#32)
  Lane.mul p root
/-- misc.rs:2892-2903, 2977-2988 -/
def scalarArcEstPoly (Value : α) : α :=
  let x := Lane.abs Value
  let omx := Lane.sub c1 x
  let omx := if Lane.lt omx c0 then c0 else omx
  let root := Lane.sqrt omx
  let p := Lane.add (Lane.mul (ofBits 0xBC996E30#32) x) (ofBits 0x3D981627#32)
  let p := Lane.sub (Lane.mul p x) (ofBits 0x3E593484#32)
  let p := Lane.add (Lane.mul p x) (ofBits 0x3FC90DA4#32)
  Lane.mul p root
/-- misc.rs:2841-2861 -/
def XMScalarASin (Value : α) : α :=
  let result := scalarArcPoly Value
  if ge Value c0 then Lane.sub XM_PIDIV2 result else Lane.sub result XM_PIDIV2
/-- misc.rs:2887-2907 -/
def XMScalarASinEst (Value : α) : α :=
  let result := scalarArcEstPoly Value
  if ge Value c0 then Lane.sub XM_PIDIV2 result else Lane.sub result XM_PIDIV2
/-- misc.rs:2928-2948 -/
def XMScalarACos (Value : α) : α :=
  let result := scalarArcPoly Value
  if ge Value c0 then result else Lane.sub XM_PI result
/-- misc.rs:2972-2992 -/
def XMScalarACosEst (Value : α) : α :=
  let result := scalarArcEstPoly Value
  if ge Value c0 then result else Lane.sub XM_PI result
end scalar

section quaternion
/-- misc.rs:24-30 -/
def XMQuaternionEqual (c : Cfg) (Q1 Q2 : V4 α) : Bool := XMVector4Equal c Q1 Q2
/-- misc.rs:53-59 -/
def XMQuaternionNotEqual (c : Cfg) (Q1 Q2 : V4 α) : Bool := XMVector4NotEqual c Q1 Q2
/-- misc.rs:80-85 -/
def XMQuaternionIsNaN (c : Cfg) (Q : V4 α) : Bool := XMVector4IsNaN c Q
/-- misc.rs:106-111 -/
def XMQuaternionIsInfinite (c : Cfg) (Q : V4 α) : Bool := XMVector4IsInfinite c Q
/-- misc.rs:132-138 -/
def XMQuaternionIsIdentity (c : Cfg) (Q : V4 α) : Bool := XMVector4Equal c Q g_XMIdentityR3
/-- misc.rs:162-168 -/
def XMQuaternionDot (c : Cfg) (Q1 Q2 : V4 α) : V4 α := XMVector4Dot c Q1 Q2
/-- misc.rs:210-270 -/
def XMQuaternionMultiply (c : Cfg) (Q1 Q2 : V4 α) : V4 α :=
  if c.sse then
    let ControlWZYX : V4 α := ⟨c1, cNeg1, c1, cNeg1⟩
    let ControlZWXY : V4 α := ⟨c1, c1, cNeg1, cNeg1⟩
    let ControlYXWZ : V4 α := ⟨cNeg1, c1, c1, cNeg1⟩
    let vR := SSE.perm Q2 3 3 3 3
    let Q2X := SSE.perm Q2 0 0 0 0
    let Q2Y := SSE.perm Q2 1 1 1 1
    let Q2Z := SSE.perm Q2 2 2 2 2
    let vR := SSE.mul vR Q1
    let Q1Shuffle := SSE.perm Q1 0 1 2 3
    let Q2X := SSE.mul Q2X Q1Shuffle
    let Q1Shuffle := SSE.perm Q1Shuffle 2 3 0 1
    let vR := SSE.fmadd c Q2X ControlWZYX vR
    let Q2Y := SSE.mul Q2Y Q1Shuffle
    let Q1Shuffle := SSE.perm Q1Shuffle 0 1 2 3
    let Q2Y := SSE.mul Q2Y ControlZWXY
    let Q2Z := SSE.mul Q2Z Q1Shuffle
    let Q2Y := SSE.fmadd c Q2Z ControlYXWZ Q2Y
    SSE.add vR Q2Y
  else
    ⟨Lane.sub (Lane.add (Lane.add (Lane.mul Q2.w Q1.x) (Lane.mul Q2.x Q1.w)) (Lane.mul Q2.y Q1.z)) (Lane.mul Q2.z Q1.y),
     Lane.add (Lane.add (Lane.sub (Lane.mul Q2.w Q1.y) (Lane.mul Q2.x Q1.z)) (Lane.mul Q2.y Q1.w)) (Lane.mul Q2.z Q1.x),
     Lane.add (Lane.sub (Lane.add (Lane.mul Q2.w Q1.z) (Lane.mul Q2.x Q1.y)) (Lane.mul Q2.y Q1.x)) (Lane.mul Q2.z Q1.w),
     Lane.sub (Lane.sub (Lane.sub (Lane.mul Q2.w Q1.w) (Lane.mul Q2.x Q1.x)) (Lane.mul Q2.y Q1.y)) (Lane.mul Q2.z Q1.z)⟩
/-- misc.rs:292-297 -/
def XMQuaternionLengthSq (c : Cfg) (Q : V4 α) : V4 α := XMVector4LengthSq c Q
/-- misc.rs:318-323 -/
def XMQuaternionReciprocalLength (c : Cfg) (Q : V4 α) : V4 α := XMVector4ReciprocalLength c Q
/-- misc.rs:344-349 -/
def XMQuaternionLength (c : Cfg) (Q : V4 α) : V4 α := XMVector4Length c Q
/-- misc.rs:402-407 -/
def XMQuaternionNormalize (c : Cfg) (Q : V4 α) : V4 α := XMVector4Normalize c Q
/-- misc.rs:435-462 -/
def XMQuaternionConjugate (c : Cfg) (Q : V4 α) : V4 α :=
  if c.sse then SSE.mul Q ⟨cNeg1, cNeg1, cNeg1, c1⟩ else ⟨neg Q.x, neg Q.y, neg Q.z, Q.w⟩
/-- misc.rs:499-517 -/
def XMQuaternionInverse (c : Cfg) (Q : V4 α) : V4 α :=
  let L := XMVector4LengthSq c Q
  let Conjugate := XMQuaternionConjugate c Q
  let Control := XMVectorLessOrEqual L g_XMEpsilon
  let Result := XMVectorDivide Conjugate L
  XMVectorSelect Result g_XMZero Control
/-- The constant `1.0 - 0.00001` (misc.rs:546, 688, 734), evaluated in f32. -/
def oneMinusEpsilon : V4 α := .splat (Lane.sub c1 (ofBits 0x3727C5AC#32))
/-- misc.rs:540-562 -/
def XMQuaternionLn (c : Cfg) (Q : V4 α) : V4 α :=
  let QW := XMVectorSplatW c Q
  let Q0 := XMVectorSelect g_XMSelect1110 Q g_XMSelect1110
  let ControlW := XMVectorInBounds c QW oneMinusEpsilon
  let Theta := XMVectorACos c QW
  let SinTheta := XMVectorSin c Theta
  let S := XMVectorDivide Theta SinTheta
  let Result := XMVectorMultiply Q0 S
  XMVectorSelect Q0 Result ControlW
/-- misc.rs:585-608 -/
def XMQuaternionExp (c : Cfg) (Q : V4 α) : V4 α :=
  let Theta := XMVector3Length c Q
  let sc := XMVectorSinCos c Theta
  let S := XMVectorDivide sc.1 Theta
  let Result := XMVectorMultiply Q S
  let Control := XMVectorNearEqual c Theta g_XMZero g_XMEpsilon
  let Result := XMVectorSelect Result Q Control
  XMVectorSelect sc.2 Result g_XMSelect1110
/-- misc.rs:677-774 -/
def XMQuaternionSlerpV (c : Cfg) (Q0 Q1 T : V4 α) : V4 α :=
  let CosOmega := XMQuaternionDot c Q0 Q1
  let Control := XMVectorLess CosOmega g_XMZero
  let Sign := XMVectorSelect g_XMOne g_XMNegativeOne Control
  let CosOmega := XMVectorMultiply CosOmega Sign
  let Control := XMVectorLess CosOmega oneMinusEpsilon
  if c.sse then
    let SinOmega := SSE.mul CosOmega CosOmega
    let SinOmega := SSE.sub g_XMOne SinOmega
    let SinOmega := SSE.sqrt SinOmega
    let Omega := XMVectorATan2 c SinOmega CosOmega
    let V01 := SSE.perm T 2 3 0 1
    let V01 := SSE.and V01 g_XMMaskXY
    let V01 := SSE.xor V01 ⟨ofBits 0x80000000#32, c0, c0, c0⟩
    let V01 := SSE.add g_XMIdentityR0 V01
    let S0 := SSE.mul V01 Omega
    let S0 := XMVectorSin c S0
    let S0 := SSE.div S0 SinOmega
    let S0 := XMVectorSelect V01 S0 Control
    let S1 := XMVectorSplatY c S0
    let S0 := XMVectorSplatX c S0
    let S1 := SSE.mul S1 Sign
    let Result := SSE.mul Q0 S0
    let S1 := SSE.mul S1 Q1
    SSE.add Result S1
  else
    let SinOmega := XMVectorNegativeMultiplySubtract c CosOmega CosOmega g_XMOne
    let SinOmega := XMVectorSqrt SinOmega
    let Omega := XMVectorATan2 c SinOmega CosOmega
    let SignMask := XMVectorSplatSignMask
    let V01 := (XMVectorShiftLeft c false T g_XMZero 2).getD T
    let SignMask := (XMVectorShiftLeft c false SignMask g_XMZero 3).getD SignMask
    let V01 := XMVectorXorInt V01 SignMask
    let V01 := XMVectorAdd g_XMIdentityR0 V01
    let InvSinOmega := XMVectorReciprocal SinOmega
    let S0 := XMVectorMultiply V01 Omega
    let S0 := XMVectorSin c S0
    let S0 := XMVectorMultiply S0 InvSinOmega
    let S0 := XMVectorSelect V01 S0 Control
    let S1 := XMVectorSplatY c S0
    let S0 := XMVectorSplatX c S0
    let S1 := XMVectorMultiply S1 Sign
    let Result := XMVectorMultiply Q0 S0
    XMVectorMultiplyAdd c Q1 S1 Result
/-- misc.rs:638-646 -/
def XMQuaternionSlerp (c : Cfg) (Q0 Q1 : V4 α) (t : α) : V4 α := XMQuaternionSlerpV c Q0 Q1 (XMVectorReplicate t)
/-- misc.rs:865-888 -/
def XMQuaternionSquadV (c : Cfg) (Q0 Q1 Q2 Q3 T : V4 α) : V4 α :=
  let Two : V4 α := XMVectorSplatConstant c 2 0
  let Q03 := XMQuaternionSlerpV c Q0 Q3 T
  let Q12 := XMQuaternionSlerpV c Q1 Q2 T
  let TP := XMVectorNegativeMultiplySubtract c T T T
  let TP := XMVectorMultiply TP Two
  XMQuaternionSlerpV c Q03 Q12 TP
/-- misc.rs:818-828 -/
def XMQuaternionSquad (c : Cfg) (Q0 Q1 Q2 Q3 : V4 α) (t : α) : V4 α := XMQuaternionSquadV c Q0 Q1 Q2 Q3 (XMVectorReplicate t)
/-- misc.rs:981-1030; returns (A, B, C). -/
def XMQuaternionSquadSetup (c : Cfg) (Q0 Q1 Q2 Q3 : V4 α) : V4 α × V4 α × V4 α :=
  let LS12 := XMQuaternionLengthSq c (XMVectorAdd Q1 Q2)
  let LD12 := XMQuaternionLengthSq c (XMVectorSubtract Q1 Q2)
  let SQ2 := XMVectorNegate c Q2
  let Control1 := XMVectorLess LS12 LD12
  let SQ2 := XMVectorSelect Q2 SQ2 Control1
  let LS01 := XMQuaternionLengthSq c (XMVectorAdd Q0 Q1)
  let LD01 := XMQuaternionLengthSq c (XMVectorSubtract Q0 Q1)
  let SQ0 := XMVectorNegate c Q0
  let LS23 := XMQuaternionLengthSq c (XMVectorAdd SQ2 Q3)
  let LD23 := XMQuaternionLengthSq c (XMVectorSubtract SQ2 Q3)
  let SQ3 := XMVectorNegate c Q3
  let Control0 := XMVectorLess LS01 LD01
  let Control2 := XMVectorLess LS23 LD23
  let SQ0 := XMVectorSelect Q0 SQ0 Control0
  let SQ3 := XMVectorSelect Q3 SQ3 Control2
  let InvQ1 := XMQuaternionInverse c Q1
  let InvQ2 := XMQuaternionInverse c SQ2
  let LnQ0 := XMQuaternionLn c (XMQuaternionMultiply c InvQ1 SQ0)
  let LnQ2 := XMQuaternionLn c (XMQuaternionMultiply c InvQ1 SQ2)
  let LnQ1 := XMQuaternionLn c (XMQuaternionMultiply c InvQ2 Q1)
  let LnQ3 := XMQuaternionLn c (XMQuaternionMultiply c InvQ2 SQ3)
  let NegativeOneQuarter : V4 α := XMVectorSplatConstant c (-1) 2
  let ExpQ02 := XMVectorMultiply (XMVectorAdd LnQ0 LnQ2) NegativeOneQuarter
  let ExpQ13 := XMVectorMultiply (XMVectorAdd LnQ1 LnQ3) NegativeOneQuarter
  let ExpQ02 := XMQuaternionExp c ExpQ02
  let ExpQ13 := XMQuaternionExp c ExpQ13
  (XMQuaternionMultiply c Q1 ExpQ02, XMQuaternionMultiply c SQ2 ExpQ13, SQ2)
/-- misc.rs:1104-1128 -/
def XMQuaternionBaryCentric (c : Cfg) (Q0 Q1 Q2 : V4 α) (f g : α) : V4 α :=
  let s := Lane.add f g
  if Lane.lt s (ofBits 0x3727C5AC#32) && gt s (ofBits 0xB727C5AC#32) then Q0
  else
    let Q01 := XMQuaternionSlerp c Q0 Q1 s
    let Q02 := XMQuaternionSlerp c Q0 Q2 s
    XMQuaternionSlerp c Q01 Q02 (Lane.div g s)
/-- misc.rs:1162-1194 -/
def XMQuaternionBaryCentricV (c : Cfg) (Q0 Q1 Q2 F G : V4 α) : V4 α :=
  let Epsilon : V4 α := XMVectorSplatConstant c 1 16
  let S := XMVectorAdd F G
  if XMVector4InBounds c S Epsilon then Q0
  else
    let Q01 := XMQuaternionSlerpV c Q0 Q1 S
    let Q02 := XMQuaternionSlerpV c Q0 Q2 S
    let GS := XMVectorReciprocal S
    let GS := XMVectorMultiply G GS
    XMQuaternionSlerpV c Q01 Q02 GS
/-- misc.rs:1216-1220 -/
def XMQuaternionIdentity : V4 α := g_XMIdentityR3
/-- misc.rs:1289-1326.  `Angles` = (pitch, yaw, roll, 0). -/
def XMQuaternionRotationRollPitchYawFromVector (c : Cfg) (Angles : V4 α) : V4 α :=
  let Sign : V4 α := ⟨c1, cNeg1, cNeg1, c1⟩
  let HalfAngles := XMVectorMultiply Angles g_XMOneHalf
  let sc := XMVectorSinCos c HalfAngles
  let P0 := XMVectorPermuteC c sc.1 sc.2 0 4 4 4
  let Y0 := XMVectorPermuteC c sc.1 sc.2 5 1 5 5
  let R0 := XMVectorPermuteC c sc.1 sc.2 6 6 2 6
  let P1 := XMVectorPermuteC c sc.2 sc.1 0 4 4 4
  let Y1 := XMVectorPermuteC c sc.2 sc.1 5 1 5 5
  let R1 := XMVectorPermuteC c sc.2 sc.1 6 6 2 6
  let Q1 := XMVectorMultiply P1 Sign
  let Q0 := XMVectorMultiply P0 Y0
  let Q1 := XMVectorMultiply Q1 Y1
  let Q0 := XMVectorMultiply Q0 R0
  XMVectorMultiplyAdd c Q1 R1 Q0
/-- misc.rs:1253-1262 -/
def XMQuaternionRotationRollPitchYaw (c : Cfg) (Pitch Yaw Roll : α) : V4 α :=
  XMQuaternionRotationRollPitchYawFromVector c (XMVectorSet Pitch Yaw Roll c0)
/-- misc.rs:1351-1381 -/
def XMQuaternionRotationNormal (c : Cfg) (NormalAxis : V4 α) (Angle : α) : V4 α :=
  if c.sse then
    let N := SSE.and NormalAxis g_XMMask3
    let N := SSE.or N g_XMIdentityR3
    let Scale : V4 α := .splat (Lane.mul cHalf Angle)
    let sc := XMVectorSinCos c Scale
    let Scale := SSE.and sc.1 g_XMMask3
    let vCosine := SSE.and sc.2 g_XMMaskW
    let Scale := SSE.or Scale vCosine
    SSE.mul N Scale
  else
    let N := XMVectorSelect g_XMOne NormalAxis g_XMSelect1110
    let sc := XMScalarSinCos (Lane.mul cHalf Angle)
    let Scale := XMVectorSet sc.1 sc.1 sc.1 sc.2
    XMVectorMultiply N Scale
/-- misc.rs:1410-1421 -/
def XMQuaternionRotationAxis (c : Cfg) (Axis : V4 α) (Angle : α) : V4 α :=
  XMQuaternionRotationNormal c (XMVector3Normalize c Axis) Angle
/-- misc.rs:1447-1598 -/
def XMQuaternionRotationMatrix (c : Cfg) (M : M4 α) : V4 α :=
  if c.sse then
    let XMPMMP : V4 α := ⟨c1, cNeg1, cNeg1, c1⟩
    let XMMPMP : V4 α := ⟨cNeg1, c1, cNeg1, c1⟩
    let XMMMPP : V4 α := ⟨cNeg1, cNeg1, c1, c1⟩
    let r0 := M.r0
    let r1 := M.r1
    let r2 := M.r2
    let r00 := SSE.perm r0 0 0 0 0
    let r11 := SSE.perm r1 1 1 1 1
    let r22 := SSE.perm r2 2 2 2 2
    let r11mr00 := SSE.sub r11 r00
    let x2gey2 := SSE.cmple r11mr00 g_XMZero
    let r11pr00 := SSE.add r11 r00
    let z2gew2 := SSE.cmple r11pr00 g_XMZero
    let x2py2gez2pw2 := SSE.cmple r22 g_XMZero
    let t0 := SSE.fmadd c XMPMMP r00 g_XMOne
    let t1 := SSE.mul XMMPMP r11
    let t2 := SSE.fmadd c XMMMPP r22 t0
    let x2y2z2w2 := SSE.add t1 t2
    let t0 := SSE.shuffle r0 r1 1 2 2 1
    let t1 := SSE.shuffle r1 r2 1 0 0 0
    let t1 := SSE.perm t1 1 3 2 0
    let xyxzyz := SSE.add t0 t1
    let t0 := SSE.shuffle r2 r1 0 0 0 1
    let t1 := SSE.shuffle r1 r0 1 2 2 2
    let t1 := SSE.perm t1 1 3 2 0
    let xwywzw := SSE.sub t0 t1
    let xwywzw := SSE.mul XMMPMP xwywzw
    let t0 := SSE.shuffle x2y2z2w2 xyxzyz 0 0 1 0
    let t1 := SSE.shuffle x2y2z2w2 xwywzw 0 2 3 2
    let t2 := SSE.shuffle xyxzyz xwywzw 1 0 2 1
    let tensor0 := SSE.shuffle t0 t2 2 0 2 0
    let tensor1 := SSE.shuffle t0 t2 3 1 1 2
    let tensor2 := SSE.shuffle t2 t1 2 0 1 0
    let tensor3 := SSE.shuffle t2 t1 1 2 3 2
    let t0 := SSE.and x2gey2 tensor0
    let t1 := SSE.andnot x2gey2 tensor1
    let t0 := SSE.or t0 t1
    let t1 := SSE.and z2gew2 tensor2
    let t2 := SSE.andnot z2gew2 tensor3
    let t1 := SSE.or t1 t2
    let t0 := SSE.and x2py2gez2pw2 t0
    let t1 := SSE.andnot x2py2gez2pw2 t1
    let t2 := SSE.or t0 t1
    let t0 := XMVector4Length c t2
    SSE.div t2 t0
  else
    let r22 := M.r2.z
    if Lane.le r22 c0 then
      let dif10 := Lane.sub M.r1.y M.r0.x
      let omr22 := Lane.sub c1 r22
      if Lane.le dif10 c0 then
        let fourXSqr := Lane.sub omr22 dif10
        let inv4x := Lane.div cHalf (Lane.sqrt fourXSqr)
        ⟨Lane.mul fourXSqr inv4x, Lane.mul (Lane.add M.r0.y M.r1.x) inv4x,
         Lane.mul (Lane.add M.r0.z M.r2.x) inv4x, Lane.mul (Lane.sub M.r1.z M.r2.y) inv4x⟩
      else
        let fourYSqr := Lane.add omr22 dif10
        let inv4y := Lane.div cHalf (Lane.sqrt fourYSqr)
        ⟨Lane.mul (Lane.add M.r0.y M.r1.x) inv4y, Lane.mul fourYSqr inv4y,
         Lane.mul (Lane.add M.r1.z M.r2.y) inv4y, Lane.mul (Lane.sub M.r2.x M.r0.z) inv4y⟩
    else
      let sum10 := Lane.add M.r1.y M.r0.x
      let opr22 := Lane.add c1 r22
      if Lane.le sum10 c0 then
        let fourZSqr := Lane.sub opr22 sum10
        let inv4z := Lane.div cHalf (Lane.sqrt fourZSqr)
        ⟨Lane.mul (Lane.add M.r0.z M.r2.x) inv4z, Lane.mul (Lane.add M.r1.z M.r2.y) inv4z,
         Lane.mul fourZSqr inv4z, Lane.mul (Lane.sub M.r0.y M.r1.x) inv4z⟩
      else
        let fourWSqr := Lane.add opr22 sum10
        let inv4w := Lane.div cHalf (Lane.sqrt fourWSqr)
        ⟨Lane.mul (Lane.sub M.r1.z M.r2.y) inv4w, Lane.mul (Lane.sub M.r2.x M.r0.z) inv4w,
         Lane.mul (Lane.sub M.r0.y M.r1.x) inv4w, Lane.mul fourWSqr inv4w⟩
/-- misc.rs:1623-1631; returns (axis, angle). -/
def XMQuaternionToAxisAngle (Q : V4 α) : V4 α × α := (Q, Lane.mul c2 (XMScalarACos Q.w))
end quaternion

section plane
/-- misc.rs:1987-2042.  The two SSE bodies are identical (both use `_mm_dp_ps`). -/
def XMPlaneNormalize (c : Cfg) (P : V4 α) : V4 α :=
  if c.sse then
    let vLengthSq := SSE.dp7f P P
    let vR := SSE.sqrt vLengthSq
    let vLengthSq := SSE.cmpneq vLengthSq g_XMInfinity
    let vR := SSE.div P vR
    SSE.and vR vLengthSq
  else
    let fLengthSq := Lane.sqrt (Lane.add (Lane.add (Lane.mul P.x P.x) (Lane.mul P.y P.y)) (Lane.mul P.z P.z))
    let fLengthSq := if gt fLengthSq c0 then Lane.div c1 fLengthSq else fLengthSq
    .map (fun v => Lane.mul v fLengthSq) P
/-- misc.rs:1657-1663 -/
def XMPlaneEqual (c : Cfg) (P1 P2 : V4 α) : Bool := XMVector4Equal c P1 P2
/-- misc.rs:1692-1701 -/
def XMPlaneNearEqual (c : Cfg) (P1 P2 Epsilon : V4 α) : Bool :=
  XMVector4NearEqual c (XMPlaneNormalize c P1) (XMPlaneNormalize c P2) Epsilon
/-- misc.rs:1727-1733 -/
def XMPlaneNotEqual (c : Cfg) (P1 P2 : V4 α) : Bool := XMVector4NotEqual c P1 P2
/-- misc.rs:1749-1754 -/
def XMPlaneIsNaN (c : Cfg) (P : V4 α) : Bool := XMVector4IsNaN c P
/-- misc.rs:1770-1775 -/
def XMPlaneIsInfinite (c : Cfg) (P : V4 α) : Bool := XMVector4IsInfinite c P
/-- misc.rs:1799-1805 -/
def XMPlaneDot (c : Cfg) (P V : V4 α) : V4 α := XMVector4Dot c P V
/-- misc.rs:1840-1851 -/
def XMPlaneDotCoord (c : Cfg) (P V : V4 α) : V4 α := XMVector4Dot c P (XMVectorSelect g_XMOne V g_XMSelect1110)
/-- misc.rs:1888-1894 -/
def XMPlaneDotNormal (c : Cfg) (P V : V4 α) : V4 α := XMVector3Dot c P V
/-- misc.rs:2063-2085 -/
def XMPlaneIntersectLine (c : Cfg) (P LinePoint1 LinePoint2 : V4 α) : V4 α :=
  let V1 := XMVector3Dot c P LinePoint1
  let V2 := XMVector3Dot c P LinePoint2
  let D := XMVectorSubtract V1 V2
  let VT := XMPlaneDotCoord c P LinePoint1
  let VT := XMVectorDivide VT D
  let Point := XMVectorSubtract LinePoint2 LinePoint1
  let Point := XMVectorMultiplyAdd c Point VT LinePoint1
  let Control := XMVectorNearEqual c D XMVectorZero g_XMEpsilon
  XMVectorSelect Point g_XMQNaN Control
/-- misc.rs:2113-2142; returns the two line points. -/
def XMPlaneIntersectPlane (c : Cfg) (P1 P2 : V4 α) : V4 α × V4 α :=
  let V1 := XMVector3Cross c P2 P1
  let LengthSq := XMVector3LengthSq c V1
  let V2 := XMVector3Cross c P2 V1
  let P1W := XMVectorSplatW c P1
  let Point := XMVectorMultiply V2 P1W
  let V3 := XMVector3Cross c V1 P1
  let P2W := XMVectorSplatW c P2
  let Point := XMVectorMultiplyAdd c V3 P2W Point
  let LinePoint1 := XMVectorDivide Point LengthSq
  let LinePoint2 := XMVectorAdd LinePoint1 V1
  let Control := XMVectorLessOrEqual LengthSq g_XMEpsilon
  (XMVectorSelect LinePoint1 g_XMQNaN Control, XMVectorSelect LinePoint2 g_XMQNaN Control)
/-- misc.rs:2162-2178 -/
def XMPlaneTransform (c : Cfg) (P : V4 α) (M : M4 α) : V4 α :=
  let W := XMVectorSplatW c P
  let Z := XMVectorSplatZ c P
  let Y := XMVectorSplatY c P
  let X := XMVectorSplatX c P
  let Result := XMVectorMultiply W M.r3
  let Result := XMVectorMultiplyAdd c Z M.r2 Result
  let Result := XMVectorMultiplyAdd c Y M.r1 Result
  XMVectorMultiplyAdd c X M.r0 Result
/-- misc.rs:2215-2224 -/
def XMPlaneFromPointNormal (c : Cfg) (Point Normal : V4 α) : V4 α :=
  let W := XMVector3Dot c Point Normal
  let W := XMVectorNegate c W
  XMVectorSelect W Normal g_XMSelect1110
/-- misc.rs:2271-2290 -/
def XMPlaneFromPoints (c : Cfg) (Point1 Point2 Point3 : V4 α) : V4 α :=
  let V21 := XMVectorSubtract Point1 Point2
  let V31 := XMVectorSubtract Point1 Point3
  let N := XMVector3Cross c V21 V31
  let N := XMVector3Normalize c N
  let D := XMPlaneDotNormal c N Point1
  let D := XMVectorNegate c D
  XMVectorSelect D N g_XMSelect1110
/-- misc.rs:2339-2424 -/
def XMFresnelTerm (c : Cfg) (CosIncidentAngle RefractionIndex : V4 α) : V4 α :=
  if c.sse then
    let G := SSE.mul RefractionIndex RefractionIndex
    let vTemp := SSE.mul CosIncidentAngle CosIncidentAngle
    let G := SSE.sub G g_XMOne
    let vTemp := SSE.add vTemp G
    let G := SSE.setzero
    let G := SSE.sub G vTemp
    let G := SSE.max G vTemp
    let G := SSE.sqrt G
    let GAddC := SSE.add G CosIncidentAngle
    let GSubC := SSE.sub G CosIncidentAngle
    let vR := SSE.mul GSubC GSubC
    let vTemp := SSE.mul GAddC GAddC
    let vR := SSE.mul vR g_XMOneHalf
    let vR := SSE.div vR vTemp
    let GAddC := SSE.mul GAddC CosIncidentAngle
    let GSubC := SSE.mul GSubC CosIncidentAngle
    let GAddC := SSE.sub GAddC g_XMOne
    let GSubC := SSE.add GSubC g_XMOne
    let GAddC := SSE.mul GAddC GAddC
    let GSubC := SSE.mul GSubC GSubC
    let GAddC := SSE.div GAddC GSubC
    let GAddC := SSE.add GAddC g_XMOne
    let vR := SSE.mul vR GAddC
    let vR := SSE.max vR g_XMZero
    SSE.min vR g_XMOne
  else
    let G := XMVectorMultiplyAdd c RefractionIndex RefractionIndex g_XMNegativeOne
    let G := XMVectorMultiplyAdd c CosIncidentAngle CosIncidentAngle G
    let G := XMVectorAbs c G
    let G := XMVectorSqrt G
    let S := XMVectorAdd G CosIncidentAngle
    let D := XMVectorSubtract G CosIncidentAngle
    let V0 := XMVectorMultiply D D
    let V1 := XMVectorMultiply S S
    let V1 := XMVectorReciprocal V1
    let V0 := XMVectorMultiply g_XMOneHalf V0
    let V0 := XMVectorMultiply V0 V1
    let V2 := XMVectorMultiplyAdd c CosIncidentAngle S g_XMNegativeOne
    let V3 := XMVectorMultiplyAdd c CosIncidentAngle D g_XMOne
    let V2 := XMVectorMultiply V2 V2
    let V3 := XMVectorMultiply V3 V3
    let V3 := XMVectorReciprocal V3
    let V2 := XMVectorMultiplyAdd c V2 V3 g_XMOne
    let Result := XMVectorMultiply V0 V2
    XMVectorSaturate c Result
end plane

end DXM
