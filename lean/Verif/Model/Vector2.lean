import Verif.Model.Vector1

/-
src/vector.rs, part 2 (lines 4810-7256): modulo, trigonometry, interpolation.
-/

namespace DXM
open Lane
variable {α : Type} [Lane α]

/-- vector.rs:4810-4835 -/
def XMVectorMod (c : Cfg) (V1 V2 : V4 α) : V4 α :=
  if c.sse then
    let vR := SSE.div V1 V2
    let vR := XMVectorTruncate c vR
    SSE.fnmadd c vR V2 V1
  else
    let Quotient := XMVectorDivide V1 V2
    let Quotient := XMVectorTruncate c Quotient
    XMVectorNegativeMultiplySubtract c V2 Quotient V1
/-- vector.rs:4867-4897 -/
def XMVectorModAngles (c : Cfg) (Angles : V4 α) : V4 α :=
  if c.sse then
    let vR := SSE.mul Angles g_XMReciprocalTwoPi
    let vR := XMVectorRound c vR
    SSE.fnmadd c vR g_XMTwoPi Angles
  else
    let V := XMVectorMultiply Angles g_XMReciprocalTwoPi
    let V := XMVectorRound c V
    XMVectorNegativeMultiplySubtract c g_XMTwoPi V Angles

/-- The range reduction shared by Sin/Cos/SinCos and their Est forms (SSE; vector.rs:4945-4957, 5039-5054, 5151-5166,
5922-5934, 6000-6015, 6098-6113): the reflected angle and the cosine sign. -/
def trigReduce (c : Cfg) (V : V4 α) : V4 α × V4 α :=
  let x := XMVectorModAngles c V
  let sign := SSE.and x g_XMNegativeZero
  let cc := SSE.or g_XMPi sign
  let absx := SSE.andnot sign x
  let rflx := SSE.sub cc x
  let comp := SSE.cmple absx g_XMHalfPi
  let select0 := SSE.and comp x
  let select1 := SSE.andnot comp rflx
  let x := SSE.or select0 select1
  let select0 := SSE.and comp g_XMOne
  let select1 := SSE.andnot comp g_XMNegativeOne
  (x, SSE.or select0 select1)

/-- vector.rs:4960-4976 (also 5169-5186) -/
def sinPoly (c : Cfg) (x : V4 α) : V4 α :=
  let x2 := SSE.mul x x
  let R := SSE.fmadd c (SSE.perm g_XMSinCoefficients1 0 0 0 0) x2 (SSE.perm g_XMSinCoefficients0 3 3 3 3)
  let R := SSE.fmadd c R x2 (SSE.perm g_XMSinCoefficients0 2 2 2 2)
  let R := SSE.fmadd c R x2 (SSE.perm g_XMSinCoefficients0 1 1 1 1)
  let R := SSE.fmadd c R x2 (SSE.perm g_XMSinCoefficients0 0 0 0 0)
  let R := SSE.fmadd c R x2 g_XMOne
  SSE.mul R x
/-- vector.rs:5057-5073 (also 5189-5206) -/
def cosPoly (c : Cfg) (x sign : V4 α) : V4 α :=
  let x2 := SSE.mul x x
  let R := SSE.fmadd c (SSE.perm g_XMCosCoefficients1 0 0 0 0) x2 (SSE.perm g_XMCosCoefficients0 3 3 3 3)
  let R := SSE.fmadd c R x2 (SSE.perm g_XMCosCoefficients0 2 2 2 2)
  let R := SSE.fmadd c R x2 (SSE.perm g_XMCosCoefficients0 1 1 1 1)
  let R := SSE.fmadd c R x2 (SSE.perm g_XMCosCoefficients0 0 0 0 0)
  let R := SSE.fmadd c R x2 g_XMOne
  SSE.mul R sign
/-- vector.rs:4918-4977 -/
def XMVectorSin (c : Cfg) (V : V4 α) : V4 α := if c.sse then sinPoly c (trigReduce c V).1 else .map sin V
/-- vector.rs:5012-5074 -/
def XMVectorCos (c : Cfg) (V : V4 α) : V4 α :=
  if c.sse then let r := trigReduce c V; cosPoly c r.1 r.2 else .map cos V
/-- vector.rs:5113-5206; returns (sin, cos). -/
def XMVectorSinCos (c : Cfg) (V : V4 α) : V4 α × V4 α :=
  if c.sse then let r := trigReduce c V; (sinPoly c r.1, cosPoly c r.1 r.2) else (.map sin V, .map cos V)

/-- vector.rs:5245-5247 local constants of XMVectorTan. -/
def TanCoefficients0 : V4 α := ⟨ofBits 0x3F800000#32, ofBits 0xBEEEF582#32, ofBits 0x3CD23CF5#32, ofBits 0xB9A37B25#32⟩
def TanCoefficients1 : V4 α := ⟨ofBits 0x3505BBA8#32, ofBits 0xBE0895AF#32, ofBits 0x3B607415#32, ofBits 0xB795D5B9#32⟩
def TanConstants : V4 α := ⟨ofBits 0x3FC90FDB#32, ofBits 0x2E85A309#32, ofBits 0x39800000#32, ofBits 0x3F22F983#32⟩
/-- vector.rs:5224-5326.  `VBIsEven` (lines 5276, 5299-5300) is read through the lane primitive `evenI`. -/
def XMVectorTan (c : Cfg) (V : V4 α) : V4 α :=
  if c.sse then
    let TwoDivPi := XMVectorSplatW c TanConstants
    let Zero := XMVectorZero
    let C0 := XMVectorSplatX c TanConstants
    let C1 := XMVectorSplatY c TanConstants
    let Epsilon := XMVectorSplatZ c TanConstants
    let VA := XMVectorMultiply V TwoDivPi
    let VA := XMVectorRound c VA
    let VC := XMVectorNegativeMultiplySubtract c VA C0 V
    let VB := XMVectorAbs c VA
    let VC := XMVectorNegativeMultiplySubtract c VA C1 VC
    let VC2 := XMVectorMultiply VC VC
    let T7 := XMVectorSplatW c TanCoefficients1
    let T6 := XMVectorSplatZ c TanCoefficients1
    let T4 := XMVectorSplatX c TanCoefficients1
    let T3 := XMVectorSplatW c TanCoefficients0
    let T5 := XMVectorSplatY c TanCoefficients1
    let T2 := XMVectorSplatZ c TanCoefficients0
    let T1 := XMVectorSplatY c TanCoefficients0
    let T0 := XMVectorSplatX c TanCoefficients0
    let VBIsEven : V4 α := VB.map (fun v => mask (evenI v))
    let N := XMVectorMultiplyAdd c VC2 T7 T6
    let D := XMVectorMultiplyAdd c VC2 T4 T3
    let N := XMVectorMultiplyAdd c VC2 N T5
    let D := XMVectorMultiplyAdd c VC2 D T2
    let N := XMVectorMultiply VC2 N
    let D := XMVectorMultiplyAdd c VC2 D T1
    let N := XMVectorMultiplyAdd c VC N VC
    let VCNearZero := XMVectorInBounds c VC Epsilon
    let D := XMVectorMultiplyAdd c VC2 D T0
    let N := XMVectorSelect N VC VCNearZero
    let D := XMVectorSelect D g_XMOne VCNearZero
    let R0 := XMVectorNegate c N
    let R1 := XMVectorDivide N D
    let R0 := XMVectorDivide D R0
    let VIsZero := XMVectorEqual V Zero
    let Result := XMVectorSelect R0 R1 VBIsEven
    XMVectorSelect Result Zero VIsZero
  else .map tan V

/-- The two arc polynomials share this shape (SSE; 5534-5572, 5622-5660): `t0` = acos V. -/
def arcPoly (c : Cfg) (V : V4 α) : V4 α :=
  let nonnegative := SSE.cmpge V g_XMZero
  let mvalue := SSE.sub g_XMZero V
  let x := SSE.max V mvalue
  let oneMValue := SSE.sub g_XMOne x
  let clampOneMValue := SSE.max g_XMZero oneMValue
  let root := SSE.sqrt clampOneMValue
  let t0 := SSE.fmadd c (SSE.perm g_XMArcCoefficients1 3 3 3 3) x (SSE.perm g_XMArcCoefficients1 2 2 2 2)
  let t0 := SSE.fmadd c t0 x (SSE.perm g_XMArcCoefficients1 1 1 1 1)
  let t0 := SSE.fmadd c t0 x (SSE.perm g_XMArcCoefficients1 0 0 0 0)
  let t0 := SSE.fmadd c t0 x (SSE.perm g_XMArcCoefficients0 3 3 3 3)
  let t0 := SSE.fmadd c t0 x (SSE.perm g_XMArcCoefficients0 2 2 2 2)
  let t0 := SSE.fmadd c t0 x (SSE.perm g_XMArcCoefficients0 1 1 1 1)
  let t0 := SSE.fmadd c t0 x (SSE.perm g_XMArcCoefficients0 0 0 0 0)
  let t0 := SSE.mul t0 root
  let t1 := SSE.sub g_XMPi t0
  let t0 := SSE.and nonnegative t0
  let t1 := SSE.andnot nonnegative t1
  SSE.or t0 t1
/-- vector.rs:5508-5574 -/
def XMVectorASin (c : Cfg) (V : V4 α) : V4 α := if c.sse then SSE.sub g_XMHalfPi (arcPoly c V) else .map asin V
/-- vector.rs:5596-5661 -/
def XMVectorACos (c : Cfg) (V : V4 α) : V4 α := if c.sse then arcPoly c V else .map acos V

/-- vector.rs:5709-5723 and 6409-6423: `(x, sign)` of ATan / ATanEst (SSE). -/
def atanReduce (c : Cfg) (V : V4 α) : V4 α × V4 α :=
  let absV := XMVectorAbs c V
  let invV := SSE.div g_XMOne V
  let comp := SSE.cmpgt V g_XMOne
  let select0 := SSE.and comp g_XMOne
  let select1 := SSE.andnot comp g_XMNegativeOne
  let sign := SSE.or select0 select1
  let comp := SSE.cmple absV g_XMOne
  let select0 := SSE.and comp g_XMZero
  let select1 := SSE.andnot comp sign
  let sign := SSE.or select0 select1
  let select0 := SSE.and comp V
  let select1 := SSE.andnot comp invV
  (SSE.or select0 select1, sign)
/-- vector.rs:5753-5760 and 6439-6446 -/
def atanFinish (sign Result : V4 α) : V4 α :=
  let result1 := SSE.mul sign g_XMHalfPi
  let result1 := SSE.sub result1 Result
  let comp := SSE.cmpeq sign g_XMZero
  let select0 := SSE.and comp Result
  let select1 := SSE.andnot comp result1
  SSE.or select0 select1
/-- vector.rs:5683-5760 -/
def XMVectorATan (c : Cfg) (V : V4 α) : V4 α :=
  if c.sse then
    let r := atanReduce c V
    let x := r.1
    let x2 := SSE.mul x x
    let R := SSE.fmadd c (SSE.perm g_XMATanCoefficients1 3 3 3 3) x2 (SSE.perm g_XMATanCoefficients1 2 2 2 2)
    let R := SSE.fmadd c R x2 (SSE.perm g_XMATanCoefficients1 1 1 1 1)
    let R := SSE.fmadd c R x2 (SSE.perm g_XMATanCoefficients1 0 0 0 0)
    let R := SSE.fmadd c R x2 (SSE.perm g_XMATanCoefficients0 3 3 3 3)
    let R := SSE.fmadd c R x2 (SSE.perm g_XMATanCoefficients0 2 2 2 2)
    let R := SSE.fmadd c R x2 (SSE.perm g_XMATanCoefficients0 1 1 1 1)
    let R := SSE.fmadd c R x2 (SSE.perm g_XMATanCoefficients0 0 0 0 0)
    let R := SSE.fmadd c R x2 g_XMOne
    atanFinish r.2 (SSE.mul R x)
  else .map atan V

/-- vector.rs:5830 / 6508 `[XM_PI, XM_PIDIV2, XM_PIDIV4, XM_PI * 3.0 / 4.0]` -/
def ATan2Constants : V4 α := ⟨XM_PI, XM_PIDIV2, XM_PIDIV4, Lane.div (Lane.mul XM_PI (ofBits 0x40400000#32)) (ofBits 0x40800000#32)⟩
/-- vector.rs:5832-5868 with the arctangent of the quotient as an argument (`atan` applied to `V`); shared with ATan2Est 6510-6546. -/
def atan2Body (c : Cfg) (Y X : V4 α) (R0 : V4 α) : V4 α :=
  let Zero := XMVectorZero
  let ATanResultValid := XMVectorTrueInt
  let Pi := XMVectorSplatX c ATan2Constants
  let PiOverTwo := XMVectorSplatY c ATan2Constants
  let PiOverFour := XMVectorSplatZ c ATan2Constants
  let ThreePiOverFour := XMVectorSplatW c ATan2Constants
  let YEqualsZero := XMVectorEqual Y Zero
  let XEqualsZero := XMVectorEqual X Zero
  let XIsPositive := XMVectorAndInt X g_XMNegativeZero
  let XIsPositive := XMVectorEqualInt XIsPositive Zero
  let YEqualsInfinity := XMVectorIsInfinite c Y
  let XEqualsInfinity := XMVectorIsInfinite c X
  let YSign := XMVectorAndInt Y g_XMNegativeZero
  let Pi := XMVectorOrInt Pi YSign
  let PiOverTwo := XMVectorOrInt PiOverTwo YSign
  let PiOverFour := XMVectorOrInt PiOverFour YSign
  let ThreePiOverFour := XMVectorOrInt ThreePiOverFour YSign
  let R1 := XMVectorSelect Pi YSign XIsPositive
  let R2 := XMVectorSelect ATanResultValid PiOverTwo XEqualsZero
  let R3 := XMVectorSelect R2 R1 YEqualsZero
  let R4 := XMVectorSelect ThreePiOverFour PiOverFour XIsPositive
  let R5 := XMVectorSelect PiOverTwo R4 XEqualsInfinity
  let Result := XMVectorSelect R3 R5 YEqualsInfinity
  let ATanResultValid := XMVectorEqualInt Result ATanResultValid
  let R1 := XMVectorSelect Pi g_XMNegativeZero XIsPositive
  let R2 := XMVectorAdd R0 R1
  XMVectorSelect Result R2 ATanResultValid
/-- vector.rs:5798-5868 -/
def XMVectorATan2 (c : Cfg) (Y X : V4 α) : V4 α :=
  if c.sse then atan2Body c Y X (XMVectorATan c (XMVectorDivide Y X)) else .map2 atan2 Y X

/-- vector.rs:5937-5945 -/
def sinEstPoly (c : Cfg) (x : V4 α) : V4 α :=
  let x2 := SSE.mul x x
  let R := SSE.fmadd c (SSE.perm g_XMSinCoefficients1 3 3 3 3) x2 (SSE.perm g_XMSinCoefficients1 2 2 2 2)
  let R := SSE.fmadd c R x2 (SSE.perm g_XMSinCoefficients1 1 1 1 1)
  let R := SSE.fmadd c R x2 g_XMOne
  SSE.mul R x
/-- vector.rs:6018-6026 -/
def cosEstPoly (c : Cfg) (x sign : V4 α) : V4 α :=
  let x2 := SSE.mul x x
  let R := SSE.fmadd c (SSE.perm g_XMCosCoefficients1 3 3 3 3) x2 (SSE.perm g_XMCosCoefficients1 2 2 2 2)
  let R := SSE.fmadd c R x2 (SSE.perm g_XMCosCoefficients1 1 1 1 1)
  let R := SSE.fmadd c R x2 g_XMOne
  SSE.mul R sign
/-- vector.rs:5895-5946 -/
def XMVectorSinEst (c : Cfg) (V : V4 α) : V4 α := if c.sse then sinEstPoly c (trigReduce c V).1 else .map sin V
/-- vector.rs:5973-6027 -/
def XMVectorCosEst (c : Cfg) (V : V4 α) : V4 α := if c.sse then let r := trigReduce c V; cosEstPoly c r.1 r.2 else .map cos V
/-- vector.rs:6060-6137 -/
def XMVectorSinCosEst (c : Cfg) (V : V4 α) : V4 α × V4 α :=
  if c.sse then let r := trigReduce c V; (sinEstPoly c r.1, cosEstPoly c r.1 r.2) else (.map sin V, .map cos V)
/-- vector.rs:6161-6204 -/
def XMVectorTanEst (c : Cfg) (V : V4 α) : V4 α :=
  if c.sse then
    let OneOverPi := XMVectorSplatW c g_XMTanEstCoefficients
    let V1 := XMVectorMultiply V OneOverPi
    let V1 := XMVectorRound c V1
    let V1 := XMVectorNegativeMultiplySubtract c g_XMPi V1 V
    let T0 := XMVectorSplatX c g_XMTanEstCoefficients
    let T1 := XMVectorSplatY c g_XMTanEstCoefficients
    let T2 := XMVectorSplatZ c g_XMTanEstCoefficients
    let V2T2 := XMVectorNegativeMultiplySubtract c V1 V1 T2
    let V2 := XMVectorMultiply V1 V1
    let V1T0 := XMVectorMultiply V1 T0
    let V1T1 := XMVectorMultiply V1 T1
    let D := XMVectorReciprocalEst c V2T2
    let N := XMVectorMultiplyAdd c V2 V1T1 V1T0
    XMVectorMultiply N D
  else .map tan V
/-- vector.rs:6254-6279 and 6332-6357 -/
def arcEstPoly (c : Cfg) (V : V4 α) : V4 α :=
  let nonnegative := SSE.cmpge V g_XMZero
  let mvalue := SSE.sub g_XMZero V
  let x := SSE.max V mvalue
  let oneMValue := SSE.sub g_XMOne x
  let clampOneMValue := SSE.max g_XMZero oneMValue
  let root := SSE.sqrt clampOneMValue
  let t0 := SSE.fmadd c (SSE.perm g_XMArcEstCoefficients 3 3 3 3) x (SSE.perm g_XMArcEstCoefficients 2 2 2 2)
  let t0 := SSE.fmadd c t0 x (SSE.perm g_XMArcEstCoefficients 1 1 1 1)
  let t0 := SSE.fmadd c t0 x (SSE.perm g_XMArcEstCoefficients 0 0 0 0)
  let t0 := SSE.mul t0 root
  let t1 := SSE.sub g_XMPi t0
  let t0 := SSE.and nonnegative t0
  let t1 := SSE.andnot nonnegative t1
  SSE.or t0 t1
/-- vector.rs:6230-6281 -/
def XMVectorASinEst (c : Cfg) (V : V4 α) : V4 α := if c.sse then SSE.sub g_XMHalfPi (arcEstPoly c V) else .map asin V
/-- vector.rs:6308-6358 -/
def XMVectorACosEst (c : Cfg) (V : V4 α) : V4 α := if c.sse then arcEstPoly c V else .map acos V
/-- vector.rs:6385-6446 -/
def XMVectorATanEst (c : Cfg) (V : V4 α) : V4 α :=
  if c.sse then
    let r := atanReduce c V
    let x := r.1
    let x2 := SSE.mul x x
    let R := SSE.fmadd c (SSE.perm g_XMATanEstCoefficients1 3 3 3 3) x2 (SSE.perm g_XMATanEstCoefficients1 2 2 2 2)
    let R := SSE.fmadd c R x2 (SSE.perm g_XMATanEstCoefficients1 1 1 1 1)
    let R := SSE.fmadd c R x2 (SSE.perm g_XMATanEstCoefficients1 0 0 0 0)
    let R := SSE.fmadd c R x2 g_XMATanEstCoefficients0
    atanFinish r.2 (SSE.mul R x)
  else .map atan V
/-- vector.rs:6488-6546 -/
def XMVectorATan2Est (c : Cfg) (Y X : V4 α) : V4 α :=
  if c.sse then atan2Body c Y X (XMVectorATanEst c (XMVectorMultiply Y (XMVectorReciprocalEst c X))) else .map2 atan2 Y X

/-- vector.rs:6657-6680 -/
def XMVectorLerpV (c : Cfg) (V0 V1 T : V4 α) : V4 α :=
  if c.sse then SSE.fmadd c (SSE.sub V1 V0) T V0 else XMVectorMultiplyAdd c (XMVectorSubtract V1 V0) T V0
/-- vector.rs:6596-6621 -/
def XMVectorLerp (c : Cfg) (V0 V1 : V4 α) (t : α) : V4 α :=
  if c.sse then SSE.fmadd c (SSE.sub V1 V0) (.splat t) V0
  else XMVectorMultiplyAdd c (XMVectorSubtract V1 V0) (XMVectorReplicate t) V0

/-- Scalar literals used below: 3.0, 4.0, 5.0, -2.0, -3.0. -/
def c3 : α := ofBits 0x40400000#32
def c4 : α := ofBits 0x40800000#32
def c5 : α := ofBits 0x40A00000#32
def cNeg2 : α := ofBits 0xC0000000#32
def cNeg3 : α := ofBits 0xC0400000#32

/-- The four Hermite weights as written at vector.rs:6751-6754 / 6774-6777: `2t3-3t2+1`, `t3-2t2+t`, `-2t3+3t2`, `t3-t2`. -/
def hermiteP0 (t2 t3 : α) : α := Lane.add (Lane.sub (Lane.mul c2 t3) (Lane.mul c3 t2)) c1
def hermiteT0 (t t2 t3 : α) : α := Lane.add (Lane.sub t3 (Lane.mul c2 t2)) t
def hermiteP1 (t2 t3 : α) : α := Lane.add (Lane.mul cNeg2 t3) (Lane.mul c3 t2)
def hermiteT1 (t2 t3 : α) : α := Lane.sub t3 t2
/-- vector.rs:6733-6784 -/
def XMVectorHermite (c : Cfg) (Position0 Tangent0 Position1 Tangent1 : V4 α) (t : α) : V4 α :=
  let t2 := Lane.mul t t
  let t3 := Lane.mul t t2
  let P0 := V4.splat (hermiteP0 t2 t3)
  let T0 := V4.splat (hermiteT0 t t2 t3)
  let P1 := V4.splat (hermiteP1 t2 t3)
  let T1 := V4.splat (hermiteT1 t2 t3)
  if c.sse then
    let vR := SSE.mul P0 Position0
    let vR := SSE.fmadd c Tangent0 T0 vR
    let vR := SSE.fmadd c Position1 P1 vR
    SSE.fmadd c Tangent1 T1 vR
  else
    let R := XMVectorMultiply P0 Position0
    let R := XMVectorMultiplyAdd c T0 Tangent0 R
    let R := XMVectorMultiplyAdd c P1 Position1 R
    XMVectorMultiplyAdd c T1 Tangent1 R
/-- vector.rs:6827-6894 -/
def XMVectorHermiteV (c : Cfg) (Position0 Tangent0 Position1 Tangent1 T : V4 α) : V4 α :=
  if c.sse then
    let CatMulT2 : V4 α := ⟨cNeg3, cNeg2, c3, cNeg1⟩
    let CatMulT3 : V4 α := ⟨c2, c1, cNeg2, c1⟩
    let T2 := SSE.mul T T
    let T3 := SSE.mul T T2
    let T2 := SSE.mul T2 CatMulT2
    let T3 := SSE.fmadd c T3 CatMulT3 T2
    let T2 := SSE.and T g_XMMaskY
    let T3 := SSE.add T3 T2
    let T3 := SSE.add T3 g_XMIdentityR0
    let vR := SSE.perm T3 0 0 0 0
    let vR := SSE.mul vR Position0
    let vR := SSE.fmadd c (SSE.perm T3 1 1 1 1) Tangent0 vR
    let vR := SSE.fmadd c (SSE.perm T3 2 2 2 2) Position1 vR
    SSE.fmadd c (SSE.perm T3 3 3 3 3) Tangent1 vR
  else
    let T2 := XMVectorMultiply T T
    let T3 := XMVectorMultiply T T2
    let P0 := XMVectorReplicate (hermiteP0 T2.x T3.x)
    let T0 := XMVectorReplicate (hermiteT0 T.y T2.y T3.y)
    let P1 := XMVectorReplicate (hermiteP1 T2.z T3.z)
    let T1 := XMVectorReplicate (hermiteT1 T2.w T3.w)
    let R := XMVectorMultiply P0 Position0
    let R := XMVectorMultiplyAdd c T0 Tangent0 R
    let R := XMVectorMultiplyAdd c P1 Position1 R
    XMVectorMultiplyAdd c T1 Tangent1 R
/-- vector.rs:6940-6992 -/
def XMVectorCatmullRom (c : Cfg) (Position0 Position1 Position2 Position3 : V4 α) (t : α) : V4 α :=
  let t2 := Lane.mul t t
  let t3 := Lane.mul t t2
  let P0 := V4.splat (Lane.mul (Lane.sub (Lane.add (neg t3) (Lane.mul c2 t2)) t) cHalf)
  let P1 := V4.splat (Lane.mul (Lane.add (Lane.sub (Lane.mul c3 t3) (Lane.mul c5 t2)) c2) cHalf)
  let P2 := V4.splat (Lane.mul (Lane.add (Lane.add (Lane.mul cNeg3 t3) (Lane.mul c4 t2)) t) cHalf)
  let P3 := V4.splat (Lane.mul (Lane.sub t3 t2) cHalf)
  if c.sse then
    let P1 := SSE.mul Position1 P1
    let P0 := SSE.fmadd c Position0 P0 P1
    let P3 := SSE.mul Position3 P3
    let P2 := SSE.fmadd c Position2 P2 P3
    SSE.add P0 P2
  else
    let R := XMVectorMultiply P0 Position0
    let R := XMVectorMultiplyAdd c P1 Position1 R
    let R := XMVectorMultiplyAdd c P2 Position2 R
    XMVectorMultiplyAdd c P3 Position3 R
/-- One lane of the NOI CatmullRomV, vector.rs:7046-7049. -/
def catmullLane (f p0 p1 p2 p3 : α) : α :=
  let a := Lane.sub (Lane.add (Lane.mul (Lane.mul (neg f) f) f) (Lane.mul (Lane.mul c2 f) f)) f
  let b := Lane.add (Lane.sub (Lane.mul (Lane.mul (Lane.mul c3 f) f) f) (Lane.mul (Lane.mul c5 f) f)) c2
  let d := Lane.add (Lane.add (Lane.mul (Lane.mul (Lane.mul cNeg3 f) f) f) (Lane.mul (Lane.mul c4 f) f)) f
  let e := Lane.sub (Lane.mul (Lane.mul f f) f) (Lane.mul f f)
  Lane.mul cHalf (Lane.add (Lane.add (Lane.add (Lane.mul a p0) (Lane.mul b p1)) (Lane.mul d p2)) (Lane.mul e p3))
/-- vector.rs:7026-7103 -/
def XMVectorCatmullRomV (c : Cfg) (Position0 Position1 Position2 Position3 T : V4 α) : V4 α :=
  if c.sse then
    let T2 := SSE.mul T T
    let T3 := SSE.mul T T2
    let vR := SSE.add T2 T2
    let vR := SSE.sub vR T
    let vR := SSE.sub vR T3
    let vR := SSE.mul vR Position0
    let vTemp := SSE.mul T3 (.splat c3)
    let vTemp := SSE.fnmadd c T2 (.splat c5) vTemp
    let vTemp := SSE.add vTemp (.splat c2)
    let vR := SSE.fmadd c vTemp Position1 vR
    let vTemp := SSE.mul T2 (.splat c4)
    let vTemp := SSE.fnmadd c T3 (.splat c3) vTemp
    let vTemp := SSE.add vTemp T
    let vR := SSE.fmadd c vTemp Position2 vR
    let T3 := SSE.sub T3 T2
    let vR := SSE.fmadd c T3 Position3 vR
    SSE.mul vR g_XMOneHalf
  else
    ⟨catmullLane T.x Position0.x Position1.x Position2.x Position3.x, catmullLane T.y Position0.y Position1.y Position2.y Position3.y,
     catmullLane T.z Position0.z Position1.z Position2.z Position3.z, catmullLane T.w Position0.w Position1.w Position2.w Position3.w⟩
/-- vector.rs:7225-7257 -/
def XMVectorBaryCentricV (c : Cfg) (Position0 Position1 Position2 F G : V4 α) : V4 α :=
  if c.sse then
    let R1 := SSE.sub Position1 Position0
    let R2 := SSE.sub Position2 Position0
    let R1 := SSE.fmadd c R1 F Position0
    SSE.fmadd c R2 G R1
  else
    let P10 := XMVectorSubtract Position1 Position0
    let P20 := XMVectorSubtract Position2 Position0
    let R := XMVectorMultiplyAdd c P10 F Position0
    XMVectorMultiplyAdd c P20 G R
/-- vector.rs:7154-7191 (same as BaryCentricV on replicated weights, both builds) -/
def XMVectorBaryCentric (c : Cfg) (Position0 Position1 Position2 : V4 α) (f g : α) : V4 α :=
  if c.sse then
    let R1 := SSE.sub Position1 Position0
    let R2 := SSE.sub Position2 Position0
    let R1 := SSE.fmadd c R1 (.splat f) Position0
    SSE.fmadd c R2 (.splat g) R1
  else
    let P10 := XMVectorSubtract Position1 Position0
    let P20 := XMVectorSubtract Position2 Position0
    let R := XMVectorMultiplyAdd c P10 (.splat f) Position0
    XMVectorMultiplyAdd c P20 (.splat g) R

end DXM
