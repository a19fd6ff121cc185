import Verif.Model.CollisionBox
import Verif.Model.Space
import Verif.Model.Misc

/-
src/collision.rs 2326-3313: `BoundingOrientedBox` (the tests against frusta are in CollisionFrustum.lean), the eigenvector solver it
uses (229-484), and the sphere and box tests against oriented boxes.  `debug_assert!`s are not modelled (they have no effect in release
builds; their conditions are hypotheses of the theorems).
-/

namespace DXM
open Lane
variable {α : Type} [Lane α]

/-- The struct made from an axis-aligned box (collision.rs:2546-2550, 2674-2678): the identity orientation. -/
def orientBox (box_ : BoundingBox α) : BoundingOrientedBox α := ⟨box_.Center, box_.Extents, ⟨c0, c0, c0, c1⟩⟩

/-- `3.0` -/
def k3 : α := ofBits 0x40400000#32
/-- `4.0` -/
def k4 : α := ofBits 0x40800000#32
/-- `27.0` -/
def k27 : α := ofBits 0x41D80000#32
/-- `1e-5` -/
def k1em5 : α := ofBits 0x3727C5AC#32
/-- `1e5` -/
def k1e5 : α := ofBits 0x47C35000#32
/-- `0.1` -/
def k01 : α := ofBits 0x3DCCCCCD#32

/-- collision.rs:229-276; the result is `none` for `false` (t = u = v = 0), otherwise the three roots. -/
def SolveCubic (e f g : α) : Option (α × α × α) :=
  let p := Lane.sub f (Lane.div (Lane.mul e e) k3)
  let q := Lane.add (Lane.sub g (Lane.div (Lane.mul e f) k3)) (Lane.div (Lane.mul (Lane.mul (Lane.mul e e) e) c2) k27)
  let h := Lane.add (Lane.div (Lane.mul q q) k4) (Lane.div (Lane.mul (Lane.mul p p) p) k27)
  if gt h c0 then none
  else if eq h c0 && eq q c0 then
    let r := Lane.div (Lane.neg e) k3
    some (r, r, r)
  else
    let d := Lane.sqrt (Lane.sub (Lane.div (Lane.mul q q) k4) h)
    let rc := if lt d c0 then Lane.neg (pow (Lane.neg d) (Lane.div c1 k3)) else pow d (Lane.div c1 k3)
    let theta := XMScalarACos (Lane.div (Lane.neg q) (Lane.mul c2 d))
    let costh3 := XMScalarCos (Lane.div theta k3)
    let sinth3 := Lane.mul (Lane.sqrt k3) (XMScalarSin (Lane.div theta k3))
    some (Lane.sub (Lane.mul (Lane.mul c2 rc) costh3) (Lane.div e k3),
      Lane.sub (Lane.mul (Lane.neg rc) (Lane.add costh3 sinth3)) (Lane.div e k3),
      Lane.sub (Lane.mul (Lane.neg rc) (Lane.sub costh3 sinth3)) (Lane.div e k3))

/-- Scalar `!=`. -/
def ne (a b : α) : Bool := !eq a b

/-- collision.rs:279-351 -/
def CalculateEigenVector (c : Cfg) (m11 m12 m13 m22 m23 m33 e : α) : V4 α :=
  let fTmp : F3 α := ⟨Lane.sub (Lane.mul m12 m23) (Lane.mul m13 (Lane.sub m22 e)),
    Lane.sub (Lane.mul m13 m12) (Lane.mul m23 (Lane.sub m11 e)),
    Lane.sub (Lane.mul (Lane.sub m11 e) (Lane.sub m22 e)) (Lane.mul m12 m12)⟩
  let vTmp := load3 fTmp
  let vTmp :=
    if XMVector3Equal c vTmp XMVectorZero then
      let f : α × α × α :=
        if ne (Lane.sub m11 e) c0 || ne m12 c0 || ne m13 c0 then (Lane.sub m11 e, m12, m13)
        else if ne m12 c0 || ne (Lane.sub m22 e) c0 || ne m23 c0 then (m12, Lane.sub m22 e, m23)
        else if ne m13 c0 || ne m23 c0 || ne (Lane.sub m33 e) c0 then (m13, m23, Lane.sub m33 e)
        else (c1, c0, c0)
      let f1 := f.1
      let f2 := f.2.1
      let f3 := f.2.2
      let vTmp := if eq f1 c0 then XMVectorSetX c vTmp c0 else XMVectorSetX c vTmp c1
      let vTmp := if eq f2 c0 then XMVectorSetY c vTmp c0 else XMVectorSetY c vTmp c1
      if eq f3 c0 then
        let vTmp := XMVectorSetZ c vTmp c0
        if ne m12 c0 then XMVectorSetY c vTmp (Lane.div (Lane.neg f1) f2) else vTmp
      else XMVectorSetZ c vTmp (Lane.div (Lane.sub f2 f1) f3)
    else vTmp
  if gt (XMVectorGetX (XMVector3LengthSq c vTmp)) k1em5 then XMVector3Normalize c vTmp
  else XMVector3Normalize c (XMVectorScale c vTmp k1e5)

/-- The repair step for two zero eigenvectors (collision.rs:399-405, 411-417, 423-429): from the third vector `V`, a normalised vector
orthogonal to it and their cross product. -/
def completeBasis (c : Cfg) (V : V4 α) : V4 α × V4 α :=
  let vTmp := XMVector3Cross c g_XMIdentityR1 V
  let vTmp := if lt (XMVectorGetX (XMVector3LengthSq c vTmp)) k1em5 then XMVector3Cross c g_XMIdentityR0 V else vTmp
  let A := XMVector3Normalize c vTmp
  (A, XMVector3Cross c V A)

/-- collision.rs:354-452 (the result is always `true`) -/
def CalculateEigenVectors (c : Cfg) (m11 m12 m13 m22 m23 m33 e1 e2 e3 : α) : V4 α × V4 α × V4 α :=
  let V1 := CalculateEigenVector c m11 m12 m13 m22 m23 m33 e1
  let V2 := CalculateEigenVector c m11 m12 m13 m22 m23 m33 e2
  let V3 := CalculateEigenVector c m11 m12 m13 m22 m23 m33 e3
  let Zero := XMVectorZero
  let v1z := XMVector3Equal c V1 Zero
  let v2z := XMVector3Equal c V2 Zero
  let v3z := XMVector3Equal c V3 Zero
  let e12 := gt (Lane.abs (XMVectorGetX (XMVector3Dot c V1 V2))) k01
  let e13 := gt (Lane.abs (XMVectorGetX (XMVector3Dot c V1 V3))) k01
  let e23 := gt (Lane.abs (XMVectorGetX (XMVector3Dot c V2 V3))) k01
  if (v1z && v2z && v3z) || (e12 && e13 && e23) || (e12 && v3z) || (e13 && v2z) || (e23 && v1z) then
    (g_XMIdentityR0, g_XMIdentityR1, g_XMIdentityR2)
  else if v1z && v2z then
    let r := completeBasis c V3
    (r.1, r.2, V3)
  else if v3z && v1z then
    let r := completeBasis c V2
    (r.2, V2, r.1)
  else if v2z && v3z then
    let r := completeBasis c V1
    (V1, r.1, r.2)
  else if v1z || e12 then (XMVector3Cross c V2 V3, V2, V3)
  else if v2z || e23 then (V1, XMVector3Cross c V3 V1, V3)
  else if v3z || e13 then (V1, V2, XMVector3Cross c V1 V2)
  else (V1, V2, V3)

/-- collision.rs:455-485 (the Boolean result is ignored by the caller) -/
def CalculateEigenVectorsFromCovarianceMatrix (c : Cfg) (Cxx Cyy Czz Cxy Cxz Cyz : α) : V4 α × V4 α × V4 α :=
  let e := Lane.neg (Lane.add (Lane.add Cxx Cyy) Czz)
  let f := Lane.sub (Lane.sub (Lane.sub (Lane.add (Lane.add (Lane.mul Cxx Cyy) (Lane.mul Cyy Czz)) (Lane.mul Czz Cxx)) (Lane.mul Cxy Cxy)) (Lane.mul Cxz Cxz)) (Lane.mul Cyz Cyz)
  let g := Lane.sub (Lane.sub (Lane.add (Lane.add (Lane.mul (Lane.mul Cxy Cxy) Czz) (Lane.mul (Lane.mul Cxz Cxz) Cyy)) (Lane.mul (Lane.mul Cyz Cyz) Cxx))
    (Lane.mul (Lane.mul (Lane.mul Cxy Cyz) Cxz) c2)) (Lane.mul (Lane.mul Cxx Cyy) Czz)
  match SolveCubic e f g with
  | none => (g_XMIdentityR0, g_XMIdentityR1, g_XMIdentityR2)
  | some (ev1, ev2, ev3) => CalculateEigenVectors c Cxx Cxy Cxz Cyy Cyz Czz ev1 ev2 ev3

namespace BoundingOrientedBox

/-- collision.rs:2345-2380 -/
def TransformMatrix (c : Cfg) (self : BoundingOrientedBox α) (M : M4 α) : BoundingOrientedBox α :=
  let vCenter := load3 self.Center
  let vExtents := load3 self.Extents
  let vOrientation := self.Orientation
  let nM : M4 α := ⟨XMVector3Normalize c M.r0, XMVector3Normalize c M.r1, XMVector3Normalize c M.r2, g_XMIdentityR3⟩
  let Rotation := XMQuaternionRotationMatrix c nM
  let vOrientation := XMQuaternionMultiply c vOrientation Rotation
  let vCenter := XMVector3Transform c vCenter M
  let dX := XMVector3Length c M.r0
  let dY := XMVector3Length c M.r1
  let dZ := XMVector3Length c M.r2
  let VectorScale := XMVectorSelect dY dX g_XMSelect1000
  let VectorScale := XMVectorSelect dZ VectorScale g_XMSelect1100
  let vExtents := XMVectorMultiply vExtents VectorScale
  ⟨store3 vCenter, store3 vExtents, vOrientation⟩

/-- collision.rs:2402-2426 -/
def TransformDecomposed (c : Cfg) (self : BoundingOrientedBox α) (Scale : α) (Rotation Translation : V4 α) : BoundingOrientedBox α :=
  let vCenter := load3 self.Center
  let vExtents := load3 self.Extents
  let vOrientation := self.Orientation
  let vOrientation := XMQuaternionMultiply c vOrientation Rotation
  let VectorScale := XMVectorReplicate Scale
  let vCenter := XMVectorAdd (XMVector3Rotate c (XMVectorMultiply vCenter VectorScale) Rotation) Translation
  let vExtents := XMVectorMultiply vExtents VectorScale
  ⟨store3 vCenter, store3 vExtents, vOrientation⟩

/-- collision.rs:2442-2451 -/
def ContainsPoint (c : Cfg) (self : BoundingOrientedBox α) (Point : V4 α) : ContainmentType :=
  let vCenter := load3 self.Center
  let vExtents := load3 self.Extents
  let vOrientation := self.Orientation
  let TPoint := XMVector3InverseRotate c (XMVectorSubtract Point vCenter) vOrientation
  if XMVector3InBounds c TPoint vExtents then .CONTAINS else .DISJOINT

/-- collision.rs:2470-2486 -/
def ContainsTriangle (c : Cfg) (self : BoundingOrientedBox α) (V0 V1 V2 : V4 α) : ContainmentType :=
  let vCenter := load3 self.Center
  let vOrientation := self.Orientation
  let TV0 := XMVector3InverseRotate c (XMVectorSubtract V0 vCenter) vOrientation
  let TV1 := XMVector3InverseRotate c (XMVectorSubtract V1 vCenter) vOrientation
  let TV2 := XMVector3InverseRotate c (XMVectorSubtract V2 vCenter) vOrientation
  BoundingBox.ContainsTriangle c ⟨⟨c0, c0, c0⟩, self.Extents⟩ TV0 TV1 TV2

/-- collision.rs:2492-2538 -/
def ContainsSphere (c : Cfg) (self : BoundingOrientedBox α) (sh : BoundingSphere α) : ContainmentType :=
  let SphereCenter := load3 sh.Center
  let SphereRadius := XMVectorReplicate sh.Radius
  let BoxCenter := load3 self.Center
  let BoxExtents := load3 self.Extents
  let BoxOrientation := self.Orientation
  let SphereCenter := XMVector3InverseRotate c (XMVectorSubtract SphereCenter BoxCenter) BoxOrientation
  let d := XMVectorZero
  let LessThanMin := XMVectorLess SphereCenter (XMVectorNegate c BoxExtents)
  let GreaterThanMax := XMVectorGreater SphereCenter BoxExtents
  let MinDelta := XMVectorAdd SphereCenter BoxExtents
  let MaxDelta := XMVectorSubtract SphereCenter BoxExtents
  let d := XMVectorSelect d MinDelta LessThanMin
  let d := XMVectorSelect d MaxDelta GreaterThanMax
  let d2 := XMVector3Dot c d d
  let SphereRadiusSq := XMVectorMultiply SphereRadius SphereRadius
  if XMVector4Greater c d2 SphereRadiusSq then .DISJOINT else
  let SMin := XMVectorSubtract SphereCenter SphereRadius
  let SMax := XMVectorAdd SphereCenter SphereRadius
  if XMVector3InBounds c SMin BoxExtents && XMVector3InBounds c SMax BoxExtents then .CONTAINS else .INTERSECTS

/-- collision.rs:2629-2666 -/
def IntersectsSphere (c : Cfg) (self : BoundingOrientedBox α) (sh : BoundingSphere α) : Bool :=
  let SphereCenter := load3 sh.Center
  let SphereRadius := XMVectorReplicate sh.Radius
  let BoxCenter := load3 self.Center
  let BoxExtents := load3 self.Extents
  let BoxOrientation := self.Orientation
  let SphereCenter := XMVector3InverseRotate c (XMVectorSubtract SphereCenter BoxCenter) BoxOrientation
  let d := XMVectorZero
  let LessThanMin := XMVectorLess SphereCenter (XMVectorNegate c BoxExtents)
  let GreaterThanMax := XMVectorGreater SphereCenter BoxExtents
  let MinDelta := XMVectorAdd SphereCenter BoxExtents
  let MaxDelta := XMVectorSubtract SphereCenter BoxExtents
  let d := XMVectorSelect d MinDelta LessThanMin
  let d := XMVectorSelect d MaxDelta GreaterThanMax
  let d2 := XMVector3Dot c d d
  XMVector4LessOrEqual c d2 (XMVectorMultiply SphereRadius SphereRadius)

/-- One separating-axis test of `IntersectsOrientedBox` (collision.rs:2754 without the accumulator; 2763-2764, ... with it). -/
def satTest (c : Cfg) (d d_A d_B : V4 α) : V4 α := XMVectorGreater (XMVectorAbs c d) (XMVectorAdd d_A d_B)

/-- collision.rs:2686-2886 -/
def IntersectsOrientedBox (c : Cfg) (self box_ : BoundingOrientedBox α) : Bool :=
  let A_quat := self.Orientation
  let B_quat := box_.Orientation
  let Q := XMQuaternionMultiply c A_quat (XMQuaternionConjugate c B_quat)
  let R := XMMatrixRotationQuaternion c Q
  let A_cent := load3 self.Center
  let B_cent := load3 box_.Center
  let t := XMVector3InverseRotate c (XMVectorSubtract B_cent A_cent) A_quat
  let h_A := load3 self.Extents
  let h_B := load3 box_.Extents
  let R0X := R.r0
  let R1X := R.r1
  let R2X := R.r2
  let R := XMMatrixTranspose c R
  let RX0 := R.r0
  let RX1 := R.r1
  let RX2 := R.r2
  let AR0X := XMVectorAbs c R0X
  let AR1X := XMVectorAbs c R1X
  let AR2X := XMVectorAbs c R2X
  let ARX0 := XMVectorAbs c RX0
  let ARX1 := XMVectorAbs c RX1
  let ARX2 := XMVectorAbs c RX2
  let NoIntersection := satTest c (XMVectorSplatX c t) (XMVectorSplatX c h_A) (XMVector3Dot c h_B AR0X)
  let NoIntersection := XMVectorOrInt NoIntersection (satTest c (XMVectorSplatY c t) (XMVectorSplatY c h_A) (XMVector3Dot c h_B AR1X))
  let NoIntersection := XMVectorOrInt NoIntersection (satTest c (XMVectorSplatZ c t) (XMVectorSplatZ c h_A) (XMVector3Dot c h_B AR2X))
  let NoIntersection := XMVectorOrInt NoIntersection (satTest c (XMVector3Dot c t RX0) (XMVector3Dot c h_A ARX0) (XMVectorSplatX c h_B))
  let NoIntersection := XMVectorOrInt NoIntersection (satTest c (XMVector3Dot c t RX1) (XMVector3Dot c h_A ARX1) (XMVectorSplatY c h_B))
  let NoIntersection := XMVectorOrInt NoIntersection (satTest c (XMVector3Dot c t RX2) (XMVector3Dot c h_A ARX2) (XMVectorSplatZ c h_B))
  let NoIntersection := XMVectorOrInt NoIntersection (satTest c (XMVector3Dot c t (XMVectorPermuteC c RX0 (XMVectorNegate c RX0) 3 6 1 0)) (XMVector3Dot c h_A (XMVectorSwizzleC c ARX0 3 2 1 0)) (XMVector3Dot c h_B (XMVectorSwizzleC c AR0X 3 2 1 0)))
  let NoIntersection := XMVectorOrInt NoIntersection (satTest c (XMVector3Dot c t (XMVectorPermuteC c RX1 (XMVectorNegate c RX1) 3 6 1 0)) (XMVector3Dot c h_A (XMVectorSwizzleC c ARX1 3 2 1 0)) (XMVector3Dot c h_B (XMVectorSwizzleC c AR0X 2 3 0 1)))
  let NoIntersection := XMVectorOrInt NoIntersection (satTest c (XMVector3Dot c t (XMVectorPermuteC c RX2 (XMVectorNegate c RX2) 3 6 1 0)) (XMVector3Dot c h_A (XMVectorSwizzleC c ARX2 3 2 1 0)) (XMVector3Dot c h_B (XMVectorSwizzleC c AR0X 1 0 3 2)))
  let NoIntersection := XMVectorOrInt NoIntersection (satTest c (XMVector3Dot c t (XMVectorPermuteC c RX0 (XMVectorNegate c RX0) 2 3 4 1)) (XMVector3Dot c h_A (XMVectorSwizzleC c ARX0 2 3 0 1)) (XMVector3Dot c h_B (XMVectorSwizzleC c AR1X 3 2 1 0)))
  let NoIntersection := XMVectorOrInt NoIntersection (satTest c (XMVector3Dot c t (XMVectorPermuteC c RX1 (XMVectorNegate c RX1) 2 3 4 1)) (XMVector3Dot c h_A (XMVectorSwizzleC c ARX1 2 3 0 1)) (XMVector3Dot c h_B (XMVectorSwizzleC c AR1X 2 3 0 1)))
  let NoIntersection := XMVectorOrInt NoIntersection (satTest c (XMVector3Dot c t (XMVectorPermuteC c RX2 (XMVectorNegate c RX2) 2 3 4 1)) (XMVector3Dot c h_A (XMVectorSwizzleC c ARX2 2 3 0 1)) (XMVector3Dot c h_B (XMVectorSwizzleC c AR1X 1 0 3 2)))
  let NoIntersection := XMVectorOrInt NoIntersection (satTest c (XMVector3Dot c t (XMVectorPermuteC c RX0 (XMVectorNegate c RX0) 5 0 3 2)) (XMVector3Dot c h_A (XMVectorSwizzleC c ARX0 1 0 3 2)) (XMVector3Dot c h_B (XMVectorSwizzleC c AR2X 3 2 1 0)))
  let NoIntersection := XMVectorOrInt NoIntersection (satTest c (XMVector3Dot c t (XMVectorPermuteC c RX1 (XMVectorNegate c RX1) 5 0 3 2)) (XMVector3Dot c h_A (XMVectorSwizzleC c ARX1 1 0 3 2)) (XMVector3Dot c h_B (XMVectorSwizzleC c AR2X 2 3 0 1)))
  let NoIntersection := XMVectorOrInt NoIntersection (satTest c (XMVector3Dot c t (XMVectorPermuteC c RX2 (XMVectorNegate c RX2) 5 0 3 2)) (XMVector3Dot c h_A (XMVectorSwizzleC c ARX2 1 0 3 2)) (XMVector3Dot c h_B (XMVectorSwizzleC c AR2X 1 0 3 2)))
  XMVector4NotEqualInt c NoIntersection XMVectorTrueInt

/-- collision.rs:2672-2680 -/
def IntersectsBox (c : Cfg) (self : BoundingOrientedBox α) (box_ : BoundingBox α) : Bool := IntersectsOrientedBox c self (orientBox box_)

/-- collision.rs:2558-2592 -/
def ContainsOrientedBox (c : Cfg) (self box_ : BoundingOrientedBox α) : ContainmentType :=
  if !IntersectsOrientedBox c self box_ then .DISJOINT else
  let aCenter := load3 self.Center
  let aExtents := load3 self.Extents
  let aOrientation := self.Orientation
  let bCenter := load3 box_.Center
  let bExtents := load3 box_.Extents
  let bOrientation := box_.Orientation
  let offset := XMVectorSubtract bCenter aCenter
  let corner := fun o => XMVector3InverseRotate c (XMVectorAdd (XMVector3Rotate c (XMVectorMultiply bExtents o) bOrientation) offset) aOrientation
  if g_BoxOffset.all fun o => XMVector3InBounds c (corner o) aExtents then .CONTAINS else .INTERSECTS

/-- collision.rs:2544-2552 -/
def ContainsBox (c : Cfg) (self : BoundingOrientedBox α) (box_ : BoundingBox α) : ContainmentType := ContainsOrientedBox c self (orientBox box_)

/-- collision.rs:2914-2930 -/
def IntersectsTriangle (c : Cfg) (self : BoundingOrientedBox α) (V0 V1 V2 : V4 α) : Bool :=
  let vCenter := load3 self.Center
  let vOrientation := self.Orientation
  let TV0 := XMVector3InverseRotate c (XMVectorSubtract V0 vCenter) vOrientation
  let TV1 := XMVector3InverseRotate c (XMVectorSubtract V1 vCenter) vOrientation
  let TV2 := XMVector3InverseRotate c (XMVectorSubtract V2 vCenter) vOrientation
  BoundingBox.IntersectsTriangle c ⟨⟨c0, c0, c0⟩, self.Extents⟩ TV0 TV1 TV2

/-- collision.rs:2946-2981 -/
def IntersectsPlane (c : Cfg) (self : BoundingOrientedBox α) (Plane : V4 α) : PlaneIntersectionType :=
  let vCenter := load3 self.Center
  let vExtents := load3 self.Extents
  let BoxOrientation := self.Orientation
  let vCenter := insertC c vCenter (XMVectorSplatOne c) 0 0 0 1
  let R := XMMatrixRotationQuaternion c BoxOrientation
  planeResult c (FastIntersectOrientedBoxPlane c vCenter vExtents R.r0 R.r1 R.r2 Plane)

/-- collision.rs:3006-3075; the result is (return value, `*Dist`) -/
def IntersectsRay (c : Cfg) (self : BoundingOrientedBox α) (Origin Direction : V4 α) : Bool × α :=
  let SelectY : V4 α := ⟨ofBits 0#32, ofBits 0xFFFFFFFF#32, ofBits 0#32, ofBits 0#32⟩
  let SelectZ : V4 α := ⟨ofBits 0#32, ofBits 0#32, ofBits 0xFFFFFFFF#32, ofBits 0#32⟩
  let vCenter := load3 self.Center
  let vExtents := load3 self.Extents
  let vOrientation := self.Orientation
  let R := XMMatrixRotationQuaternion c vOrientation
  let TOrigin := XMVectorSubtract vCenter Origin
  let AxisDotOrigin := XMVector3Dot c R.r0 TOrigin
  let AxisDotOrigin := XMVectorSelect AxisDotOrigin (XMVector3Dot c R.r1 TOrigin) SelectY
  let AxisDotOrigin := XMVectorSelect AxisDotOrigin (XMVector3Dot c R.r2 TOrigin) SelectZ
  let AxisDotDirection := XMVector3Dot c R.r0 Direction
  let AxisDotDirection := XMVectorSelect AxisDotDirection (XMVector3Dot c R.r1 Direction) SelectY
  let AxisDotDirection := XMVectorSelect AxisDotDirection (XMVector3Dot c R.r2 Direction) SelectZ
  let IsParallel := XMVectorLessOrEqual (XMVectorAbs c AxisDotDirection) g_RayEpsilon
  let InverseAxisDotDirection := XMVectorReciprocal AxisDotDirection
  let t1 := XMVectorMultiply (XMVectorSubtract AxisDotOrigin vExtents) InverseAxisDotDirection
  let t2 := XMVectorMultiply (XMVectorAdd AxisDotOrigin vExtents) InverseAxisDotDirection
  let t_min := XMVectorSelect (XMVectorMin t1 t2) g_FltMin IsParallel
  let t_max := XMVectorSelect (XMVectorMax t1 t2) g_FltMax IsParallel
  let t_min := XMVectorMax t_min (XMVectorSplatY c t_min)
  let t_min := XMVectorMax t_min (XMVectorSplatZ c t_min)
  let t_max := XMVectorMin t_max (XMVectorSplatY c t_max)
  let t_max := XMVectorMin t_max (XMVectorSplatZ c t_max)
  let NoIntersection := XMVectorGreater (XMVectorSplatX c t_min) (XMVectorSplatX c t_max)
  let NoIntersection := XMVectorOrInt NoIntersection (XMVectorLess (XMVectorSplatX c t_max) XMVectorZero)
  let ParallelOverlap := XMVectorInBounds c AxisDotOrigin vExtents
  let NoIntersection := XMVectorOrInt NoIntersection (XMVectorAndCInt IsParallel ParallelOverlap)
  if !XMVector3AnyTrue c NoIntersection then (true, t_min.x) else (false, c0)

/-- collision.rs:3081-3148 -/
def ContainedBy (c : Cfg) (self : BoundingOrientedBox α) (Plane0 Plane1 Plane2 Plane3 Plane4 Plane5 : V4 α) : ContainmentType :=
  let vCenter := load3 self.Center
  let vExtents := load3 self.Extents
  let BoxOrientation := self.Orientation
  let vCenter := insertC c vCenter (XMVectorSplatOne c) 0 0 0 1
  let R := XMMatrixRotationQuaternion c BoxOrientation
  sixPlanes c (FastIntersectOrientedBoxPlane c vCenter vExtents R.r0 R.r1 R.r2) Plane0 Plane1 Plane2 Plane3 Plane4 Plane5

/-- collision.rs:3154-3158 -/
def CreateFromBoundingBox (box_ : BoundingBox α) : BoundingOrientedBox α := orientBox box_

/-- The matrix of eigenvectors made right handed (collision.rs:3233-3256). -/
def eigenFrame (c : Cfg) (v1 v2 v3 : V4 α) : M4 α :=
  let R : M4 α := ⟨XMVectorSetW c v1 c0, XMVectorSetW c v2 c0, XMVectorSetW c v3 c0, g_XMIdentityR3⟩
  let Det := XMMatrixDeterminant c R
  if XMVector4Less c Det XMVectorZero then
    ⟨XMVectorMultiply R.r0 g_XMNegativeOne, XMVectorMultiply R.r1 g_XMNegativeOne, XMVectorMultiply R.r2 g_XMNegativeOne, R.r3⟩
  else R

/-- The center of mass (collision.rs:3188-3200).  `Count as f32` is the unsigned conversion of the count (taken below 2^32). -/
def centerOfMass (pPoints : List (F3 α)) : V4 α :=
  let s := pPoints.foldl (fun s p => XMVectorAdd s (load3 p)) XMVectorZero
  XMVectorMultiply s (XMVectorReciprocal (XMVectorReplicate (u2f (ofBits (BitVec.ofNat 32 pPoints.length)))))

/-- The covariance sums XX_YY_ZZ and XY_XZ_YZ (collision.rs:3205-3219). -/
def covariance (c : Cfg) (CenterOfMass : V4 α) (pPoints : List (F3 α)) : V4 α × V4 α :=
  pPoints.foldl (fun s p =>
    let Point := XMVectorSubtract (load3 p) CenterOfMass
    let XXY := XMVectorSwizzleC c Point 0 0 1 3
    let YZZ := XMVectorSwizzleC c Point 1 2 2 3
    (XMVectorAdd s.1 (XMVectorMultiply Point Point), XMVectorAdd s.2 (XMVectorMultiply XXY YZZ))) (XMVectorZero, XMVectorZero)

/-- The orientation found for the points (collision.rs:3187-3261). -/
def orientationOf (c : Cfg) (pPoints : List (F3 α)) : V4 α :=
  let CenterOfMass := centerOfMass pPoints
  let s := covariance c CenterOfMass pPoints
  let XX_YY_ZZ := s.1
  let XY_XZ_YZ := s.2
  let v := CalculateEigenVectorsFromCovarianceMatrix c (XMVectorGetX XX_YY_ZZ) (XMVectorGetY c XX_YY_ZZ) (XMVectorGetZ c XX_YY_ZZ)
    (XMVectorGetX XY_XZ_YZ) (XMVectorGetY c XY_XZ_YZ) (XMVectorGetZ c XY_XZ_YZ)
  XMQuaternionNormalize c (XMQuaternionRotationMatrix c (eigenFrame c v.1 v.2.1 v.2.2))

/-- The loop over the points (collision.rs:3270-3285): the first point is transformed by `InverseR`, the others are not. -/
def rotatedMinMax (c : Cfg) (InverseR : M4 α) : List (F3 α) → V4 α × V4 α
  | [] => (XMVectorZero, XMVectorZero)
  | p :: ps =>
    let v := XMVector3TransformNormal c (load3 p) InverseR
    ps.foldl (fun (m : V4 α × V4 α) p => (XMVectorMin m.1 (load3 p), XMVectorMax m.2 (load3 p))) (v, v)

/-- collision.rs:3263-3294: the box around the points for the orientation found. -/
def fromOrientation (c : Cfg) (vOrientation : V4 α) (pPoints : List (F3 α)) : BoundingOrientedBox α :=
  let R := XMMatrixRotationQuaternion c vOrientation
  let InverseR := XMMatrixTranspose c R
  let mm := rotatedMinMax c InverseR pPoints
  let vMin := mm.1
  let vMax := mm.2
  let vCenter := XMVectorScale c (XMVectorAdd vMin vMax) cHalf
  let vCenter := XMVector3TransformNormal c vCenter R
  ⟨store3 vCenter, store3 (XMVectorScale c (XMVectorSubtract vMax vMin) cHalf), vOrientation⟩

/-- collision.rs:3164-3295.  For no points only Extents (NaN) and Orientation are written; `Center` keeps the value of `Out`. -/
def CreateFromPoints (c : Cfg) (Out : BoundingOrientedBox α) (pPoints : List (F3 α)) : BoundingOrientedBox α :=
  if pPoints.length = 0 then
    let nan : α := ofBits 0x7FC00000#32
    ⟨Out.Center, ⟨nan, nan, nan⟩, ⟨c0, c0, c0, c1⟩⟩
  else fromOrientation c (orientationOf c pPoints) pPoints

/-- collision.rs:3301-3315 -/
def GetCorners (c : Cfg) (self : BoundingOrientedBox α) : List (F3 α) :=
  let vCenter := load3 self.Center
  let vExtents := load3 self.Extents
  let vOrientation := self.Orientation
  g_BoxOffset.map fun o => store3 (XMVectorAdd (XMVector3Rotate c (XMVectorMultiply vExtents o) vOrientation) vCenter)

end BoundingOrientedBox

namespace BoundingSphere

/-- collision.rs:1005-1007 -/
def IntersectsOrientedBox (c : Cfg) (self : BoundingSphere α) (box_ : BoundingOrientedBox α) : Bool :=
  BoundingOrientedBox.IntersectsSphere c box_ self

/-- collision.rs:877-901 -/
def ContainsOrientedBox (c : Cfg) (self : BoundingSphere α) (box_ : BoundingOrientedBox α) : ContainmentType :=
  if !BoundingOrientedBox.IntersectsSphere c box_ self then .DISJOINT else
  let vCenter := load3 self.Center
  let vRadius := XMVectorReplicate self.Radius
  let RadiusSq := XMVectorMultiply vRadius vRadius
  let boxCenter := load3 box_.Center
  let boxExtents := load3 box_.Extents
  let boxOrientation := box_.Orientation
  let InsideAll := g_BoxOffset.foldl (fun InsideAll o =>
    let C := XMVectorAdd (XMVector3Rotate c (XMVectorMultiply boxExtents o) boxOrientation) boxCenter
    let d := XMVector3LengthSq c (XMVectorSubtract vCenter C)
    XMVectorAndInt InsideAll (XMVectorLessOrEqual d RadiusSq)) XMVectorTrueInt
  if XMVector3EqualInt c InsideAll XMVectorTrueInt then .CONTAINS else .INTERSECTS

end BoundingSphere

namespace BoundingBox

/-- collision.rs:1869-1871 -/
def IntersectsOrientedBox (c : Cfg) (self : BoundingBox α) (box_ : BoundingOrientedBox α) : Bool :=
  BoundingOrientedBox.IntersectsBox c box_ self

/-- collision.rs:1748-1775 -/
def ContainsOrientedBox (c : Cfg) (self : BoundingBox α) (box_ : BoundingOrientedBox α) : ContainmentType :=
  if !BoundingOrientedBox.IntersectsBox c box_ self then .DISJOINT else
  let vCenter := load3 self.Center
  let vExtents := load3 self.Extents
  let oCenter := XMVectorSubtract (load3 box_.Center) vCenter
  let oExtents := load3 box_.Extents
  let oOrientation := box_.Orientation
  let Inside := g_BoxOffset.foldl (fun Inside o =>
    let C := XMVectorAdd (XMVector3Rotate c (XMVectorMultiply oExtents o) oOrientation) oCenter
    let d := XMVectorAbs c C
    XMVectorAndInt Inside (XMVectorLessOrEqual d vExtents)) XMVectorTrueInt
  if XMVector3EqualInt c Inside XMVectorTrueInt then .CONTAINS else .INTERSECTS

end BoundingBox
end DXM
