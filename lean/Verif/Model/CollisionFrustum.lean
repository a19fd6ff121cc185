import Verif.Model.CollisionOBB
import Verif.Model.CollisionTri
import Verif.Model.Matrix

/-
src/collision.rs 3317-5058: `BoundingFrustum`, and the tests of the other volumes against frusta.  The fixed-size arrays of the source
are lists with literally the same entries; a loop over an array is a fold over the list.
-/

namespace DXM
open Lane
variable {α : Type} [Lane α]

namespace BoundingFrustum

/-- The six planes in the local frame (collision.rs:3469-3475, 3719-3725, 3919-3925, 4623-4629): near, far, right, left, top, bottom. -/
def localPlanes (self : BoundingFrustum α) : List (V4 α) :=
  [XMVectorSet c0 c0 cNeg1 self.Near, XMVectorSet c0 c0 c1 (Lane.neg self.Far),
   XMVectorSet c1 c0 (Lane.neg self.RightSlope) c0, XMVectorSet cNeg1 c0 self.LeftSlope c0,
   XMVectorSet c0 c1 (Lane.neg self.TopSlope) c0, XMVectorSet c0 cNeg1 self.BottomSlope c0]

/-- The directions of the four side edges (collision.rs:932-935, 3838-3841, 4001-4004, 4154-4157, 4216-4219, 4419-4422, 4549-4552,
4754-4757, 5030-5033). -/
def vRightTop (self : BoundingFrustum α) : V4 α := XMVectorSet self.RightSlope self.TopSlope c1 c0
/-- see `vRightTop` -/
def vRightBottom (self : BoundingFrustum α) : V4 α := XMVectorSet self.RightSlope self.BottomSlope c1 c0
/-- see `vRightTop` -/
def vLeftTop (self : BoundingFrustum α) : V4 α := XMVectorSet self.LeftSlope self.TopSlope c1 c0
/-- see `vRightTop` -/
def vLeftBottom (self : BoundingFrustum α) : V4 α := XMVectorSet self.LeftSlope self.BottomSlope c1 c0

/-- The corners in the local frame (collision.rs:939-947, 3845-3853, 4008-4016, 4223-4231, 4426-4434). -/
def localCorners (self : BoundingFrustum α) : List (V4 α) :=
  let vNear := XMVectorReplicate self.Near
  let vFar := XMVectorReplicate self.Far
  [XMVectorMultiply (vRightTop self) vNear, XMVectorMultiply (vRightBottom self) vNear,
   XMVectorMultiply (vLeftTop self) vNear, XMVectorMultiply (vLeftBottom self) vNear,
   XMVectorMultiply (vRightTop self) vFar, XMVectorMultiply (vRightBottom self) vFar,
   XMVectorMultiply (vLeftTop self) vFar, XMVectorMultiply (vLeftBottom self) vFar]

/-- The edge directions of the local frame used as axes (collision.rs:4057-4064, 4292-4298, 4464-4470). -/
def localEdges (self : BoundingFrustum α) : List (V4 α) :=
  [vRightTop self, vRightBottom self, vLeftTop self, vLeftBottom self,
   XMVectorSubtract (vRightTop self) (vLeftTop self), XMVectorSubtract (vLeftBottom self) (vLeftTop self)]

/-- The corners in world space, in the order of `IntersectsPlane` and `ContainedBy` (collision.rs:4549-4568, 4754-4773); `vOrigin` has
lane w set to one there. -/
def worldCorners (c : Cfg) (self : BoundingFrustum α) (vOrigin vOrientation : V4 α) : List (V4 α) :=
  let RightTop := XMVector3Rotate c (vRightTop self) vOrientation
  let RightBottom := XMVector3Rotate c (vRightBottom self) vOrientation
  let LeftTop := XMVector3Rotate c (vLeftTop self) vOrientation
  let LeftBottom := XMVector3Rotate c (vLeftBottom self) vOrientation
  let vNear := XMVectorReplicate self.Near
  let vFar := XMVectorReplicate self.Far
  [XMVectorMultiplyAdd c RightTop vNear vOrigin, XMVectorMultiplyAdd c RightBottom vNear vOrigin,
   XMVectorMultiplyAdd c LeftTop vNear vOrigin, XMVectorMultiplyAdd c LeftBottom vNear vOrigin,
   XMVectorMultiplyAdd c RightTop vFar vOrigin, XMVectorMultiplyAdd c RightBottom vFar vOrigin,
   XMVectorMultiplyAdd c LeftTop vFar vOrigin, XMVectorMultiplyAdd c LeftBottom vFar vOrigin]

/-- The minimum and maximum of `f` over an array of points: the first point initialises both (collision.rs:4025-4038, 4079-4087,
4187-4195, 4313-4327, 4443-4450, 4496-4504). -/
def minMaxOf (f : V4 α → V4 α) : List (V4 α) → V4 α × V4 α
  | [] => (XMVectorZero, XMVectorZero)
  | p :: ps => ps.foldl (fun m p => (XMVectorMin m.1 (f p), XMVectorMax m.2 (f p))) (f p, f p)

/-- collision.rs:3360-3401 -/
def TransformMatrix (c : Cfg) (self : BoundingFrustum α) (M : M4 α) : BoundingFrustum α :=
  let vOrigin := load3 self.Origin
  let vOrientation := self.Orientation
  let nM : M4 α := ⟨XMVector3Normalize c M.r0, XMVector3Normalize c M.r1, XMVector3Normalize c M.r2, g_XMIdentityR3⟩
  let Rotation := XMQuaternionRotationMatrix c nM
  let vOrientation := XMQuaternionMultiply c vOrientation Rotation
  let vOrigin := XMVector3Transform c vOrigin M
  let dX := XMVector3Dot c M.r0 M.r0
  let dY := XMVector3Dot c M.r1 M.r1
  let dZ := XMVector3Dot c M.r2 M.r2
  let d := XMVectorMax dX (XMVectorMax dY dZ)
  let Scale := Lane.sqrt (XMVectorGetX d)
  ⟨store3 vOrigin, vOrientation, self.RightSlope, self.LeftSlope, self.TopSlope, self.BottomSlope,
   Lane.mul self.Near Scale, Lane.mul self.Far Scale⟩

/-- collision.rs:3423-3451 -/
def TransformDecomposed (c : Cfg) (self : BoundingFrustum α) (Scale : α) (Rotation Translation : V4 α) : BoundingFrustum α :=
  let vOrigin := load3 self.Origin
  let vOrientation := self.Orientation
  let vOrientation := XMQuaternionMultiply c vOrientation Rotation
  let vOrigin := XMVectorAdd (XMVector3Rotate c (XMVectorScale c vOrigin Scale) Rotation) Translation
  ⟨store3 vOrigin, vOrientation, self.RightSlope, self.LeftSlope, self.TopSlope, self.BottomSlope,
   Lane.mul self.Near Scale, Lane.mul self.Far Scale⟩

/-- collision.rs:3467-3502 -/
def ContainsPoint (c : Cfg) (self : BoundingFrustum α) (Point : V4 α) : ContainmentType :=
  let vOrigin := load3 self.Origin
  let vOrientation := self.Orientation
  let TPoint := XMVector3InverseRotate c (XMVectorSubtract Point vOrigin) vOrientation
  let TPoint := insertC c TPoint (XMVectorSplatOne c) 0 0 0 1
  let Zero := XMVectorZero
  let Outside := (localPlanes self).foldl (fun Outside P =>
    let Dot := XMVector4Dot c TPoint P
    XMVectorOrInt Outside (XMVectorGreater Dot Zero)) Zero
  if XMVector4NotEqualInt c Outside XMVectorTrueInt then .CONTAINS else .DISJOINT

/-- A local plane moved to world space and normalised (collision.rs:3528-3550 and the copies in the other `Contains` functions, in
`IntersectsRay` (4642-4643) and `GetPlanes`). -/
def worldPlane (c : Cfg) (self : BoundingFrustum α) (P : V4 α) : V4 α :=
  XMPlaneNormalize c (planeTransform c P self.Orientation (load3 self.Origin))

/-- collision.rs:4934-4999, all six planes requested: near, far, right, left, top, bottom. -/
def GetPlanes (c : Cfg) (self : BoundingFrustum α) : V4 α × V4 α × V4 α × V4 α × V4 α × V4 α :=
  (worldPlane c self (XMVectorSet c0 c0 cNeg1 self.Near), worldPlane c self (XMVectorSet c0 c0 c1 (Lane.neg self.Far)),
   worldPlane c self (XMVectorSet c1 c0 (Lane.neg self.RightSlope) c0), worldPlane c self (XMVectorSet cNeg1 c0 self.LeftSlope c0),
   worldPlane c self (XMVectorSet c0 c1 (Lane.neg self.TopSlope) c0), worldPlane c self (XMVectorSet c0 cNeg1 self.BottomSlope c0))

/-- The common body of the five `Contains` functions (collision.rs:3522-3553, 3559-3590, 3596-3627, 3633-3664, 3670-3701): build the
six planes and ask the volume's `ContainedBy`. -/
def sixPlaneTest (c : Cfg) (self : BoundingFrustum α) (by_ : V4 α → V4 α → V4 α → V4 α → V4 α → V4 α → ContainmentType) :
    ContainmentType :=
  let P := GetPlanes c self
  by_ P.1 P.2.1 P.2.2.1 P.2.2.2.1 P.2.2.2.2.1 P.2.2.2.2.2

/-- collision.rs:3522-3553 -/
def ContainsTriangle (c : Cfg) (self : BoundingFrustum α) (V0 V1 V2 : V4 α) : ContainmentType :=
  sixPlaneTest c self (TriangleTests.ContainedBy c V0 V1 V2)

/-- collision.rs:3559-3590 -/
def ContainsSphere (c : Cfg) (self : BoundingFrustum α) (sh : BoundingSphere α) : ContainmentType :=
  sixPlaneTest c self (BoundingSphere.ContainedBy c sh)

/-- collision.rs:3596-3627 -/
def ContainsBox (c : Cfg) (self : BoundingFrustum α) (box_ : BoundingBox α) : ContainmentType :=
  sixPlaneTest c self (BoundingBox.ContainedBy c box_)

/-- collision.rs:3633-3664 -/
def ContainsOrientedBox (c : Cfg) (self : BoundingFrustum α) (box_ : BoundingOrientedBox α) : ContainmentType :=
  sixPlaneTest c self (BoundingOrientedBox.ContainedBy c box_)

/-- The eight points handed to `FastIntersectFrustumPlane` (collision.rs:4573-4575, 4779-4781, ...). -/
def fastPlane (c : Cfg) (C : List (V4 α)) (Plane : V4 α) : V4 α × V4 α :=
  match C with
  | [C0, C1, C2, C3, C4, C5, C6, C7] => FastIntersectFrustumPlane c C0 C1 C2 C3 C4 C5 C6 C7 Plane
  | _ => (Plane, Plane)

/-- collision.rs:4733-4833 -/
def ContainedBy (c : Cfg) (self : BoundingFrustum α) (Plane0 Plane1 Plane2 Plane3 Plane4 Plane5 : V4 α) : ContainmentType :=
  let vOrigin := load3 self.Origin
  let vOrigin := insertC c vOrigin (XMVectorSplatOne c) 0 0 0 1
  sixPlanes c (fastPlane c (worldCorners c self vOrigin self.Orientation)) Plane0 Plane1 Plane2 Plane3 Plane4 Plane5

/-- collision.rs:3670-3701 -/
def ContainsFrustum (c : Cfg) (self fr : BoundingFrustum α) : ContainmentType :=
  sixPlaneTest c self (ContainedBy c fr)

/-- collision.rs:4535-4589 -/
def IntersectsPlane (c : Cfg) (self : BoundingFrustum α) (Plane : V4 α) : PlaneIntersectionType :=
  let vOrigin := load3 self.Origin
  let vOrigin := insertC c vOrigin (XMVectorSplatOne c) 0 0 0 1
  planeResult c (fastPlane c (worldCorners c self vOrigin self.Orientation) Plane)

/-- The nearest-feature test for one face (collision.rs:3808-3830): `Plane` with signed distance `Dist` and its four adjacent planes. -/
def faceTest (c : Cfg) (vCenter Plane Dist : V4 α) (adj : List (V4 α)) : V4 α :=
  let Zero := XMVectorZero
  let Point := XMVectorNegativeMultiplySubtract c Plane Dist vCenter
  let Point := insertC c Point (XMVectorSplatOne c) 0 0 0 1
  let InsideFace := adj.foldl (fun InsideFace P =>
    XMVectorAndInt InsideFace (XMVectorLessOrEqual (XMVector4Dot c Point P) Zero)) XMVectorTrueInt
  XMVectorAndInt (XMVectorGreater Dist Zero) InsideFace

/-- The nearest-feature test for one edge (collision.rs:3870-3883). -/
def edgeTest (c : Cfg) (vCenter RadiusSq C0 C1 : V4 α) : V4 α :=
  let Point := PointOnLineSegmentNearestPoint c C0 C1 vCenter
  let Delta := XMVectorSubtract vCenter Point
  let DistSq := XMVector3Dot c Delta Delta
  XMVectorLessOrEqual DistSq RadiusSq

/-- collision.rs:3707-3892.  The arrays `Planes` and `Corners` are unpacked into variables P0..P5, C0..C7; the tables `adjacent_faces`
(3793-3800) and `edges` (3857-3862) become the arguments of the six `faceTest`s and twelve `edgeTest`s. -/
def IntersectsSphere (c : Cfg) (self : BoundingFrustum α) (sh : BoundingSphere α) : Bool :=
  let Zero := XMVectorZero
  let P0 := XMVectorSet c0 c0 cNeg1 self.Near
  let P1 := XMVectorSet c0 c0 c1 (Lane.neg self.Far)
  let P2 := XMVector3Normalize c (XMVectorSet c1 c0 (Lane.neg self.RightSlope) c0)
  let P3 := XMVector3Normalize c (XMVectorSet cNeg1 c0 self.LeftSlope c0)
  let P4 := XMVector3Normalize c (XMVectorSet c0 c1 (Lane.neg self.TopSlope) c0)
  let P5 := XMVector3Normalize c (XMVectorSet c0 cNeg1 self.BottomSlope c0)
  let vOrigin := load3 self.Origin
  let vOrientation := self.Orientation
  let vCenter := load3 sh.Center
  let vRadius := XMVectorReplicate sh.Radius
  let vCenter := XMVector3InverseRotate c (XMVectorSubtract vCenter vOrigin) vOrientation
  let vCenter := insertC c vCenter (XMVectorSplatOne c) 0 0 0 1
  let step := fun (s : V4 α × V4 α × V4 α) P =>
    let Dist := XMVector4Dot c vCenter P
    (XMVectorOrInt s.1 (XMVectorGreater Dist vRadius), XMVectorAndInt s.2.1 (XMVectorLessOrEqual Dist (XMVectorNegate c vRadius)),
     XMVectorAndInt s.2.2 (XMVectorLessOrEqual Dist Zero))
  let s := [P0, P1, P2, P3, P4, P5].foldl step (XMVectorFalseInt, XMVectorTrueInt, XMVectorTrueInt)
  if XMVector4EqualInt c s.1 XMVectorTrueInt then false
  else if XMVector4EqualInt c s.2.1 XMVectorTrueInt then true
  else if XMVector4EqualInt c s.2.2 XMVectorTrueInt then true
  else
  let face := fun P adj => faceTest c vCenter P (XMVector4Dot c vCenter P) adj
  let Intersects := XMVectorFalseInt
  let Intersects := XMVectorOrInt Intersects (face P0 [P2, P3, P4, P5])
  let Intersects := XMVectorOrInt Intersects (face P1 [P2, P3, P4, P5])
  let Intersects := XMVectorOrInt Intersects (face P2 [P0, P1, P4, P5])
  let Intersects := XMVectorOrInt Intersects (face P3 [P0, P1, P4, P5])
  let Intersects := XMVectorOrInt Intersects (face P4 [P0, P1, P2, P3])
  let Intersects := XMVectorOrInt Intersects (face P5 [P0, P1, P2, P3])
  if XMVector4EqualInt c Intersects XMVectorTrueInt then true
  else
  let vNear := XMVectorReplicate self.Near
  let vFar := XMVectorReplicate self.Far
  let C0 := XMVectorMultiply (vRightTop self) vNear
  let C1 := XMVectorMultiply (vRightBottom self) vNear
  let C2 := XMVectorMultiply (vLeftTop self) vNear
  let C3 := XMVectorMultiply (vLeftBottom self) vNear
  let C4 := XMVectorMultiply (vRightTop self) vFar
  let C5 := XMVectorMultiply (vRightBottom self) vFar
  let C6 := XMVectorMultiply (vLeftTop self) vFar
  let C7 := XMVectorMultiply (vLeftBottom self) vFar
  let RadiusSq := XMVectorMultiply vRadius vRadius
  let Intersects := [(C0, C1), (C2, C3), (C0, C2), (C1, C3), (C4, C5), (C6, C7), (C4, C6), (C5, C7), (C0, C4), (C1, C5), (C2, C6), (C3, C7)].foldl
    (fun s e => XMVectorOrInt s (edgeTest c vCenter RadiusSq e.1 e.2)) Intersects
  XMVector4EqualInt c Intersects XMVectorTrueInt

/-- Three values in lanes x, y, z (w as x), as built with `SelectY` and `SelectZ` (collision.rs:3968-3970, 4025-4027, 4033-4035,
4042-4044, 4094-4096). -/
def pack3 (x y z : V4 α) : V4 α :=
  XMVectorSelect (XMVectorSelect x y TriangleTests.SelectY) z TriangleTests.SelectZ

/-- collision.rs:3912-4112 -/
def IntersectsOrientedBox (c : Cfg) (self : BoundingFrustum α) (box_ : BoundingOrientedBox α) : Bool :=
  let Zero := XMVectorZero
  let vOrigin := load3 self.Origin
  let FrustumOrientation := self.Orientation
  let Center := load3 box_.Center
  let Extents := load3 box_.Extents
  let BoxOrientation := box_.Orientation
  let Center := XMVector3InverseRotate c (XMVectorSubtract Center vOrigin) FrustumOrientation
  let BoxOrientation := XMQuaternionMultiply c BoxOrientation (XMQuaternionConjugate c FrustumOrientation)
  let Center := insertC c Center (XMVectorSplatOne c) 0 0 0 1
  let R := XMMatrixRotationQuaternion c BoxOrientation
  let radius := fun A => XMVector3Dot c Extents (XMVectorAbs c (pack3 (XMVector3Dot c A R.r0) (XMVector3Dot c A R.r1) (XMVector3Dot c A R.r2)))
  let step := fun (s : V4 α × V4 α × V4 α) P =>
    let Dist := XMVector4Dot c Center P
    let Radius := radius P
    (XMVectorOrInt s.1 (XMVectorGreater Dist Radius), XMVectorAndInt s.2.1 (XMVectorLessOrEqual Dist (XMVectorNegate c Radius)),
     XMVectorAndInt s.2.2 (XMVectorLessOrEqual Dist Zero))
  let s := (localPlanes self).foldl step (XMVectorFalseInt, XMVectorTrueInt, XMVectorTrueInt)
  if XMVector4EqualInt c s.1 XMVectorTrueInt then false
  else if XMVector4EqualInt c s.2.1 XMVectorTrueInt then true
  else if XMVector4EqualInt c s.2.2 XMVectorTrueInt then true
  else
  let Corners := localCorners self
  let proj := fun C => pack3 (XMVector3Dot c C R.r0) (XMVector3Dot c C R.r1) (XMVector3Dot c C R.r2)
  let FrustumMinMax := minMaxOf proj Corners
  let BoxDist := proj Center
  let Result := XMVectorOrInt (XMVectorGreater FrustumMinMax.1 (XMVectorAdd BoxDist Extents))
    (XMVectorLess FrustumMinMax.2 (XMVectorSubtract BoxDist Extents))
  if XMVector3AnyTrue c Result then false
  else
  let Outside := [R.r0, R.r1, R.r2].foldl (fun Outside Ri => (localEdges self).foldl (fun Outside Ej =>
    let Axis := XMVector3Cross c Ri Ej
    let FrustumMinMax := minMaxOf (fun C => XMVector3Dot c Axis C) Corners
    let Dist := XMVector3Dot c Center Axis
    let Radius := radius Axis
    let Outside := XMVectorOrInt Outside (XMVectorGreater Dist (XMVectorAdd FrustumMinMax.2 Radius))
    XMVectorOrInt Outside (XMVectorLess Dist (XMVectorSubtract FrustumMinMax.1 Radius))) Outside) s.1
  if XMVector4EqualInt c Outside XMVectorTrueInt then false else true

/-- collision.rs:3898-3906 -/
def IntersectsBox (c : Cfg) (self : BoundingFrustum α) (box_ : BoundingBox α) : Bool := IntersectsOrientedBox c self (orientBox box_)

/-- collision.rs:4118-4343 -/
def IntersectsFrustum (c : Cfg) (self fr : BoundingFrustum α) : Bool :=
  let OriginB := load3 self.Origin
  let OrientationB := self.Orientation
  let planesB : List (V4 α × V4 α) :=
    [(XMVectorSet c0 c0 cNeg1 c0, XMVectorNegate c (XMVectorReplicate self.Near)),
     (XMVectorSet c0 c0 c1 c0, XMVectorReplicate self.Far),
     (XMVectorSet c1 c0 (Lane.neg self.RightSlope) c0, XMVectorZero), (XMVectorSet cNeg1 c0 self.LeftSlope c0, XMVectorZero),
     (XMVectorSet c0 c1 (Lane.neg self.TopSlope) c0, XMVectorZero), (XMVectorSet c0 cNeg1 self.BottomSlope c0, XMVectorZero)]
  let OriginA := load3 fr.Origin
  let OrientationA := fr.Orientation
  let OriginA := XMVector3InverseRotate c (XMVectorSubtract OriginA OriginB) OrientationB
  let OrientationA := XMQuaternionMultiply c OrientationA (XMQuaternionConjugate c OrientationB)
  let RightTopA := XMVector3Rotate c (vRightTop fr) OrientationA
  let RightBottomA := XMVector3Rotate c (vRightBottom fr) OrientationA
  let LeftTopA := XMVector3Rotate c (vLeftTop fr) OrientationA
  let LeftBottomA := XMVector3Rotate c (vLeftBottom fr) OrientationA
  let NearA := XMVectorReplicate fr.Near
  let FarA := XMVectorReplicate fr.Far
  let C0 := XMVectorMultiplyAdd c RightTopA NearA OriginA
  let C4 := XMVectorMultiplyAdd c RightTopA FarA OriginA
  let CornersA := [C0, XMVectorMultiplyAdd c RightBottomA NearA OriginA, XMVectorMultiplyAdd c LeftTopA NearA OriginA,
    XMVectorMultiplyAdd c LeftBottomA NearA OriginA, C4, XMVectorMultiplyAdd c RightBottomA FarA OriginA,
    XMVectorMultiplyAdd c LeftTopA FarA OriginA, XMVectorMultiplyAdd c LeftBottomA FarA OriginA]
  let s := planesB.foldl (fun (s : V4 α × V4 α) P =>
    let m := minMaxOf (fun C => XMVector3Dot c P.1 C) CornersA
    (XMVectorOrInt s.1 (XMVectorGreater m.1 P.2), XMVectorAndInt s.2 (XMVectorLessOrEqual m.2 P.2))) (XMVectorFalseInt, XMVectorTrueInt)
  if XMVector4EqualInt c s.1 XMVectorTrueInt then false
  else if XMVector4EqualInt c s.2 XMVectorTrueInt then true
  else
  let CornersB := localCorners self
  let A0 := XMVector3Rotate c (XMVectorSet c0 c0 cNeg1 c0) OrientationA
  let A1 := XMVectorNegate c A0
  let A2 := XMVector3Rotate c (XMVectorSet c1 c0 (Lane.neg fr.RightSlope) c0) OrientationA
  let A3 := XMVector3Rotate c (XMVectorSet cNeg1 c0 fr.LeftSlope c0) OrientationA
  let A4 := XMVector3Rotate c (XMVectorSet c0 c1 (Lane.neg fr.TopSlope) c0) OrientationA
  let A5 := XMVector3Rotate c (XMVectorSet c0 cNeg1 fr.BottomSlope c0) OrientationA
  let planesA := [(A0, XMVector3Dot c A0 C0), (A1, XMVector3Dot c A1 C4), (A2, XMVector3Dot c A2 OriginA), (A3, XMVector3Dot c A3 OriginA),
    (A4, XMVector3Dot c A4 OriginA), (A5, XMVector3Dot c A5 OriginA)]
  let Outside := planesA.foldl (fun Outside P =>
    let m := minMaxOf (fun C => XMVector3Dot c P.1 C) CornersB
    XMVectorOrInt Outside (XMVectorGreater m.1 P.2)) s.1
  if XMVector4EqualInt c Outside XMVectorTrueInt then false
  else
  let EdgesA := [RightTopA, RightBottomA, LeftTopA, LeftBottomA, XMVectorSubtract RightTopA LeftTopA, XMVectorSubtract LeftBottomA LeftTopA]
  let Outside := EdgesA.foldl (fun Outside Ei => (localEdges self).foldl (fun Outside Ej =>
    let Axis := XMVector3Cross c Ei Ej
    let a := minMaxOf (fun C => XMVector3Dot c Axis C) CornersA
    let b := minMaxOf (fun C => XMVector3Dot c Axis C) CornersB
    let Outside := XMVectorOrInt Outside (XMVectorGreater a.1 b.2)
    XMVectorOrInt Outside (XMVectorGreater b.1 a.2)) Outside) Outside
  if XMVector4EqualInt c Outside XMVectorTrueInt then false else true

/-- collision.rs:4363-4519.  After the plane tests the source goes on with the vertices V0, V1, V2 as given, not with the ones
transformed into the local frame. -/
def IntersectsTriangle (c : Cfg) (self : BoundingFrustum α) (V0 V1 V2 : V4 α) : Bool :=
  let planes : List (V4 α) :=
    [XMVectorSet c0 c0 cNeg1 (Lane.neg self.Near), XMVectorSet c0 c0 c1 self.Far,
     XMVectorSet c1 c0 (Lane.neg self.RightSlope) c0, XMVectorSet cNeg1 c0 self.LeftSlope c0,
     XMVectorSet c0 c1 (Lane.neg self.TopSlope) c0, XMVectorSet c0 cNeg1 self.BottomSlope c0]
  let vOrigin := load3 self.Origin
  let vOrientation := self.Orientation
  let TV0 := XMVector3InverseRotate c (XMVectorSubtract V0 vOrigin) vOrientation
  let TV1 := XMVector3InverseRotate c (XMVectorSubtract V1 vOrigin) vOrientation
  let TV2 := XMVector3InverseRotate c (XMVectorSubtract V2 vOrigin) vOrientation
  let s := planes.foldl (fun (s : V4 α × V4 α) P =>
    let Dist0 := XMVector3Dot c TV0 P
    let Dist1 := XMVector3Dot c TV1 P
    let Dist2 := XMVector3Dot c TV2 P
    let MinDist := XMVectorMin Dist0 Dist1
    let MinDist := XMVectorMin MinDist Dist2
    let MaxDist := XMVectorMax Dist0 Dist1
    let MaxDist := XMVectorMax MaxDist Dist2
    let PlaneDist := XMVectorSplatW c P
    (XMVectorOrInt s.1 (XMVectorGreater MinDist PlaneDist), XMVectorAndInt s.2 (XMVectorLessOrEqual MaxDist PlaneDist)))
    (XMVectorFalseInt, XMVectorTrueInt)
  if XMVector4EqualInt c s.1 XMVectorTrueInt then false
  else if XMVector4EqualInt c s.2 XMVectorTrueInt then true
  else
  let Corners := localCorners self
  let Normal := XMVector3Cross c (XMVectorSubtract V1 V0) (XMVectorSubtract V2 V0)
  let Dist := XMVector3Dot c Normal V0
  let m := minMaxOf (fun C => XMVector3Dot c C Normal) Corners
  let Outside := XMVectorOrInt (XMVectorGreater m.1 Dist) (XMVectorLess m.2 Dist)
  if XMVector4EqualInt c Outside XMVectorTrueInt then false
  else
  let Outside := [XMVectorSubtract V1 V0, XMVectorSubtract V2 V1, XMVectorSubtract V0 V2].foldl (fun Outside Ei =>
    (localEdges self).foldl (fun Outside Ej =>
    let Axis := XMVector3Cross c Ei Ej
    let Dist0 := XMVector3Dot c V0 Axis
    let Dist1 := XMVector3Dot c V1 Axis
    let Dist2 := XMVector3Dot c V2 Axis
    let MinA := XMVectorMin Dist0 Dist1
    let MinA := XMVectorMin MinA Dist2
    let MaxA := XMVectorMax Dist0 Dist1
    let MaxA := XMVectorMax MaxA Dist2
    let b := minMaxOf (fun C => XMVector3Dot c Axis C) Corners
    let Outside := XMVectorOrInt Outside (XMVectorGreater MinA b.2)
    XMVectorOrInt Outside (XMVectorGreater b.1 MaxA)) Outside) Outside
  if XMVector4EqualInt c Outside XMVectorTrueInt then false else true

/-- The loop over the planes of `IntersectsRay` (collision.rs:4640-4693) with state (tnear, tfar); `none` is the early `return false`. -/
def rayLoop (c : Cfg) (self : BoundingFrustum α) (rayOrigin Direction : V4 α) : List (V4 α) → α → α → Option (α × α)
  | [], tnear, tfar => some (tnear, tfar)
  | P :: Ps, tnear, tfar =>
    let Plane := worldPlane c self P
    let AxisDotOrigin := XMPlaneDotCoord c Plane rayOrigin
    let AxisDotDirection := XMVector3Dot c Plane Direction
    if XMVector3LessOrEqual c (XMVectorAbs c AxisDotDirection) g_RayEpsilon then
      if XMVector3Greater c AxisDotOrigin g_XMZero then none
      else rayLoop c self rayOrigin Direction Ps tnear tfar
    else
      let vd := XMVectorGetX AxisDotDirection
      let vn := XMVectorGetX AxisDotOrigin
      let t := Lane.div (Lane.neg vn) vd
      if Lane.lt vd c0 then
        if Lane.gt t tfar then none
        else rayLoop c self rayOrigin Direction Ps (if Lane.gt t tnear then t else tnear) tfar
      else
        if Lane.lt t tnear then none
        else rayLoop c self rayOrigin Direction Ps tnear (if Lane.lt t tfar then t else tfar)

/-- collision.rs:4614-4707; the result is (return value, `*Dist`) -/
def IntersectsRay (c : Cfg) (self : BoundingFrustum α) (rayOrigin Direction : V4 α) : Bool × α :=
  if ContainsPoint c self rayOrigin = .CONTAINS then (true, c0)
  else
  match rayLoop c self rayOrigin Direction (localPlanes self) (ofBits 0xFF7FFFFF#32) (ofBits 0x7F7FFFFF#32) with
  | none => (false, c0)
  | some (tnear, tfar) =>
    let distance := if Lane.ge tnear c0 then tnear else tfar
    if Lane.ge distance c0 then (true, distance) else (false, c0)

/-- collision.rs:4854-4908 -/
def CreateFromMatrix (c : Cfg) (Projection : M4 α) (rhcoords : Bool) : BoundingFrustum α :=
  let matInverse := (XMMatrixInverse c Projection).1
  let P0 := XMVector4Transform c ⟨c1, c0, c1, c1⟩ matInverse
  let P1 := XMVector4Transform c ⟨cNeg1, c0, c1, c1⟩ matInverse
  let P2 := XMVector4Transform c ⟨c0, c1, c1, c1⟩ matInverse
  let P3 := XMVector4Transform c ⟨c0, cNeg1, c1, c1⟩ matInverse
  let P4 := XMVector4Transform c ⟨c0, c0, c0, c1⟩ matInverse
  let P5 := XMVector4Transform c ⟨c0, c0, c1, c1⟩ matInverse
  let P0 := XMVectorMultiply P0 (XMVectorReciprocal (XMVectorSplatZ c P0))
  let P1 := XMVectorMultiply P1 (XMVectorReciprocal (XMVectorSplatZ c P1))
  let P2 := XMVectorMultiply P2 (XMVectorReciprocal (XMVectorSplatZ c P2))
  let P3 := XMVectorMultiply P3 (XMVectorReciprocal (XMVectorSplatZ c P3))
  let P4 := XMVectorMultiply P4 (XMVectorReciprocal (XMVectorSplatW c P4))
  let P5 := XMVectorMultiply P5 (XMVectorReciprocal (XMVectorSplatW c P5))
  { Origin := ⟨c0, c0, c0⟩, Orientation := ⟨c0, c0, c0, c1⟩,
    RightSlope := XMVectorGetX P0, LeftSlope := XMVectorGetX P1, TopSlope := XMVectorGetY c P2, BottomSlope := XMVectorGetY c P3,
    Near := if rhcoords then XMVectorGetZ c P5 else XMVectorGetZ c P4, Far := if rhcoords then XMVectorGetZ c P4 else XMVectorGetZ c P5 }

/-- collision.rs:5020-5059 -/
def GetCorners (c : Cfg) (self : BoundingFrustum α) : List (F3 α) :=
  let vOrigin := load3 self.Origin
  let vOrientation := self.Orientation
  let vNear := XMVectorReplicate self.Near
  let vFar := XMVectorReplicate self.Far
  let vCorners := [XMVectorMultiply (vLeftTop self) vNear, XMVectorMultiply (vRightTop self) vNear,
    XMVectorMultiply (vRightBottom self) vNear, XMVectorMultiply (vLeftBottom self) vNear,
    XMVectorMultiply (vLeftTop self) vFar, XMVectorMultiply (vRightTop self) vFar,
    XMVectorMultiply (vRightBottom self) vFar, XMVectorMultiply (vLeftBottom self) vFar]
  vCorners.map fun C => store3 (XMVectorAdd (XMVector3Rotate c C vOrientation) vOrigin)

end BoundingFrustum

namespace BoundingSphere

/-- collision.rs:1013-1015 -/
def IntersectsFrustum (c : Cfg) (self : BoundingSphere α) (fr : BoundingFrustum α) : Bool := BoundingFrustum.IntersectsSphere c fr self

/-- collision.rs:917-957 -/
def ContainsFrustum (c : Cfg) (self : BoundingSphere α) (fr : BoundingFrustum α) : ContainmentType :=
  if !BoundingFrustum.IntersectsSphere c fr self then .DISJOINT else
  let vCenter := load3 self.Center
  let vRadius := XMVectorReplicate self.Radius
  let RadiusSq := XMVectorMultiply vRadius vRadius
  let vOrigin := load3 fr.Origin
  let vOrientation := fr.Orientation
  let InsideAll := (BoundingFrustum.localCorners fr).foldl (fun InsideAll C =>
    let C := XMVectorAdd (XMVector3Rotate c C vOrientation) vOrigin
    let d := XMVector3LengthSq c (XMVectorSubtract vCenter C)
    XMVectorAndInt InsideAll (XMVectorLessOrEqual d RadiusSq)) XMVectorTrueInt
  if XMVector3EqualInt c InsideAll XMVectorTrueInt then .CONTAINS else .INTERSECTS

/-- collision.rs:1448-1452 -/
def CreateFromFrustum (c : Cfg) (fr : BoundingFrustum α) : BoundingSphere α := CreateFromPoints c (BoundingFrustum.GetCorners c fr)

end BoundingSphere

namespace BoundingBox

/-- collision.rs:1877-1879 -/
def IntersectsFrustum (c : Cfg) (self : BoundingBox α) (fr : BoundingFrustum α) : Bool := BoundingFrustum.IntersectsBox c fr self

/-- collision.rs:1781-1802 -/
def ContainsFrustum (c : Cfg) (self : BoundingBox α) (fr : BoundingFrustum α) : ContainmentType :=
  if !BoundingFrustum.IntersectsBox c fr self then .DISJOINT else
  let vCenter := load3 self.Center
  let vExtents := load3 self.Extents
  let Inside := (BoundingFrustum.GetCorners c fr).foldl (fun Inside C =>
    let Point := load3 C
    let d := XMVectorAbs c (XMVectorSubtract Point vCenter)
    XMVectorAndInt Inside (XMVectorLessOrEqual d vExtents)) XMVectorTrueInt
  if XMVector3EqualInt c Inside XMVectorTrueInt then .CONTAINS else .INTERSECTS

end BoundingBox

namespace BoundingOrientedBox

/-- collision.rs:2892-2894 -/
def IntersectsFrustum (c : Cfg) (self : BoundingOrientedBox α) (fr : BoundingFrustum α) : Bool :=
  BoundingFrustum.IntersectsOrientedBox c fr self

/-- collision.rs:2598-2623 -/
def ContainsFrustum (c : Cfg) (self : BoundingOrientedBox α) (fr : BoundingFrustum α) : ContainmentType :=
  if !BoundingFrustum.IntersectsOrientedBox c fr self then .DISJOINT else
  let vCenter := load3 self.Center
  let vExtents := load3 self.Extents
  let vOrientation := self.Orientation
  if (BoundingFrustum.GetCorners c fr).all fun C =>
    XMVector3InBounds c (XMVector3InverseRotate c (XMVectorSubtract (load3 C) vCenter) vOrientation) vExtents
  then .CONTAINS else .INTERSECTS

end BoundingOrientedBox
end DXM
