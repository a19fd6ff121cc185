import Verif.Model.Misc
import Verif.Model.Space

/-
src/collision.rs 11-1451: bounding volumes, the shared helpers of `mod internal` (without the covariance solver, which is in
CollisionOBB.lean) and `BoundingSphere` (the tests against frusta are in CollisionFrustum.lean, those against boxes in
CollisionBox.lean).

Conventions of all collision models:
* a struct field of type `XMFLOAT3` is an `F3`, one of type `XMFLOAT4` a `V4`; `XMLoadFloat3` of a field is `load3` and
  `XMStoreFloat3` to a field is `store3` (both builds: Props/LoadStore.lean, C06);
* `Out` parameters are results, and a `Dist: &mut f32` parameter is the second component of the result;
* an iterator of points is a `List`;
* `debug_assert!` is dropped: the release build does not evaluate it, and the theorems state what they need as hypotheses.
-/

namespace DXM
open Lane

/-- `ContainmentType` (collision.rs:13-19) -/
inductive ContainmentType where
  | DISJOINT
  | INTERSECTS
  | CONTAINS
deriving DecidableEq, Repr

/-- `PlaneIntersectionType` (collision.rs:27-33) -/
inductive PlaneIntersectionType where
  | FRONT
  | INTERSECTING
  | BACK
deriving DecidableEq, Repr

/-- `BoundingSphere` (collision.rs:42-47) -/
structure BoundingSphere (α : Type) where
  Center : F3 α
  Radius : α

/-- `BoundingBox` (collision.rs:55-60) -/
structure BoundingBox (α : Type) where
  Center : F3 α
  Extents : F3 α

/-- `BoundingOrientedBox` (collision.rs:68-76) -/
structure BoundingOrientedBox (α : Type) where
  Center : F3 α
  Extents : F3 α
  Orientation : V4 α

/-- `BoundingFrustum` (collision.rs:84-107) -/
structure BoundingFrustum (α : Type) where
  Origin : F3 α
  Orientation : V4 α
  RightSlope : α
  LeftSlope : α
  TopSlope : α
  BottomSlope : α
  Near : α
  Far : α

variable {α : Type} [Lane α]

/-- `XMLoadFloat3` of a struct field: lane w is +0 on every build (convert.rs:303-334). -/
def load3 (p : F3 α) : V4 α := ⟨p.x, p.y, p.z, c0⟩
/-- `XMStoreFloat3` to a struct field (convert.rs:1066-1098). -/
def store3 (v : V4 α) : F3 α := ⟨v.x, v.y, v.z⟩
/-- `XMVectorInsert(VD, VS, 0, s0, s1, s2, s3)` with literal flags (vector.rs:1026-1040); it cannot panic. -/
def insertC (c : Cfg) (VD VS : V4 α) (s0 s1 s2 s3 : BitVec 32) : V4 α := (XMVectorInsert c true VD VS 0 s0 s1 s2 s3).getD VD

/-- `g_BoxOffset[0]` (collision.rs:111) -/
def g_BoxOffset0 : V4 α := ⟨cNeg1, cNeg1, c1, c0⟩
/-- `g_BoxOffset[1 ..]` (collision.rs:112-118) -/
def g_BoxOffset1 : List (V4 α) :=
  [⟨c1, cNeg1, c1, c0⟩, ⟨c1, c1, c1, c0⟩, ⟨cNeg1, c1, c1, c0⟩,
   ⟨cNeg1, cNeg1, cNeg1, c0⟩, ⟨c1, cNeg1, cNeg1, c0⟩, ⟨c1, c1, cNeg1, c0⟩, ⟨cNeg1, c1, cNeg1, c0⟩]
/-- `g_BoxOffset` (collision.rs:110-119) -/
def g_BoxOffset : List (V4 α) := g_BoxOffset0 :: g_BoxOffset1
/-- `g_RayEpsilon` = 1e-20 (collision.rs:123) -/
def g_RayEpsilon : V4 α := .splat (ofBits 0x1E3CE508#32)
/-- `g_RayNegEpsilon` = -1e-20 (collision.rs:124) -/
def g_RayNegEpsilon : V4 α := .splat (ofBits 0x9E3CE508#32)
/-- `g_FltMin` = -FLT_MAX (collision.rs:125) -/
def g_FltMin : V4 α := .splat (ofBits 0xFF7FFFFF#32)
/-- `g_FltMax` = FLT_MAX (collision.rs:126) -/
def g_FltMax : V4 α := .splat (ofBits 0x7F7FFFFF#32)
/-- `internal::g_UnitVectorEpsilon` = `g_UnitQuaternionEpsilon` = `g_UnitPlaneEpsilon` = 1e-4 (collision.rs:131-133) -/
def g_UnitEpsilon : V4 α := .splat (ofBits 0x38D1B717#32)

/-- `internal::XMVector3AnyTrue` collision.rs:138-142 -/
def XMVector3AnyTrue (c : Cfg) (V : V4 α) : Bool :=
  let C := XMVectorSwizzleC c V 0 1 2 0
  XMComparisonAnyTrue (XMVector4EqualIntR c C XMVectorTrueInt)

/-- `internal::XMVector3AllTrue` collision.rs:147-151 -/
def XMVector3AllTrue (c : Cfg) (V : V4 α) : Bool :=
  let C := XMVectorSwizzleC c V 0 1 2 0
  XMComparisonAllTrue (XMVector4EqualIntR c C XMVectorTrueInt)

/-- `internal::XMVector3IsUnit` collision.rs:155-158 -/
def XMVector3IsUnit (c : Cfg) (V : V4 α) : Bool :=
  let Difference := XMVectorSubtract (XMVector3Length c V) (XMVectorSplatOne c)
  XMVector4Less c (XMVectorAbs c Difference) g_UnitEpsilon

/-- `internal::XMQuaternionIsUnit` collision.rs:162-165 -/
def XMQuaternionIsUnit (c : Cfg) (Q : V4 α) : Bool :=
  let Difference := XMVectorSubtract (XMVector4Length c Q) (XMVectorSplatOne c)
  XMVector4Less c (XMVectorAbs c Difference) g_UnitEpsilon

/-- `internal::XMPlaneIsUnit` collision.rs:169-172 -/
def XMPlaneIsUnit (c : Cfg) (Plane : V4 α) : Bool :=
  let Difference := XMVectorSubtract (XMVector3Length c Plane) (XMVectorSplatOne c)
  XMVector4Less c (XMVectorAbs c Difference) g_UnitEpsilon

/-- `internal::XMPlaneTransform` collision.rs:175-181 (not the one of misc.rs) -/
def planeTransform (c : Cfg) (Plane Rotation Translation : V4 α) : V4 α :=
  let vNormal := XMVector3Rotate c Plane Rotation
  let vD := XMVectorSubtract (XMVectorSplatW c Plane) (XMVector3Dot c vNormal Translation)
  insertC c vNormal vD 0 0 0 1

/-- `internal::PointOnLineSegmentNearestPoint` collision.rs:185-202 -/
def PointOnLineSegmentNearestPoint (c : Cfg) (S1 S2 P : V4 α) : V4 α :=
  let Dir := XMVectorSubtract S2 S1
  let Projection := XMVectorSubtract (XMVector3Dot c P Dir) (XMVector3Dot c S1 Dir)
  let LengthSq := XMVector3Dot c Dir Dir
  let t := XMVectorMultiply Projection (XMVectorReciprocal LengthSq)
  let Point := XMVectorMultiplyAdd c t Dir S1
  let SelectS1 := XMVectorLess Projection XMVectorZero
  let Point := XMVectorSelect Point S1 SelectS1
  let SelectS2 := XMVectorGreater Projection LengthSq
  let Point := XMVectorSelect Point S2 SelectS2
  Point

/-- `internal::PointOnPlaneInsideTriangle` collision.rs:207-226 -/
def PointOnPlaneInsideTriangle (c : Cfg) (P V0 V1 V2 : V4 α) : V4 α :=
  let N := XMVector3Cross c (XMVectorSubtract V2 V0) (XMVectorSubtract V1 V0)
  let C0 := XMVector3Cross c (XMVectorSubtract P V0) (XMVectorSubtract V1 V0)
  let C1 := XMVector3Cross c (XMVectorSubtract P V1) (XMVectorSubtract V2 V1)
  let C2 := XMVector3Cross c (XMVectorSubtract P V2) (XMVectorSubtract V0 V2)
  let Zero := XMVectorZero
  let Inside0 := XMVectorGreaterOrEqual (XMVector3Dot c C0 N) Zero
  let Inside1 := XMVectorGreaterOrEqual (XMVector3Dot c C1 N) Zero
  let Inside2 := XMVectorGreaterOrEqual (XMVector3Dot c C2 N) Zero
  XMVectorAndInt (XMVectorAndInt Inside0 Inside1) Inside2

/-- `internal::FastIntersectTrianglePlane` collision.rs:488-513; the result is (Outside, Inside). -/
def FastIntersectTrianglePlane (c : Cfg) (V0 V1 V2 Plane : V4 α) : V4 α × V4 α :=
  let Dist0 := XMVector4Dot c V0 Plane
  let Dist1 := XMVector4Dot c V1 Plane
  let Dist2 := XMVector4Dot c V2 Plane
  let MinDist := XMVectorMin Dist0 Dist1
  let MinDist := XMVectorMin MinDist Dist2
  let MaxDist := XMVectorMax Dist0 Dist1
  let MaxDist := XMVectorMax MaxDist Dist2
  let Zero := XMVectorZero
  let Outside := XMVectorGreater MinDist Zero
  let Inside := XMVectorLess MaxDist Zero
  (Outside, Inside)

/-- `internal::FastIntersectSpherePlane` collision.rs:517-530; the result is (Outside, Inside). -/
def FastIntersectSpherePlane (c : Cfg) (Center Radius Plane : V4 α) : V4 α × V4 α :=
  let Dist := XMVector4Dot c Center Plane
  let Outside := XMVectorGreater Dist Radius
  let Inside := XMVectorLess Dist (XMVectorNegate c Radius)
  (Outside, Inside)

/-- `internal::FastIntersectAxisAlignedBoxPlane` collision.rs:534-555; the result is (Outside, Inside). -/
def FastIntersectAxisAlignedBoxPlane (c : Cfg) (Center Extents Plane : V4 α) : V4 α × V4 α :=
  let Dist := XMVector4Dot c Center Plane
  let Radius := XMVector3Dot c Extents (XMVectorAbs c Plane)
  let Outside := XMVectorGreater Dist Radius
  let Inside := XMVectorLess Dist (XMVectorNegate c Radius)
  (Outside, Inside)

/-- `internal::FastIntersectOrientedBoxPlane` collision.rs:559-587; the result is (Outside, Inside). -/
def FastIntersectOrientedBoxPlane (c : Cfg) (Center Extents Axis0 Axis1 Axis2 Plane : V4 α) : V4 α × V4 α :=
  let Dist := XMVector4Dot c Center Plane
  let Radius := XMVector3Dot c Plane Axis0
  let Radius := insertC c Radius (XMVector3Dot c Plane Axis1) 0 1 0 0
  let Radius := insertC c Radius (XMVector3Dot c Plane Axis2) 0 0 1 0
  let Radius := XMVector3Dot c Extents (XMVectorAbs c Radius)
  let Outside := XMVectorGreater Dist Radius
  let Inside := XMVectorLess Dist (XMVectorNegate c Radius)
  (Outside, Inside)

/-- `internal::FastIntersectFrustumPlane` collision.rs:591-648; the result is (Outside, Inside). -/
def FastIntersectFrustumPlane (c : Cfg) (Point0 Point1 Point2 Point3 Point4 Point5 Point6 Point7 Plane : V4 α) : V4 α × V4 α :=
  let Min := XMVector3Dot c Plane Point0
  let Max := Min
  let Dist := XMVector3Dot c Plane Point1
  let Min := XMVectorMin Min Dist
  let Max := XMVectorMax Max Dist
  let Dist := XMVector3Dot c Plane Point2
  let Min := XMVectorMin Min Dist
  let Max := XMVectorMax Max Dist
  let Dist := XMVector3Dot c Plane Point3
  let Min := XMVectorMin Min Dist
  let Max := XMVectorMax Max Dist
  let Dist := XMVector3Dot c Plane Point4
  let Min := XMVectorMin Min Dist
  let Max := XMVectorMax Max Dist
  let Dist := XMVector3Dot c Plane Point5
  let Min := XMVectorMin Min Dist
  let Max := XMVectorMax Max Dist
  let Dist := XMVector3Dot c Plane Point6
  let Min := XMVectorMin Min Dist
  let Max := XMVectorMax Max Dist
  let Dist := XMVector3Dot c Plane Point7
  let Min := XMVectorMin Min Dist
  let Max := XMVectorMax Max Dist
  let PlaneDist := XMVectorNegate c (XMVectorSplatW c Plane)
  let Outside := XMVectorGreater Min PlaneDist
  let Inside := XMVectorLess Max PlaneDist
  (Outside, Inside)

/-- The common tail of the five `IntersectsPlane` functions (collision.rs:1099-1114, 2092-2107, 2964-2980, 4570-4588, 5556-5574). -/
def planeResult (c : Cfg) (r : V4 α × V4 α) : PlaneIntersectionType :=
  if XMVector4EqualInt c r.1 XMVectorTrueInt then .FRONT
  else if XMVector4EqualInt c r.2 XMVectorTrueInt then .BACK
  else .INTERSECTING

/-- The common body of the five `ContainedBy` functions (collision.rs:1210-1251, 2210-2251, 3106-3147, 4775-4832, 5630-5670):
`fast P` is the plane test of the volume. -/
def sixPlanes (c : Cfg) (fast : V4 α → V4 α × V4 α) (Plane0 Plane1 Plane2 Plane3 Plane4 Plane5 : V4 α) : ContainmentType :=
  let r := fast Plane0
  let AnyOutside := r.1
  let AllInside := r.2
  let r := fast Plane1
  let AnyOutside := XMVectorOrInt AnyOutside r.1
  let AllInside := XMVectorAndInt AllInside r.2
  let r := fast Plane2
  let AnyOutside := XMVectorOrInt AnyOutside r.1
  let AllInside := XMVectorAndInt AllInside r.2
  let r := fast Plane3
  let AnyOutside := XMVectorOrInt AnyOutside r.1
  let AllInside := XMVectorAndInt AllInside r.2
  let r := fast Plane4
  let AnyOutside := XMVectorOrInt AnyOutside r.1
  let AllInside := XMVectorAndInt AllInside r.2
  let r := fast Plane5
  let AnyOutside := XMVectorOrInt AnyOutside r.1
  let AllInside := XMVectorAndInt AllInside r.2
  if XMVector4EqualInt c AnyOutside XMVectorTrueInt then .DISJOINT
  else if XMVector4EqualInt c AllInside XMVectorTrueInt then .CONTAINS
  else .INTERSECTS

namespace BoundingSphere

/-- collision.rs:670-690 -/
def TransformMatrix (c : Cfg) (self : BoundingSphere α) (M : M4 α) : BoundingSphere α :=
  let vCenter := load3 self.Center
  let C := XMVector3Transform c vCenter M
  let dX := XMVector3Dot c M.r0 M.r0
  let dY := XMVector3Dot c M.r1 M.r1
  let dZ := XMVector3Dot c M.r2 M.r2
  let d := XMVectorMax dX (XMVectorMax dY dZ)
  let Scale := Lane.sqrt (XMVectorGetX d)
  { Center := store3 C, Radius := Lane.mul self.Radius Scale }

/-- collision.rs:713-725 -/
def TransformDecomposed (c : Cfg) (self : BoundingSphere α) (Scale : α) (Rotation Translation : V4 α) : BoundingSphere α :=
  let vCenter := load3 self.Center
  let vCenter := XMVectorAdd (XMVector3Rotate c (XMVectorScale c vCenter Scale) Rotation) Translation
  { Center := store3 vCenter, Radius := Lane.mul self.Radius Scale }

/-- collision.rs:741-753 -/
def ContainsPoint (c : Cfg) (self : BoundingSphere α) (Point : V4 α) : ContainmentType :=
  let vCenter := load3 self.Center
  let vRadius := XMVectorReplicate self.Radius
  let DistanceSquared := XMVector3LengthSq c (XMVectorSubtract Point vCenter)
  let RadiusSquared := XMVectorMultiply vRadius vRadius
  if XMVector3LessOrEqual c DistanceSquared RadiusSquared then .CONTAINS else .DISJOINT

/-- collision.rs:808-822 -/
def ContainsSphere (c : Cfg) (self sh : BoundingSphere α) : ContainmentType :=
  let Center1 := load3 self.Center
  let r1 := self.Radius
  let Center2 := load3 sh.Center
  let r2 := sh.Radius
  let V := XMVectorSubtract Center2 Center1
  let Dist := XMVector3Length c V
  let d := XMVectorGetX Dist
  if Lane.ge (Lane.add r1 r2) d then (if Lane.ge (Lane.sub r1 r2) d then .CONTAINS else .INTERSECTS) else .DISJOINT

/-- collision.rs:973-991 -/
def IntersectsSphere (c : Cfg) (self sh : BoundingSphere α) : Bool :=
  let vCenterA := load3 self.Center
  let vRadiusA := XMVectorReplicate self.Radius
  let vCenterB := load3 sh.Center
  let vRadiusB := XMVectorReplicate sh.Radius
  let Delta := XMVectorSubtract vCenterB vCenterA
  let DistanceSquared := XMVector3LengthSq c Delta
  let RadiusSquared := XMVectorAdd vRadiusA vRadiusB
  let RadiusSquared := XMVectorMultiply RadiusSquared RadiusSquared
  XMVector3LessOrEqual c DistanceSquared RadiusSquared

/-- collision.rs:1021-1072 -/
def IntersectsTriangle (c : Cfg) (self : BoundingSphere α) (V0 V1 V2 : V4 α) : Bool :=
  let vCenter := load3 self.Center
  let vRadius := XMVectorReplicate self.Radius
  let N := XMVector3Normalize c (XMVector3Cross c (XMVectorSubtract V1 V0) (XMVectorSubtract V2 V0))
  let Dist := XMVector3Dot c (XMVectorSubtract vCenter V0) N
  let NoIntersection := XMVectorLess Dist (XMVectorNegate c vRadius)
  let NoIntersection := XMVectorOrInt NoIntersection (XMVectorGreater Dist vRadius)
  let Point := XMVectorNegativeMultiplySubtract c N Dist vCenter
  let Intersection := PointOnPlaneInsideTriangle c Point V0 V1 V2
  let RadiusSq := XMVectorMultiply vRadius vRadius
  let Point := PointOnLineSegmentNearestPoint c V0 V1 vCenter
  let Intersection := XMVectorOrInt Intersection (XMVectorLessOrEqual (XMVector3LengthSq c (XMVectorSubtract vCenter Point)) RadiusSq)
  let Point := PointOnLineSegmentNearestPoint c V1 V2 vCenter
  let Intersection := XMVectorOrInt Intersection (XMVectorLessOrEqual (XMVector3LengthSq c (XMVectorSubtract vCenter Point)) RadiusSq)
  let Point := PointOnLineSegmentNearestPoint c V2 V0 vCenter
  let Intersection := XMVectorOrInt Intersection (XMVectorLessOrEqual (XMVector3LengthSq c (XMVectorSubtract vCenter Point)) RadiusSq)
  XMVector4EqualInt c (XMVectorAndCInt Intersection NoIntersection) XMVectorTrueInt

/-- collision.rs:773-792 -/
def ContainsTriangle (c : Cfg) (self : BoundingSphere α) (V0 V1 V2 : V4 α) : ContainmentType :=
  if !IntersectsTriangle c self V0 V1 V2 then .DISJOINT else
  let vCenter := load3 self.Center
  let vRadius := XMVectorReplicate self.Radius
  let RadiusSquared := XMVectorMultiply vRadius vRadius
  let DistanceSquared := XMVector3LengthSq c (XMVectorSubtract V0 vCenter)
  let Inside := XMVectorLessOrEqual DistanceSquared RadiusSquared
  let DistanceSquared := XMVector3LengthSq c (XMVectorSubtract V1 vCenter)
  let Inside := XMVectorAndInt Inside (XMVectorLessOrEqual DistanceSquared RadiusSquared)
  let DistanceSquared := XMVector3LengthSq c (XMVectorSubtract V2 vCenter)
  let Inside := XMVectorAndInt Inside (XMVectorLessOrEqual DistanceSquared RadiusSquared)
  if XMVector3EqualInt c Inside XMVectorTrueInt then .CONTAINS else .INTERSECTS

/-- collision.rs:1088-1115 -/
def IntersectsPlane (c : Cfg) (self : BoundingSphere α) (Plane : V4 α) : PlaneIntersectionType :=
  let vCenter := load3 self.Center
  let vRadius := XMVectorReplicate self.Radius
  let vCenter := insertC c vCenter (XMVectorSplatOne c) 0 0 0 1
  planeResult c (FastIntersectSpherePlane c vCenter vRadius Plane)

/-- collision.rs:1140-1186; the result is (return value, `*Dist`) -/
def IntersectsRay (c : Cfg) (self : BoundingSphere α) (Origin Direction : V4 α) : Bool × α :=
  let vCenter := load3 self.Center
  let vRadius := XMVectorReplicate self.Radius
  let l := XMVectorSubtract vCenter Origin
  let s := XMVector3Dot c l Direction
  let l2 := XMVector3Dot c l l
  let r2 := XMVectorMultiply vRadius vRadius
  let m2 := XMVectorNegativeMultiplySubtract c s s l2
  let NoIntersection := XMVectorAndInt (XMVectorLess s XMVectorZero) (XMVectorGreater l2 r2)
  let NoIntersection := XMVectorOrInt NoIntersection (XMVectorGreater m2 r2)
  let q := XMVectorSqrt (XMVectorSubtract r2 m2)
  let t1 := XMVectorSubtract s q
  let t2 := XMVectorAdd s q
  let OriginInside := XMVectorLessOrEqual l2 r2
  let t := XMVectorSelect t1 t2 OriginInside
  if XMVector4NotEqualInt c NoIntersection XMVectorTrueInt then (true, t.x) else (false, c0)

/-- collision.rs:1192-1251 -/
def ContainedBy (c : Cfg) (self : BoundingSphere α) (Plane0 Plane1 Plane2 Plane3 Plane4 Plane5 : V4 α) : ContainmentType :=
  let vCenter := load3 self.Center
  let vRadius := XMVectorReplicate self.Radius
  let vCenter := insertC c vCenter (XMVectorSplatOne c) 0 0 0 1
  sixPlanes c (FastIntersectSpherePlane c vCenter vRadius) Plane0 Plane1 Plane2 Plane3 Plane4 Plane5

/-- collision.rs:1257-1294; `XMMin`/`XMMax` are lib.rs:2118-2138 -/
def CreateMerged (c : Cfg) (S1 S2 : BoundingSphere α) : BoundingSphere α :=
  let Center1 := load3 S1.Center
  let r1 := S1.Radius
  let Center2 := load3 S2.Center
  let r2 := S2.Radius
  let V := XMVectorSubtract Center2 Center1
  let Dist := XMVector3Length c V
  let d := XMVectorGetX Dist
  if Lane.ge (Lane.add r1 r2) d && Lane.ge (Lane.sub r1 r2) d then S1
  else if Lane.ge (Lane.add r1 r2) d && Lane.ge (Lane.sub r2 r1) d then S2
  else
  let N := XMVectorDivide V Dist
  let t1 := Lane.minps (Lane.neg r1) (Lane.sub d r2)
  let t2 := Lane.maxps r1 (Lane.add d r2)
  let t_5 := Lane.mul (Lane.sub t2 t1) cHalf
  let NCenter := XMVectorAdd Center1 (XMVectorMultiply N (XMVectorReplicate (Lane.add t_5 t1)))
  { Center := store3 NCenter, Radius := t_5 }

/-- collision.rs:1300-1304 -/
def CreateFromBoundingBox (c : Cfg) (box_ : BoundingBox α) : BoundingSphere α :=
  let vExtents := load3 box_.Extents
  { Center := box_.Center, Radius := XMVectorGetX (XMVector3Length c vExtents) }

/-- collision.rs:1310-1315 -/
def CreateFromBoundingOrientedBox (c : Cfg) (box_ : BoundingOrientedBox α) : BoundingSphere α :=
  let vExtents := load3 box_.Extents
  { Center := box_.Center, Radius := XMVectorGetX (XMVector3Length c vExtents) }

/-- The six extreme points kept by the first loop of `CreateFromPoints` (collision.rs:1330-1335). -/
structure Extremes (α : Type) where
  MinX : V4 α
  MaxX : V4 α
  MinY : V4 α
  MaxY : V4 α
  MinZ : V4 α
  MaxZ : V4 α

/-- One iteration of the first loop, the point compared with the current extremes (collision.rs:1352-1379). -/
def Extremes.step (c : Cfg) (e : Extremes α) (Point : V4 α) : Extremes α :=
  let px := XMVectorGetX Point
  let py := XMVectorGetY c Point
  let pz := XMVectorGetZ c Point
  { MinX := if Lane.lt px (XMVectorGetX e.MinX) then Point else e.MinX
    MaxX := if Lane.gt px (XMVectorGetX e.MaxX) then Point else e.MaxX
    MinY := if Lane.lt py (XMVectorGetY c e.MinY) then Point else e.MinY
    MaxY := if Lane.gt py (XMVectorGetY c e.MaxY) then Point else e.MaxY
    MinZ := if Lane.lt pz (XMVectorGetZ c e.MinZ) then Point else e.MinZ
    MaxZ := if Lane.gt pz (XMVectorGetZ c e.MaxZ) then Point else e.MaxZ }

/-- The first loop (collision.rs:1330-1379): the first point initialises all six extremes. -/
def extremes (c : Cfg) : List (F3 α) → Extremes α
  | [] => ⟨g_XMInfinity, g_XMNegInfinity, g_XMInfinity, g_XMNegInfinity, g_XMInfinity, g_XMNegInfinity⟩
  | p :: ps => ((p :: ps).map load3).foldl (Extremes.step c)
      ⟨load3 p, load3 p, load3 p, load3 p, load3 p, load3 p⟩

/-- The initial sphere (collision.rs:1381-1423). -/
def initial (c : Cfg) (e : Extremes α) : V4 α × V4 α :=
  let DeltaX := XMVectorSubtract e.MaxX e.MinX
  let DistX := XMVector3Length c DeltaX
  let DeltaY := XMVectorSubtract e.MaxY e.MinY
  let DistY := XMVector3Length c DeltaY
  let DeltaZ := XMVectorSubtract e.MaxZ e.MinZ
  let DistZ := XMVector3Length c DeltaZ
  if XMVector3Greater c DistX DistY then
    if XMVector3Greater c DistX DistZ then (XMVectorLerp c e.MaxX e.MinX cHalf, XMVectorScale c DistX cHalf)
    else (XMVectorLerp c e.MaxZ e.MinZ cHalf, XMVectorScale c DistZ cHalf)
  else if XMVector3Greater c DistY DistZ then (XMVectorLerp c e.MaxY e.MinY cHalf, XMVectorScale c DistY cHalf)
  else (XMVectorLerp c e.MaxZ e.MinZ cHalf, XMVectorScale c DistZ cHalf)

/-- One iteration of the second loop: grow the sphere (center, radius) to the point (collision.rs:1428-1439). -/
def grow (c : Cfg) (s : V4 α × V4 α) (Point : V4 α) : V4 α × V4 α :=
  let vCenter := s.1
  let vRadius := s.2
  let Delta := XMVectorSubtract Point vCenter
  let Dist := XMVector3Length c Delta
  if XMVector3Greater c Dist vRadius then
    let vRadius := XMVectorScale c (XMVectorAdd vRadius Dist) cHalf
    let vCenter := XMVectorAdd vCenter (XMVectorMultiply (XMVectorSubtract (XMVectorReplicate c1) (XMVectorDivide vRadius Dist)) Delta)
    (vCenter, vRadius)
  else (vCenter, vRadius)

/-- collision.rs:1321-1444 -/
def CreateFromPoints (c : Cfg) (pPoints : List (F3 α)) : BoundingSphere α :=
  let s := (pPoints.map load3).foldl (grow c) (initial c (extremes c pPoints))
  { Center := store3 s.1, Radius := s.2.x }

end BoundingSphere

end DXM
