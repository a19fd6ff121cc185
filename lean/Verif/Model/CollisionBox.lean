import Verif.Model.Collision

/-
src/collision.rs 1501-2321: `BoundingBox` (the tests against oriented boxes are in CollisionOBB.lean, those against frusta in
CollisionFrustum.lean), and the `BoundingSphere` tests against boxes.
-/

namespace DXM
open Lane
variable {α : Type} [Lane α]

namespace BoundingBox

/-- collision.rs:1505-1515 -/
def GetCorners (c : Cfg) (self : BoundingBox α) : List (F3 α) :=
  let vCenter := load3 self.Center
  let vExtents := load3 self.Extents
  g_BoxOffset.map fun o => store3 (XMVectorMultiplyAdd c vExtents o vCenter)

/-- The min/max loop of the two transforms (collision.rs:1539-1556, 1589-1606): the first corner initialises Min and Max. -/
def ofCorners (c : Cfg) (corner : V4 α → V4 α) : BoundingBox α :=
  let first := corner g_BoxOffset0
  let mm := g_BoxOffset1.foldl (fun (m : V4 α × V4 α) o => (XMVectorMin m.1 (corner o), XMVectorMax m.2 (corner o))) (first, first)
  let Min := mm.1
  let Max := mm.2
  { Center := store3 (XMVectorScale c (XMVectorAdd Min Max) cHalf), Extents := store3 (XMVectorScale c (XMVectorSubtract Max Min) cHalf) }

/-- collision.rs:1533-1557 -/
def TransformMatrix (c : Cfg) (self : BoundingBox α) (M : M4 α) : BoundingBox α :=
  let vCenter := load3 self.Center
  let vExtents := load3 self.Extents
  ofCorners c fun o => XMVector3Transform c (XMVectorMultiplyAdd c vExtents o vCenter) M

/-- collision.rs:1579-1607 -/
def TransformDecomposed (c : Cfg) (self : BoundingBox α) (Scale : α) (Rotation Translation : V4 α) : BoundingBox α :=
  let vCenter := load3 self.Center
  let vExtents := load3 self.Extents
  let VectorScale := XMVectorReplicate Scale
  ofCorners c fun o => XMVectorAdd (XMVector3Rotate c (XMVectorMultiply (XMVectorMultiplyAdd c vExtents o vCenter) VectorScale) Rotation) Translation

/-- collision.rs:1623-1628 -/
def ContainsPoint (c : Cfg) (self : BoundingBox α) (Point : V4 α) : ContainmentType :=
  let vCenter := load3 self.Center
  let vExtents := load3 self.Extents
  if XMVector3InBounds c (XMVectorSubtract Point vCenter) vExtents then .CONTAINS else .DISJOINT

/-- One separating-axis block of `IntersectsTriangle` (collision.rs:1966-1973; the block is repeated nine times, 1965-2061):
the projections of two vertices against the projected extents. -/
def axisTest (c : Cfg) (vExtents NoIntersection Axis TVa TVb : V4 α) : V4 α :=
  let pa := XMVector3Dot c TVa Axis
  let pb := XMVector3Dot c TVb Axis
  let Min := XMVectorMin pa pb
  let Max := XMVectorMax pa pb
  let Radius := XMVector3Dot c vExtents (XMVectorAbs c Axis)
  let NoIntersection := XMVectorOrInt NoIntersection (XMVectorGreater Min Radius)
  XMVectorOrInt NoIntersection (XMVectorLess Max (XMVectorNegate c Radius))

/-- collision.rs:1899-2064 -/
def IntersectsTriangle (c : Cfg) (self : BoundingBox α) (V0 V1 V2 : V4 α) : Bool :=
  let Zero := XMVectorZero
  let vCenter := load3 self.Center
  let vExtents := load3 self.Extents
  let BoxMin := XMVectorSubtract vCenter vExtents
  let BoxMax := XMVectorAdd vCenter vExtents
  let TriMin := XMVectorMin (XMVectorMin V0 V1) V2
  let TriMax := XMVectorMax (XMVectorMax V0 V1) V2
  let Disjoint := XMVectorOrInt (XMVectorGreater TriMin BoxMax) (XMVectorGreater BoxMin TriMax)
  if XMVector3AnyTrue c Disjoint then false else
  let Normal := XMVector3Cross c (XMVectorSubtract V1 V0) (XMVectorSubtract V2 V0)
  let Dist := XMVector3Dot c Normal V0
  let NormalSelect := XMVectorGreater Normal Zero
  let V_Min := XMVectorSelect BoxMax BoxMin NormalSelect
  let V_Max := XMVectorSelect BoxMin BoxMax NormalSelect
  let MinDist := XMVector3Dot c V_Min Normal
  let MaxDist := XMVector3Dot c V_Max Normal
  let NoIntersection := XMVectorGreater MinDist Dist
  let NoIntersection := XMVectorOrInt NoIntersection (XMVectorLess MaxDist Dist)
  let TV0 := XMVectorSubtract V0 vCenter
  let TV1 := XMVectorSubtract V1 vCenter
  let TV2 := XMVectorSubtract V2 vCenter
  let e0 := XMVectorSubtract TV1 TV0
  let e1 := XMVectorSubtract TV2 TV1
  let e2 := XMVectorSubtract TV0 TV2
  let e0 := insertC c e0 Zero 0 0 0 1
  let e1 := insertC c e1 Zero 0 0 0 1
  let e2 := insertC c e2 Zero 0 0 0 1
  let NoIntersection := axisTest c vExtents NoIntersection (XMVectorPermuteC c e0 (XMVectorNegate c e0) 3 6 1 0) TV0 TV2
  let NoIntersection := axisTest c vExtents NoIntersection (XMVectorPermuteC c e1 (XMVectorNegate c e1) 3 6 1 0) TV0 TV1
  let NoIntersection := axisTest c vExtents NoIntersection (XMVectorPermuteC c e2 (XMVectorNegate c e2) 3 6 1 0) TV0 TV1
  let NoIntersection := axisTest c vExtents NoIntersection (XMVectorPermuteC c e0 (XMVectorNegate c e0) 2 3 4 1) TV0 TV2
  let NoIntersection := axisTest c vExtents NoIntersection (XMVectorPermuteC c e1 (XMVectorNegate c e1) 2 3 4 1) TV0 TV1
  let NoIntersection := axisTest c vExtents NoIntersection (XMVectorPermuteC c e2 (XMVectorNegate c e2) 2 3 4 1) TV0 TV1
  let NoIntersection := axisTest c vExtents NoIntersection (XMVectorPermuteC c e0 (XMVectorNegate c e0) 5 0 3 2) TV0 TV2
  let NoIntersection := axisTest c vExtents NoIntersection (XMVectorPermuteC c e1 (XMVectorNegate c e1) 5 0 3 2) TV0 TV1
  let NoIntersection := axisTest c vExtents NoIntersection (XMVectorPermuteC c e2 (XMVectorNegate c e2) 5 0 3 2) TV0 TV1
  XMVector4NotEqualInt c NoIntersection XMVectorTrueInt

/-- collision.rs:1648-1666 -/
def ContainsTriangle (c : Cfg) (self : BoundingBox α) (V0 V1 V2 : V4 α) : ContainmentType :=
  if !IntersectsTriangle c self V0 V1 V2 then .DISJOINT else
  let vCenter := load3 self.Center
  let vExtents := load3 self.Extents
  let d := XMVectorAbs c (XMVectorSubtract V0 vCenter)
  let Inside := XMVectorLessOrEqual d vExtents
  let d := XMVectorAbs c (XMVectorSubtract V1 vCenter)
  let Inside := XMVectorAndInt Inside (XMVectorLessOrEqual d vExtents)
  let d := XMVectorAbs c (XMVectorSubtract V2 vCenter)
  let Inside := XMVectorAndInt Inside (XMVectorLessOrEqual d vExtents)
  if XMVector3EqualInt c Inside XMVectorTrueInt then .CONTAINS else .INTERSECTS

/-- collision.rs:1672-1712 -/
def ContainsSphere (c : Cfg) (self : BoundingBox α) (sh : BoundingSphere α) : ContainmentType :=
  let SphereCenter := load3 sh.Center
  let SphereRadius := XMVectorReplicate sh.Radius
  let BoxCenter := load3 self.Center
  let BoxExtents := load3 self.Extents
  let BoxMin := XMVectorSubtract BoxCenter BoxExtents
  let BoxMax := XMVectorAdd BoxCenter BoxExtents
  let d := XMVectorZero
  let LessThanMin := XMVectorLess SphereCenter BoxMin
  let GreaterThanMax := XMVectorGreater SphereCenter BoxMax
  let MinDelta := XMVectorSubtract SphereCenter BoxMin
  let MaxDelta := XMVectorSubtract SphereCenter BoxMax
  let d := XMVectorSelect d MinDelta LessThanMin
  let d := XMVectorSelect d MaxDelta GreaterThanMax
  let d2 := XMVector3Dot c d d
  if XMVector3Greater c d2 (XMVectorMultiply SphereRadius SphereRadius) then .DISJOINT else
  let InsideAll := XMVectorLessOrEqual (XMVectorAdd BoxMin SphereRadius) SphereCenter
  let InsideAll := XMVectorAndInt InsideAll (XMVectorLessOrEqual SphereCenter (XMVectorSubtract BoxMax SphereRadius))
  let InsideAll := XMVectorAndInt InsideAll (XMVectorGreater (XMVectorSubtract BoxMax BoxMin) SphereRadius)
  if XMVector3EqualInt c InsideAll XMVectorTrueInt then .CONTAINS else .INTERSECTS

/-- collision.rs:1718-1742 -/
def ContainsBox (c : Cfg) (self box_ : BoundingBox α) : ContainmentType :=
  let CenterA := load3 self.Center
  let ExtentsA := load3 self.Extents
  let CenterB := load3 box_.Center
  let ExtentsB := load3 box_.Extents
  let MinA := XMVectorSubtract CenterA ExtentsA
  let MaxA := XMVectorAdd CenterA ExtentsA
  let MinB := XMVectorSubtract CenterB ExtentsB
  let MaxB := XMVectorAdd CenterB ExtentsB
  let Disjoint := XMVectorOrInt (XMVectorGreater MinA MaxB) (XMVectorGreater MinB MaxA)
  if XMVector3AnyTrue c Disjoint then .DISJOINT else
  let Inside := XMVectorAndInt (XMVectorLessOrEqual MinA MinB) (XMVectorLessOrEqual MaxB MaxA)
  if XMVector3AllTrue c Inside then .CONTAINS else .INTERSECTS

/-- collision.rs:1808-1840 -/
def IntersectsSphere (c : Cfg) (self : BoundingBox α) (sh : BoundingSphere α) : Bool :=
  let SphereCenter := load3 sh.Center
  let SphereRadius := XMVectorReplicate sh.Radius
  let BoxCenter := load3 self.Center
  let BoxExtents := load3 self.Extents
  let BoxMin := XMVectorSubtract BoxCenter BoxExtents
  let BoxMax := XMVectorAdd BoxCenter BoxExtents
  let d := XMVectorZero
  let LessThanMin := XMVectorLess SphereCenter BoxMin
  let GreaterThanMax := XMVectorGreater SphereCenter BoxMax
  let MinDelta := XMVectorSubtract SphereCenter BoxMin
  let MaxDelta := XMVectorSubtract SphereCenter BoxMax
  let d := XMVectorSelect d MinDelta LessThanMin
  let d := XMVectorSelect d MaxDelta GreaterThanMax
  let d2 := XMVector3Dot c d d
  XMVector3LessOrEqual c d2 (XMVectorMultiply SphereRadius SphereRadius)

/-- collision.rs:1846-1863 -/
def IntersectsBox (c : Cfg) (self box_ : BoundingBox α) : Bool :=
  let CenterA := load3 self.Center
  let ExtentsA := load3 self.Extents
  let CenterB := load3 box_.Center
  let ExtentsB := load3 box_.Extents
  let MinA := XMVectorSubtract CenterA ExtentsA
  let MaxA := XMVectorAdd CenterA ExtentsA
  let MinB := XMVectorSubtract CenterB ExtentsB
  let MaxB := XMVectorAdd CenterB ExtentsB
  let Disjoint := XMVectorOrInt (XMVectorGreater MinA MaxB) (XMVectorGreater MinB MaxA)
  !XMVector3AnyTrue c Disjoint

/-- collision.rs:2080-2107 -/
def IntersectsPlane (c : Cfg) (self : BoundingBox α) (Plane : V4 α) : PlaneIntersectionType :=
  let vCenter := load3 self.Center
  let vExtents := load3 self.Extents
  let vCenter := insertC c vCenter (XMVectorSplatOne c) 0 0 0 1
  planeResult c (FastIntersectAxisAlignedBoxPlane c vCenter vExtents Plane)

/-- collision.rs:2132-2186; the result is (return value, `*Dist`) -/
def IntersectsRay (c : Cfg) (self : BoundingBox α) (Origin Direction : V4 α) : Bool × α :=
  let vCenter := load3 self.Center
  let vExtents := load3 self.Extents
  let TOrigin := XMVectorSubtract vCenter Origin
  let AxisDotOrigin := TOrigin
  let AxisDotDirection := Direction
  let IsParallel := XMVectorLessOrEqual (XMVectorAbs c AxisDotDirection) g_RayEpsilon
  let InverseAxisDotDirection := XMVectorReciprocal AxisDotDirection
  let t1 := XMVectorMultiply (XMVectorSubtract AxisDotOrigin vExtents) InverseAxisDotDirection
  let t2 := XMVectorMultiply (XMVectorAdd AxisDotOrigin vExtents) InverseAxisDotDirection
  let t_min := XMVectorSelect (XMVectorMin t1 t2) g_FltMin IsParallel
  let t_max := XMVectorSelect (XMVectorMax t1 t2) g_FltMax IsParallel
  let t_min := XMVectorMax t_min (XMVectorSplatY c t_min)
  let t_min := XMVectorMax t_min (XMVectorSplatZ c t_min)
  let t_max := XMVectorMin t_max (XMVectorSplatY c t_max)
  let t_max := XMVectorMin t_max (XMVectorSplatZ c t_max)
  let NoIntersection := XMVectorGreater (XMVectorSplatX c t_min) (XMVectorSplatX c t_max)
  let NoIntersection := XMVectorOrInt NoIntersection (XMVectorLess (XMVectorSplatX c t_max) XMVectorZero)
  let ParallelOverlap := XMVectorInBounds c AxisDotOrigin vExtents
  let NoIntersection := XMVectorOrInt NoIntersection (XMVectorAndCInt IsParallel ParallelOverlap)
  if !XMVector3AnyTrue c NoIntersection then (true, t_min.x) else (false, c0)

/-- collision.rs:2192-2251 -/
def ContainedBy (c : Cfg) (self : BoundingBox α) (Plane0 Plane1 Plane2 Plane3 Plane4 Plane5 : V4 α) : ContainmentType :=
  let vCenter := load3 self.Center
  let vExtents := load3 self.Extents
  let vCenter := insertC c vCenter (XMVectorSplatOne c) 0 0 0 1
  sixPlanes c (FastIntersectAxisAlignedBoxPlane c vCenter vExtents) Plane0 Plane1 Plane2 Plane3 Plane4 Plane5

/-- collision.rs:2257-2274 -/
def CreateMerged (c : Cfg) (b1 b2 : BoundingBox α) : BoundingBox α :=
  let b1Center := load3 b1.Center
  let b1Extents := load3 b1.Extents
  let b2Center := load3 b2.Center
  let b2Extents := load3 b2.Extents
  let Min := XMVectorSubtract b1Center b1Extents
  let Min := XMVectorMin Min (XMVectorSubtract b2Center b2Extents)
  let Max := XMVectorAdd b1Center b1Extents
  let Max := XMVectorMax Max (XMVectorAdd b2Center b2Extents)
  { Center := store3 (XMVectorScale c (XMVectorAdd Min Max) cHalf), Extents := store3 (XMVectorScale c (XMVectorSubtract Max Min) cHalf) }

/-- collision.rs:2280-2291 -/
def CreateFromSphere (c : Cfg) (sh : BoundingSphere α) : BoundingBox α :=
  let spCenter := load3 sh.Center
  let shRadius := XMVectorReplicate sh.Radius
  let Min := XMVectorSubtract spCenter shRadius
  let Max := XMVectorAdd spCenter shRadius
  { Center := store3 (XMVectorScale c (XMVectorAdd Min Max) cHalf), Extents := store3 (XMVectorScale c (XMVectorSubtract Max Min) cHalf) }

/-- The loop of `CreateFromPoints` (collision.rs:2303-2317): the first point initialises both bounds. -/
def minMax : List (F3 α) → V4 α × V4 α
  | [] => (g_XMInfinity, g_XMNegInfinity)
  | p :: ps => (ps.map load3).foldl (fun (m : V4 α × V4 α) Point => (XMVectorMin m.1 Point, XMVectorMax m.2 Point)) (load3 p, load3 p)

/-- collision.rs:2297-2321 -/
def CreateFromPoints (c : Cfg) (pPoints : List (F3 α)) : BoundingBox α :=
  let mm := minMax pPoints
  let vMin := mm.1
  let vMax := mm.2
  { Center := store3 (XMVectorScale c (XMVectorAdd vMin vMax) cHalf), Extents := store3 (XMVectorScale c (XMVectorSubtract vMax vMin) cHalf) }

end BoundingBox

namespace BoundingSphere

/-- collision.rs:997-999 -/
def IntersectsBox (c : Cfg) (self : BoundingSphere α) (box_ : BoundingBox α) : Bool := BoundingBox.IntersectsSphere c box_ self

/-- collision.rs:838-861 -/
def ContainsBox (c : Cfg) (self : BoundingSphere α) (box_ : BoundingBox α) : ContainmentType :=
  if !BoundingBox.IntersectsSphere c box_ self then .DISJOINT else
  let vCenter := load3 self.Center
  let vRadius := XMVectorReplicate self.Radius
  let RadiusSq := XMVectorMultiply vRadius vRadius
  let boxCenter := load3 box_.Center
  let boxExtents := load3 box_.Extents
  let offset := XMVectorSubtract boxCenter vCenter
  let InsideAll := g_BoxOffset.foldl (fun InsideAll o =>
    let C := XMVectorMultiplyAdd c boxExtents o offset
    let d := XMVector3LengthSq c C
    XMVectorAndInt InsideAll (XMVectorLessOrEqual d RadiusSq)) XMVectorTrueInt
  if XMVector3EqualInt c InsideAll XMVectorTrueInt then .CONTAINS else .INTERSECTS

end BoundingSphere

end DXM
