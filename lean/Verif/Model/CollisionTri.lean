import Verif.Model.Collision

/-
src/collision.rs 5060-5672: the module `triangle_tests`.
-/

namespace DXM
open Lane
variable {α : Type} [Lane α]

namespace TriangleTests

/-- collision.rs:5096-5191; the result is (return value, `*Dist`) -/
def IntersectsRay (c : Cfg) (Origin Direction V0 V1 V2 : V4 α) : Bool × α :=
  let Zero := XMVectorZero
  let e1 := XMVectorSubtract V1 V0
  let e2 := XMVectorSubtract V2 V0
  let p := XMVector3Cross c Direction e2
  let det := XMVector3Dot c e1 p
  if XMVector3GreaterOrEqual c det g_RayEpsilon then
    let s := XMVectorSubtract Origin V0
    let u := XMVector3Dot c s p
    let NoIntersection := XMVectorLess u Zero
    let NoIntersection := XMVectorOrInt NoIntersection (XMVectorGreater u det)
    let q := XMVector3Cross c s e1
    let v := XMVector3Dot c Direction q
    let NoIntersection := XMVectorOrInt NoIntersection (XMVectorLess v Zero)
    let NoIntersection := XMVectorOrInt NoIntersection (XMVectorGreater (XMVectorAdd u v) det)
    let t := XMVector3Dot c e2 q
    let NoIntersection := XMVectorOrInt NoIntersection (XMVectorLess t Zero)
    if XMVector4EqualInt c NoIntersection XMVectorTrueInt then (false, c0)
    else (true, (XMVectorDivide t det).x)
  else if XMVector3LessOrEqual c det g_RayNegEpsilon then
    let s := XMVectorSubtract Origin V0
    let u := XMVector3Dot c s p
    let NoIntersection := XMVectorGreater u Zero
    let NoIntersection := XMVectorOrInt NoIntersection (XMVectorLess u det)
    let q := XMVector3Cross c s e1
    let v := XMVector3Dot c Direction q
    let NoIntersection := XMVectorOrInt NoIntersection (XMVectorGreater v Zero)
    let NoIntersection := XMVectorOrInt NoIntersection (XMVectorLess (XMVectorAdd u v) det)
    let t := XMVector3Dot c e2 q
    let NoIntersection := XMVectorOrInt NoIntersection (XMVectorGreater t Zero)
    if XMVector4EqualInt c NoIntersection XMVectorTrueInt then (false, c0)
    else (true, (XMVectorDivide t det).x)
  else (false, c0)

/-- collision.rs:5226 `SelectY` -/
def SelectY : V4 α := ⟨ofBits 0#32, ofBits 0xFFFFFFFF#32, ofBits 0#32, ofBits 0#32⟩
/-- collision.rs:5227 `SelectZ` -/
def SelectZ : V4 α := ⟨ofBits 0#32, ofBits 0#32, ofBits 0xFFFFFFFF#32, ofBits 0#32⟩
/-- collision.rs:5228 `Select0111` -/
def Select0111 : V4 α := ⟨ofBits 0#32, ofBits 0xFFFFFFFF#32, ofBits 0xFFFFFFFF#32, ofBits 0xFFFFFFFF#32⟩
/-- collision.rs:5229 `Select1011` -/
def Select1011 : V4 α := ⟨ofBits 0xFFFFFFFF#32, ofBits 0#32, ofBits 0xFFFFFFFF#32, ofBits 0xFFFFFFFF#32⟩
/-- collision.rs:5230 `Select1101` -/
def Select1101 : V4 α := ⟨ofBits 0xFFFFFFFF#32, ofBits 0xFFFFFFFF#32, ofBits 0#32, ofBits 0xFFFFFFFF#32⟩

/-- The signed plane distances of three points (collision.rs:5241-5243, 5268-5270): lanes x, y, z for `P0`, `P1`, `P2` (w as x). -/
def planeDists (c : Cfg) (N O P0 P1 P2 : V4 α) : V4 α :=
  let D := XMVector3Dot c N (XMVectorSubtract P0 O)
  let D := XMVectorSelect D (XMVector3Dot c N (XMVectorSubtract P1 O)) SelectY
  XMVectorSelect D (XMVector3Dot c N (XMVectorSubtract P2 O)) SelectZ

/-- One coplanar edge test (collision.rs:5296-5305 and its five copies up to 5360): `true` means the function returns `false`. -/
def edgeOut (c : Cfg) (N E0 E1 P0 P1 P2 : V4 α) : Bool :=
  let Axis := XMVector3Cross c N (XMVectorSubtract E1 E0)
  let Dist := XMVector3Dot c Axis E0
  let MinDist := XMVector3Dot c P0 Axis
  let MinDist := XMVectorMin MinDist (XMVector3Dot c P1 Axis)
  let MinDist := XMVectorMin MinDist (XMVector3Dot c P2 Axis)
  XMVector4GreaterOrEqual c MinDist Dist

/-- The singular vertex and the reordered winding (collision.rs:5379-5433, and 5435-5489 for B); `none` is the failing branch. -/
def singular (c : Cfg) (DistIsLess DistIsGreater DistIsZero P0 P1 P2 : V4 α) : Option (V4 α × V4 α × V4 α × Bool) :=
  let DistIsLessEqual := XMVectorOrInt DistIsLess DistIsZero
  let DistIsGreaterEqual := XMVectorOrInt DistIsGreater DistIsZero
  if XMVector3AllTrue c (XMVectorSelect DistIsGreaterEqual DistIsLess Select0111) ||
      XMVector3AllTrue c (XMVectorSelect DistIsGreater DistIsLessEqual Select0111) then some (P0, P1, P2, true)
  else if XMVector3AllTrue c (XMVectorSelect DistIsLessEqual DistIsGreater Select0111) ||
      XMVector3AllTrue c (XMVectorSelect DistIsLess DistIsGreaterEqual Select0111) then some (P0, P2, P1, false)
  else if XMVector3AllTrue c (XMVectorSelect DistIsGreaterEqual DistIsLess Select1011) ||
      XMVector3AllTrue c (XMVectorSelect DistIsGreater DistIsLessEqual Select1011) then some (P1, P2, P0, true)
  else if XMVector3AllTrue c (XMVectorSelect DistIsLessEqual DistIsGreater Select1011) ||
      XMVector3AllTrue c (XMVectorSelect DistIsLess DistIsGreaterEqual Select1011) then some (P1, P0, P2, false)
  else if XMVector3AllTrue c (XMVectorSelect DistIsGreaterEqual DistIsLess Select1101) ||
      XMVector3AllTrue c (XMVectorSelect DistIsGreater DistIsLessEqual Select1101) then some (P2, P0, P1, true)
  else if XMVector3AllTrue c (XMVectorSelect DistIsLessEqual DistIsGreater Select1101) ||
      XMVector3AllTrue c (XMVectorSelect DistIsLess DistIsGreaterEqual Select1101) then some (P2, P1, P0, false)
  else none

/-- collision.rs:5218-5520.  `ADistIsZero` is computed from `BDist`, as in the source (line 5274). -/
def IntersectsTriangle (c : Cfg) (A0 A1 A2 B0 B1 B2 : V4 α) : Bool :=
  let Zero := XMVectorZero
  let N1 := XMVector3Cross c (XMVectorSubtract A1 A0) (XMVectorSubtract A2 A0)
  let BDist := planeDists c N1 A0 B0 B1 B2
  let rBZ := XMVectorGreaterR c g_RayEpsilon (XMVectorAbs c BDist)
  let BDistIsZeroCR := rBZ.1
  let BDistIsZero := rBZ.2
  let BDist := XMVectorSelect BDist Zero BDistIsZero
  let rBL := XMVectorGreaterR c Zero BDist
  let BDistIsLessCR := rBL.1
  let BDistIsLess := rBL.2
  let rBG := XMVectorGreaterR c BDist Zero
  let BDistIsGreaterCR := rBG.1
  let BDistIsGreater := rBG.2
  if XMComparisonAllTrue BDistIsLessCR || XMComparisonAllTrue BDistIsGreaterCR then false else
  let N2 := XMVector3Cross c (XMVectorSubtract B1 B0) (XMVectorSubtract B2 B0)
  let ADist := planeDists c N2 B0 A0 A1 A2
  let rAZ := XMVectorGreaterR c g_RayEpsilon (XMVectorAbs c BDist)
  let ADistIsZeroCR := rAZ.1
  let ADistIsZero := rAZ.2
  let ADist := XMVectorSelect ADist Zero ADistIsZero
  let rAL := XMVectorGreaterR c Zero ADist
  let ADistIsLessCR := rAL.1
  let ADistIsLess := rAL.2
  let rAG := XMVectorGreaterR c ADist Zero
  let ADistIsGreaterCR := rAG.1
  let ADistIsGreater := rAG.2
  if XMComparisonAllTrue ADistIsLessCR || XMComparisonAllTrue ADistIsGreaterCR then false else
  if XMComparisonAllTrue ADistIsZeroCR || XMComparisonAllTrue BDistIsZeroCR then
    if edgeOut c N1 A0 A1 B0 B1 B2 then false
    else if edgeOut c N1 A1 A2 B0 B1 B2 then false
    else if edgeOut c N1 A2 A0 B0 B1 B2 then false
    else if edgeOut c N2 B0 B1 A0 A1 A2 then false
    else if edgeOut c N2 B1 B2 A0 A1 A2 then false
    else if edgeOut c N2 B2 B0 A0 A1 A2 then false
    else true
  else
  match singular c ADistIsLess ADistIsGreater ADistIsZero A0 A1 A2 with
  | none => false
  | some (AA0, AA1, AA2, bPositiveA) =>
  match singular c BDistIsLess BDistIsGreater BDistIsZero B0 B1 B2 with
  | none => false
  | some (BB0, BB1, BB2, bPositiveB) =>
  let Delta0 := if bPositiveA ^^ bPositiveB then XMVectorSubtract BB0 AA0 else XMVectorSubtract AA0 BB0
  let Delta1 := if bPositiveA ^^ bPositiveB then XMVectorSubtract AA0 BB0 else XMVectorSubtract BB0 AA0
  let Dist0 := XMVector3Dot c Delta0 (XMVector3Cross c (XMVectorSubtract BB2 BB0) (XMVectorSubtract AA2 AA0))
  if XMVector4Greater c Dist0 Zero then false else
  let Dist1 := XMVector3Dot c Delta1 (XMVector3Cross c (XMVectorSubtract BB1 BB0) (XMVectorSubtract AA1 AA0))
  if XMVector4Greater c Dist1 Zero then false else
  true

/-- collision.rs:5542-5575 -/
def IntersectsPlane (c : Cfg) (V0 V1 V2 Plane : V4 α) : PlaneIntersectionType :=
  let One := XMVectorSplatOne c
  let TV0 := insertC c V0 One 0 0 0 1
  let TV1 := insertC c V1 One 0 0 0 1
  let TV2 := insertC c V2 One 0 0 0 1
  planeResult c (FastIntersectTrianglePlane c TV0 TV1 TV2 Plane)

/-- collision.rs:5611-5671 -/
def ContainedBy (c : Cfg) (V0 V1 V2 Plane0 Plane1 Plane2 Plane3 Plane4 Plane5 : V4 α) : ContainmentType :=
  let One := XMVectorSplatOne c
  let TV0 := insertC c V0 One 0 0 0 1
  let TV1 := insertC c V1 One 0 0 0 1
  let TV2 := insertC c V2 One 0 0 0 1
  sixPlanes c (FastIntersectTrianglePlane c TV0 TV1 TV2) Plane0 Plane1 Plane2 Plane3 Plane4 Plane5

end TriangleTests
end DXM
