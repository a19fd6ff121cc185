import Verif.Model.Vector1

/-
src/vector.rs, part 3: the Vector2/3/4 predicates (7266-7790, 9038-9640, 11194-11817).
SSE bodies read the comparison mask with `movemask`; NOI bodies combine scalar comparisons.
-/

namespace DXM
open Lane
variable {α : Type} [Lane α]

/-- vector.rs:7266-7287 -/
def XMVector2Equal (c : Cfg) (V1 V2 : V4 α) : Bool :=
  if c.sse then (SSE.movemask (SSE.cmpeq V1 V2) &&& 3) == 3 else eq V1.x V2.x && eq V1.y V2.y
/-- vector.rs:7293-7335 -/
def XMVector2EqualR (c : Cfg) (V1 V2 : V4 α) : Nat :=
  if c.sse then (if (SSE.movemask (SSE.cmpeq V1 V2) &&& 3) == 3 then XM_CRMASK_CR6TRUE else if (SSE.movemask (SSE.cmpeq V1 V2) &&& 3) == 0 then XM_CRMASK_CR6FALSE else 0) else (if eq V1.x V2.x && eq V1.y V2.y then XM_CRMASK_CR6TRUE else if ne V1.x V2.x && ne V1.y V2.y then XM_CRMASK_CR6FALSE else 0)
/-- vector.rs:7341-7361 -/
def XMVector2EqualInt (c : Cfg) (V1 V2 : V4 α) : Bool :=
  if c.sse then (SSE.movemask (SSE.cmpeq_epi32 V1 V2) &&& 3) == 3 else ieq V1.x V2.x && ieq V1.y V2.y
/-- vector.rs:7367-7408 -/
def XMVector2EqualIntR (c : Cfg) (V1 V2 : V4 α) : Nat :=
  if c.sse then (if (SSE.movemask (SSE.cmpeq_epi32 V1 V2) &&& 3) == 3 then XM_CRMASK_CR6TRUE else if (SSE.movemask (SSE.cmpeq_epi32 V1 V2) &&& 3) == 0 then XM_CRMASK_CR6FALSE else 0) else (if ieq V1.x V2.x && ieq V1.y V2.y then XM_CRMASK_CR6TRUE else if !ieq V1.x V2.x && !ieq V1.y V2.y then XM_CRMASK_CR6FALSE else 0)
/-- vector.rs:7414-7445 -/
def XMVector2NearEqual (c : Cfg) (V1 V2 Epsilon : V4 α) : Bool :=
  if c.sse then (SSE.movemask (SSE.cmple (SSE.max (SSE.sub SSE.setzero (SSE.sub V1 V2)) (SSE.sub V1 V2)) Epsilon) &&& 3) == 3 else le (abs (Lane.sub V1.x V2.x)) Epsilon.x && le (abs (Lane.sub V1.y V2.y)) Epsilon.y
/-- vector.rs:7452-7473 -/
def XMVector2NotEqual (c : Cfg) (V1 V2 : V4 α) : Bool :=
  if c.sse then (SSE.movemask (SSE.cmpeq V1 V2) &&& 3) != 3 else ne V1.x V2.x || ne V1.y V2.y
/-- vector.rs:7479-7499 -/
def XMVector2NotEqualInt (c : Cfg) (V1 V2 : V4 α) : Bool :=
  if c.sse then (SSE.movemask (SSE.cmpeq_epi32 V1 V2) &&& 3) != 3 else !ieq V1.x V2.x || !ieq V1.y V2.y
/-- vector.rs:7505-7526 -/
def XMVector2Greater (c : Cfg) (V1 V2 : V4 α) : Bool :=
  if c.sse then (SSE.movemask (SSE.cmpgt V1 V2) &&& 3) == 3 else gt V1.x V2.x && gt V1.y V2.y
/-- vector.rs:7532-7573 -/
def XMVector2GreaterR (c : Cfg) (V1 V2 : V4 α) : Nat :=
  if c.sse then (if (SSE.movemask (SSE.cmpgt V1 V2) &&& 3) == 3 then XM_CRMASK_CR6TRUE else if (SSE.movemask (SSE.cmpgt V1 V2) &&& 3) == 0 then XM_CRMASK_CR6FALSE else 0) else (if gt V1.x V2.x && gt V1.y V2.y then XM_CRMASK_CR6TRUE else if le V1.x V2.x && le V1.y V2.y then XM_CRMASK_CR6FALSE else 0)
/-- vector.rs:7579-7599 -/
def XMVector2GreaterOrEqual (c : Cfg) (V1 V2 : V4 α) : Bool :=
  if c.sse then (SSE.movemask (SSE.cmpge V1 V2) &&& 3) == 3 else ge V1.x V2.x && ge V1.y V2.y
/-- vector.rs:7605-7646 -/
def XMVector2GreaterOrEqualR (c : Cfg) (V1 V2 : V4 α) : Nat :=
  if c.sse then (if (SSE.movemask (SSE.cmpge V1 V2) &&& 3) == 3 then XM_CRMASK_CR6TRUE else if (SSE.movemask (SSE.cmpge V1 V2) &&& 3) == 0 then XM_CRMASK_CR6FALSE else 0) else (if ge V1.x V2.x && ge V1.y V2.y then XM_CRMASK_CR6TRUE else if lt V1.x V2.x && lt V1.y V2.y then XM_CRMASK_CR6FALSE else 0)
/-- vector.rs:7652-7672 -/
def XMVector2Less (c : Cfg) (V1 V2 : V4 α) : Bool :=
  if c.sse then (SSE.movemask (SSE.cmplt V1 V2) &&& 3) == 3 else lt V1.x V2.x && lt V1.y V2.y
/-- vector.rs:7678-7698 -/
def XMVector2LessOrEqual (c : Cfg) (V1 V2 : V4 α) : Bool :=
  if c.sse then (SSE.movemask (SSE.cmple V1 V2) &&& 3) == 3 else le V1.x V2.x && le V1.y V2.y
/-- vector.rs:7704-7733 -/
def XMVector2InBounds (c : Cfg) (V Bounds : V4 α) : Bool :=
  if c.sse then (SSE.movemask (SSE.and (SSE.cmple V Bounds) (SSE.cmple (SSE.mul Bounds g_XMNegativeOne) V)) &&& 3) == 3 else (le V.x Bounds.x && ge V.x (neg Bounds.x)) && (le V.y Bounds.y && ge V.y (neg Bounds.y))
/-- vector.rs:7739-7761 -/
def XMVector2IsNaN (c : Cfg) (V : V4 α) : Bool :=
  if c.sse then (SSE.movemask (SSE.cmpneq V V) &&& 3) != 0 else isNaN V.x || isNaN V.y
/-- vector.rs:7767-7791 -/
def XMVector2IsInfinite (c : Cfg) (V : V4 α) : Bool :=
  if c.sse then (SSE.movemask (SSE.cmpeq (SSE.and V g_XMAbsMask) g_XMInfinity) &&& 3) != 0 else isInf V.x || isInf V.y
/-- vector.rs:9038-9058 -/
def XMVector3Equal (c : Cfg) (V1 V2 : V4 α) : Bool :=
  if c.sse then (SSE.movemask (SSE.cmpeq V1 V2) &&& 7) == 7 else eq V1.x V2.x && eq V1.y V2.y && eq V1.z V2.z
/-- vector.rs:9078-9121 -/
def XMVector3EqualR (c : Cfg) (V1 V2 : V4 α) : Nat :=
  if c.sse then (if (SSE.movemask (SSE.cmpeq V1 V2) &&& 7) == 7 then XM_CRMASK_CR6TRUE else if (SSE.movemask (SSE.cmpeq V1 V2) &&& 7) == 0 then XM_CRMASK_CR6FALSE else 0) else (if eq V1.x V2.x && eq V1.y V2.y && eq V1.z V2.z then XM_CRMASK_CR6TRUE else if ne V1.x V2.x && ne V1.y V2.y && ne V1.z V2.z then XM_CRMASK_CR6FALSE else 0)
/-- vector.rs:9151-9171 -/
def XMVector3EqualInt (c : Cfg) (V1 V2 : V4 α) : Bool :=
  if c.sse then (SSE.movemask (SSE.cmpeq_epi32 V1 V2) &&& 7) == 7 else ieq V1.x V2.x && ieq V1.y V2.y && ieq V1.z V2.z
/-- vector.rs:9179-9222 -/
def XMVector3EqualIntR (c : Cfg) (V1 V2 : V4 α) : Nat :=
  if c.sse then (if (SSE.movemask (SSE.cmpeq_epi32 V1 V2) &&& 7) == 7 then XM_CRMASK_CR6TRUE else if (SSE.movemask (SSE.cmpeq_epi32 V1 V2) &&& 7) == 0 then XM_CRMASK_CR6FALSE else 0) else (if ieq V1.x V2.x && ieq V1.y V2.y && ieq V1.z V2.z then XM_CRMASK_CR6TRUE else if !ieq V1.x V2.x && !ieq V1.y V2.y && !ieq V1.z V2.z then XM_CRMASK_CR6FALSE else 0)
/-- vector.rs:9228-9263 -/
def XMVector3NearEqual (c : Cfg) (V1 V2 Epsilon : V4 α) : Bool :=
  if c.sse then (SSE.movemask (SSE.cmple (SSE.max (SSE.sub SSE.setzero (SSE.sub V1 V2)) (SSE.sub V1 V2)) Epsilon) &&& 7) == 7 else le (abs (Lane.sub V1.x V2.x)) Epsilon.x && le (abs (Lane.sub V1.y V2.y)) Epsilon.y && le (abs (Lane.sub V1.z V2.z)) Epsilon.z
/-- vector.rs:9269-9289 -/
def XMVector3NotEqual (c : Cfg) (V1 V2 : V4 α) : Bool :=
  if c.sse then (SSE.movemask (SSE.cmpeq V1 V2) &&& 7) != 7 else ne V1.x V2.x || ne V1.y V2.y || ne V1.z V2.z
/-- vector.rs:9295-9315 -/
def XMVector3NotEqualInt (c : Cfg) (V1 V2 : V4 α) : Bool :=
  if c.sse then (SSE.movemask (SSE.cmpeq_epi32 V1 V2) &&& 7) != 7 else !ieq V1.x V2.x || !ieq V1.y V2.y || !ieq V1.z V2.z
/-- vector.rs:9321-9341 -/
def XMVector3Greater (c : Cfg) (V1 V2 : V4 α) : Bool :=
  if c.sse then (SSE.movemask (SSE.cmpgt V1 V2) &&& 7) == 7 else gt V1.x V2.x && gt V1.y V2.y && gt V1.z V2.z
/-- vector.rs:9348-9391 -/
def XMVector3GreaterR (c : Cfg) (V1 V2 : V4 α) : Nat :=
  if c.sse then (if (SSE.movemask (SSE.cmpgt V1 V2) &&& 7) == 7 then XM_CRMASK_CR6TRUE else if (SSE.movemask (SSE.cmpgt V1 V2) &&& 7) == 0 then XM_CRMASK_CR6FALSE else 0) else (if gt V1.x V2.x && gt V1.y V2.y && gt V1.z V2.z then XM_CRMASK_CR6TRUE else if le V1.x V2.x && le V1.y V2.y && le V1.z V2.z then XM_CRMASK_CR6FALSE else 0)
/-- vector.rs:9397-9417 -/
def XMVector3GreaterOrEqual (c : Cfg) (V1 V2 : V4 α) : Bool :=
  if c.sse then (SSE.movemask (SSE.cmpge V1 V2) &&& 7) == 7 else ge V1.x V2.x && ge V1.y V2.y && ge V1.z V2.z
/-- vector.rs:9424-9467 -/
def XMVector3GreaterOrEqualR (c : Cfg) (V1 V2 : V4 α) : Nat :=
  if c.sse then (if (SSE.movemask (SSE.cmpge V1 V2) &&& 7) == 7 then XM_CRMASK_CR6TRUE else if (SSE.movemask (SSE.cmpge V1 V2) &&& 7) == 0 then XM_CRMASK_CR6FALSE else 0) else (if ge V1.x V2.x && ge V1.y V2.y && ge V1.z V2.z then XM_CRMASK_CR6TRUE else if lt V1.x V2.x && lt V1.y V2.y && lt V1.z V2.z then XM_CRMASK_CR6FALSE else 0)
/-- vector.rs:9473-9493 -/
def XMVector3Less (c : Cfg) (V1 V2 : V4 α) : Bool :=
  if c.sse then (SSE.movemask (SSE.cmplt V1 V2) &&& 7) == 7 else lt V1.x V2.x && lt V1.y V2.y && lt V1.z V2.z
/-- vector.rs:9500-9520 -/
def XMVector3LessOrEqual (c : Cfg) (V1 V2 : V4 α) : Bool :=
  if c.sse then (SSE.movemask (SSE.cmple V1 V2) &&& 7) == 7 else le V1.x V2.x && le V1.y V2.y && le V1.z V2.z
/-- vector.rs:9548-9581 -/
def XMVector3InBounds (c : Cfg) (V Bounds : V4 α) : Bool :=
  if c.sse then (SSE.movemask (SSE.and (SSE.cmple V Bounds) (SSE.cmple (SSE.mul Bounds g_XMNegativeOne) V)) &&& 7) == 7 else (le V.x Bounds.x && ge V.x (neg Bounds.x)) && (le V.y Bounds.y && ge V.y (neg Bounds.y)) && (le V.z Bounds.z && ge V.z (neg Bounds.z))
/-- vector.rs:9587-9610 -/
def XMVector3IsNaN (c : Cfg) (V : V4 α) : Bool :=
  if c.sse then (SSE.movemask (SSE.cmpneq V V) &&& 7) != 0 else isNaN V.x || isNaN V.y || isNaN V.z
/-- vector.rs:9616-9641 -/
def XMVector3IsInfinite (c : Cfg) (V : V4 α) : Bool :=
  if c.sse then (SSE.movemask (SSE.cmpeq (SSE.and V g_XMAbsMask) g_XMInfinity) &&& 7) != 0 else isInf V.x || isInf V.y || isInf V.z
/-- vector.rs:11194-11217 -/
def XMVector4Equal (c : Cfg) (V1 V2 : V4 α) : Bool :=
  if c.sse then SSE.movemask (SSE.cmpeq V1 V2) == 15 else eq V1.x V2.x && eq V1.y V2.y && eq V1.z V2.z && eq V1.w V2.w
/-- vector.rs:11223-11269 -/
def XMVector4EqualR (c : Cfg) (V1 V2 : V4 α) : Nat :=
  if c.sse then (if SSE.movemask (SSE.cmpeq V1 V2) == 15 then XM_CRMASK_CR6TRUE else if SSE.movemask (SSE.cmpeq V1 V2) == 0 then XM_CRMASK_CR6FALSE else 0) else (if eq V1.x V2.x && eq V1.y V2.y && eq V1.z V2.z && eq V1.w V2.w then XM_CRMASK_CR6TRUE else if ne V1.x V2.x && ne V1.y V2.y && ne V1.z V2.z && ne V1.w V2.w then XM_CRMASK_CR6FALSE else 0)
/-- vector.rs:11275-11298 -/
def XMVector4EqualInt (c : Cfg) (V1 V2 : V4 α) : Bool :=
  if c.sse then SSE.movemask (SSE.cmpeq_epi32 V1 V2) == 15 else ieq V1.x V2.x && ieq V1.y V2.y && ieq V1.z V2.z && ieq V1.w V2.w
/-- vector.rs:11306-11351 -/
def XMVector4EqualIntR (c : Cfg) (V1 V2 : V4 α) : Nat :=
  if c.sse then (if SSE.movemask (SSE.cmpeq_epi32 V1 V2) == 15 then XM_CRMASK_CR6TRUE else if SSE.movemask (SSE.cmpeq_epi32 V1 V2) == 0 then XM_CRMASK_CR6FALSE else 0) else (if ieq V1.x V2.x && ieq V1.y V2.y && ieq V1.z V2.z && ieq V1.w V2.w then XM_CRMASK_CR6TRUE else if !ieq V1.x V2.x && !ieq V1.y V2.y && !ieq V1.z V2.z && !ieq V1.w V2.w then XM_CRMASK_CR6FALSE else 0)
/-- vector.rs:11357-11392 -/
def XMVector4NearEqual (c : Cfg) (V1 V2 Epsilon : V4 α) : Bool :=
  if c.sse then SSE.movemask (SSE.cmple (SSE.max (SSE.sub SSE.setzero (SSE.sub V1 V2)) (SSE.sub V1 V2)) Epsilon) == 15 else le (abs (Lane.sub V1.x V2.x)) Epsilon.x && le (abs (Lane.sub V1.y V2.y)) Epsilon.y && le (abs (Lane.sub V1.z V2.z)) Epsilon.z && le (abs (Lane.sub V1.w V2.w)) Epsilon.w
/-- vector.rs:11398-11421 -/
def XMVector4NotEqual (c : Cfg) (V1 V2 : V4 α) : Bool :=
  if c.sse then SSE.movemask (SSE.cmpneq V1 V2) != 0 else ne V1.x V2.x || ne V1.y V2.y || ne V1.z V2.z || ne V1.w V2.w
/-- vector.rs:11427-11450 -/
def XMVector4NotEqualInt (c : Cfg) (V1 V2 : V4 α) : Bool :=
  if c.sse then SSE.movemask (SSE.cmpeq_epi32 V1 V2) != 15 else !ieq V1.x V2.x || !ieq V1.y V2.y || !ieq V1.z V2.z || !ieq V1.w V2.w
/-- vector.rs:11456-11479 -/
def XMVector4Greater (c : Cfg) (V1 V2 : V4 α) : Bool :=
  if c.sse then SSE.movemask (SSE.cmpgt V1 V2) == 15 else gt V1.x V2.x && gt V1.y V2.y && gt V1.z V2.z && gt V1.w V2.w
/-- vector.rs:11485-11530 -/
def XMVector4GreaterR (c : Cfg) (V1 V2 : V4 α) : Nat :=
  if c.sse then (if SSE.movemask (SSE.cmpgt V1 V2) == 15 then XM_CRMASK_CR6TRUE else if SSE.movemask (SSE.cmpgt V1 V2) == 0 then XM_CRMASK_CR6FALSE else 0) else (if gt V1.x V2.x && gt V1.y V2.y && gt V1.z V2.z && gt V1.w V2.w then XM_CRMASK_CR6TRUE else if le V1.x V2.x && le V1.y V2.y && le V1.z V2.z && le V1.w V2.w then XM_CRMASK_CR6FALSE else 0)
/-- vector.rs:11536-11559 -/
def XMVector4GreaterOrEqual (c : Cfg) (V1 V2 : V4 α) : Bool :=
  if c.sse then SSE.movemask (SSE.cmpge V1 V2) == 15 else ge V1.x V2.x && ge V1.y V2.y && ge V1.z V2.z && ge V1.w V2.w
/-- vector.rs:11566-11611 -/
def XMVector4GreaterOrEqualR (c : Cfg) (V1 V2 : V4 α) : Nat :=
  if c.sse then (if SSE.movemask (SSE.cmpge V1 V2) == 15 then XM_CRMASK_CR6TRUE else if SSE.movemask (SSE.cmpge V1 V2) == 0 then XM_CRMASK_CR6FALSE else 0) else (if ge V1.x V2.x && ge V1.y V2.y && ge V1.z V2.z && ge V1.w V2.w then XM_CRMASK_CR6TRUE else if lt V1.x V2.x && lt V1.y V2.y && lt V1.z V2.z && lt V1.w V2.w then XM_CRMASK_CR6FALSE else 0)
/-- vector.rs:11638-11661 -/
def XMVector4Less (c : Cfg) (V1 V2 : V4 α) : Bool :=
  if c.sse then SSE.movemask (SSE.cmplt V1 V2) == 15 else lt V1.x V2.x && lt V1.y V2.y && lt V1.z V2.z && lt V1.w V2.w
/-- vector.rs:11667-11690 -/
def XMVector4LessOrEqual (c : Cfg) (V1 V2 : V4 α) : Bool :=
  if c.sse then SSE.movemask (SSE.cmple V1 V2) == 15 else le V1.x V2.x && le V1.y V2.y && le V1.z V2.z && le V1.w V2.w
/-- vector.rs:11719-11753 -/
def XMVector4InBounds (c : Cfg) (V Bounds : V4 α) : Bool :=
  if c.sse then SSE.movemask (SSE.and (SSE.cmple V Bounds) (SSE.cmple (SSE.mul Bounds g_XMNegativeOne) V)) == 15 else (le V.x Bounds.x && ge V.x (neg Bounds.x)) && (le V.y Bounds.y && ge V.y (neg Bounds.y)) && (le V.z Bounds.z && ge V.z (neg Bounds.z)) && (le V.w Bounds.w && ge V.w (neg Bounds.w))
/-- vector.rs:11759-11786 -/
def XMVector4IsNaN (c : Cfg) (V : V4 α) : Bool :=
  if c.sse then SSE.movemask (SSE.cmpneq V V) != 0 else isNaN V.x || isNaN V.y || isNaN V.z || isNaN V.w
/-- vector.rs:11792-11818 -/
def XMVector4IsInfinite (c : Cfg) (V : V4 α) : Bool :=
  if c.sse then SSE.movemask (SSE.cmpeq (SSE.and V g_XMAbsMask) g_XMInfinity) != 0 else isInf V.x || isInf V.y || isInf V.z || isInf V.w

end DXM
