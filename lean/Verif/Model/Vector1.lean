import Verif.Intrinsics
import Verif.Model.Globals

/-
src/vector.rs, part 1 (lines 58-4700): construction, lane access, swizzle/permute/select/merge,
comparison masks, min/max, rounding, logic, element-wise arithmetic.
NOI in comments = the `_XM_NO_INTRINSICS_` body; SSE = the `_XM_SSE_INTRINSICS_` body.
`if c.sse then … else …` mirrors the `#[cfg]` pairs; where both bodies are the same lane-wise expression after
reading the intrinsic (e.g. `_mm_add_ps` and four `+`), one expression is given and the comment says so.
-/

namespace DXM
open Lane
variable {α : Type}

/-- What a call can do: return, panic, or (undefined behaviour) read outside the vector. -/
inductive Outcome (β : Type) where
  | ok (v : β)
  | panic
  | outOfBounds
deriving DecidableEq, Repr

/-- Lane `i` of a vector for an arbitrary index; `none` outside the vector. -/
def V4.lane? (v : V4 α) (i : Nat) : Option α :=
  match i with | 0 => some v.x | 1 => some v.y | 2 => some v.z | 3 => some v.w | _ => none

section movement

/-- vector.rs:277-300. NOI: lane copies; AVX2+FAVOR_INTEL: `_mm_broadcastss_ps`; SSE: PERM(0,0,0,0). -/
def XMVectorSplatX (c : Cfg) (V : V4 α) : V4 α := if c.sse then (if c.avx2 && c.favorIntel then .splat V.x else SSE.perm V 0 0 0 0) else ⟨V.x, V.x, V.x, V.x⟩
/-- vector.rs:318-336 -/
def XMVectorSplatY (c : Cfg) (V : V4 α) : V4 α := if c.sse then SSE.perm V 1 1 1 1 else ⟨V.y, V.y, V.y, V.y⟩
/-- vector.rs:354-372 -/
def XMVectorSplatZ (c : Cfg) (V : V4 α) : V4 α := if c.sse then SSE.perm V 2 2 2 2 else ⟨V.z, V.z, V.z, V.z⟩
/-- vector.rs:390-408 -/
def XMVectorSplatW (c : Cfg) (V : V4 α) : V4 α := if c.sse then SSE.perm V 3 3 3 3 else ⟨V.w, V.w, V.w, V.w⟩

/-- vector.rs:80-99 (both builds) -/
def XMVectorSet (x y z w : α) : V4 α := ⟨x, y, z, w⟩
/-- vector.rs:135-153 (both builds) -/
def XMVectorReplicate (v : α) : V4 α := .splat v

/-- vector.rs:571-588: array index, panics outside 0..3 (debug_assert or slice check). -/
def XMVectorGetByIndex (V : V4 α) (i : Nat) : Outcome α := match V.lane? i with | some a => .ok a | none => .panic
/-- vector.rs:606-619: NOI lane 0; SSE `_mm_cvtss_f32`. -/
def XMVectorGetX (V : V4 α) : α := V.x
/-- vector.rs:637-651: NOI lane 1; SSE PERM(1,1,1,1) then lane 0. -/
def XMVectorGetY (c : Cfg) (V : V4 α) : α := if c.sse then (SSE.perm V 1 1 1 1).x else V.y
/-- vector.rs:669-683 -/
def XMVectorGetZ (c : Cfg) (V : V4 α) : α := if c.sse then (SSE.perm V 2 2 2 2).x else V.z
/-- vector.rs:701-715 -/
def XMVectorGetW (c : Cfg) (V : V4 α) : α := if c.sse then (SSE.perm V 3 3 3 3).x else V.w
/-- vector.rs:1023-1030: array write, panics outside 0..3. -/
def XMVectorSetByIndex (V : V4 α) (f : α) (i : Nat) : Outcome (V4 α) :=
  match i with
  | 0 => .ok { V with x := f } | 1 => .ok { V with y := f } | 2 => .ok { V with z := f } | 3 => .ok { V with w := f }
  | _ => .panic
variable [Lane α] in
/-- vector.rs:1052-1075: SSE `_mm_move_ss(V, _mm_set_ss(x))`. -/
def XMVectorSetX (c : Cfg) (V : V4 α) (x : α) : V4 α := if c.sse then SSE.move_ss V (SSE.set_ss x) else ⟨x, V.y, V.z, V.w⟩
variable [Lane α] in
/-- vector.rs:1097-1133: SSE4 insert; SSE swap-move-swap. -/
def XMVectorSetY (c : Cfg) (V : V4 α) (y : α) : V4 α :=
  if c.sse then
    if c.sse4 then SSE.insert V (SSE.set_ss y) 1
    else
      let vR := SSE.perm V 3 2 0 1
      let vR := SSE.move_ss vR (SSE.set_ss y)
      SSE.perm vR 3 2 0 1
  else ⟨V.x, y, V.z, V.w⟩
variable [Lane α] in
/-- vector.rs:1155-1191 -/
def XMVectorSetZ (c : Cfg) (V : V4 α) (z : α) : V4 α :=
  if c.sse then
    if c.sse4 then SSE.insert V (SSE.set_ss z) 2
    else
      let vR := SSE.perm V 3 0 1 2
      let vR := SSE.move_ss vR (SSE.set_ss z)
      SSE.perm vR 3 0 1 2
  else ⟨V.x, V.y, z, V.w⟩
variable [Lane α] in
/-- vector.rs:1213-1249 -/
def XMVectorSetW (c : Cfg) (V : V4 α) (w : α) : V4 α :=
  if c.sse then
    if c.sse4 then SSE.insert V (SSE.set_ss w) 3
    else
      let vR := SSE.perm V 0 2 1 3
      let vR := SSE.move_ss vR (SSE.set_ss w)
      SSE.perm vR 0 2 1 3
  else ⟨V.x, V.y, V.z, w⟩

/-- Four in-bounds reads, or `bad` outcome. -/
def gather4 (bad : Outcome (V4 α)) (a b c d : Option α) : Outcome (V4 α) :=
  match a, b, c, d with | some a, some b, some c, some d => .ok ⟨a, b, c, d⟩ | _, _, _, _ => bad

/-- vector.rs:1540-1589. `dbg` = debug assertions on.  NOI: slice index (panics); AVX: `_mm_permutevar_ps` uses the two low
bits of each control word; SSE without AVX: raw pointer offset, out of bounds for an index above 3. -/
def XMVectorSwizzle (c : Cfg) (dbg : Bool) (V : V4 α) (E0 E1 E2 E3 : Nat) : Outcome (V4 α) :=
  if dbg && !(E0 < 4 && E1 < 4 && E2 < 4 && E3 < 4) then .panic
  else if c.sse then
    if c.avx then gather4 .outOfBounds (V.lane? (E0 % 4)) (V.lane? (E1 % 4)) (V.lane? (E2 % 4)) (V.lane? (E3 % 4))
    else gather4 .outOfBounds (V.lane? E0) (V.lane? E1) (V.lane? E2) (V.lane? E3)
  else gather4 .panic (V.lane? E0) (V.lane? E1) (V.lane? E2) (V.lane? E3)

/-- Extract the vector of a call that returns (used for compile-time indices, which are always in range:
see `swizzleC_eq`, `permuteC_eq` in Lemmas). -/
def Outcome.getD {β : Type} (d : β) : Outcome β → β | .ok v => v | _ => d

/-- Compile-time swizzle, lib.rs:2554-2786: nightly SSE uses `XM_PERMUTE_PS` or (for XYXY, ZWZW, XXYY, ZZWW)
`movelh/movehl/unpacklo/unpackhi`; otherwise the run-time function. -/
def XMVectorSwizzleC (c : Cfg) (V : V4 α) (e0 e1 e2 e3 : Fin 4) : V4 α :=
  if c.nightly && c.sse then
    if (e0, e1, e2, e3) = (0, 1, 0, 1) then SSE.movelh V V
    else if (e0, e1, e2, e3) = (2, 3, 2, 3) then SSE.movehl V V
    else if (e0, e1, e2, e3) = (0, 0, 1, 1) then SSE.unpacklo V V
    else if (e0, e1, e2, e3) = (2, 2, 3, 3) then SSE.unpackhi V V
    else SSE.perm V e3 e2 e1 e0
  else (XMVectorSwizzle c false V e0 e1 e2 e3).getD V

variable [Lane α]

/-- One lane of the AVX permute (vector.rs:1653-1669): control word `p` as signed `> 3` chooses V2, low two bits the lane. -/
def permuteLaneAVX (V1 V2 : V4 α) (p : Nat) : Option α :=
  let sel : Bool := decide (3 < (BitVec.ofNat 32 p).toInt)
  match V1.lane? (p % 4), V2.lane? (p % 4) with
  | some a, some b => some (bor (bandn (mask sel) a) (band (mask sel) b))
  | _, _ => none

/-- One lane of the table permute (vector.rs:1672-1699): `aPtr[p >> 2][p & 3]`; `none` when `p >> 2` is not 0 or 1 (slice panic). -/
def permuteLane (V1 V2 : V4 α) (p : Nat) : Option α :=
  match p / 4 with | 0 => V1.lane? (p % 4) | 1 => V2.lane? (p % 4) | _ => none

/-- vector.rs:1637-1699 -/
def XMVectorPermute (c : Cfg) (dbg : Bool) (V1 V2 : V4 α) (p0 p1 p2 p3 : Nat) : Outcome (V4 α) :=
  if dbg && !(p0 ≤ 7 && p1 ≤ 7 && p2 ≤ 7 && p3 ≤ 7) then .panic
  else if c.sse && c.avx then
    gather4 .outOfBounds (permuteLaneAVX V1 V2 p0) (permuteLaneAVX V1 V2 p1) (permuteLaneAVX V1 V2 p2) (permuteLaneAVX V1 V2 p3)
  else gather4 .panic (permuteLane V1 V2 p0) (permuteLane V1 V2 p1) (permuteLane V1 V2 p2) (permuteLane V1 V2 p3)

/-- Compile-time permute, lib.rs:2204-2480: nightly SSE shuffles both inputs and selects by the constant mask
(special cases: identity, movelh, movehl); otherwise the run-time function. -/
def XMVectorPermuteC (c : Cfg) (V1 V2 : V4 α) (p0 p1 p2 p3 : Fin 8) : V4 α :=
  if c.nightly && c.sse then
    if (p0, p1, p2, p3) = (0, 1, 2, 3) then V1
    else if (p0, p1, p2, p3) = (4, 5, 6, 7) then V2
    else if (p0, p1, p2, p3) = (0, 1, 4, 5) then SSE.movelh V1 V2
    else if (p0, p1, p2, p3) = (6, 7, 2, 3) then SSE.movehl V1 V2
    else
      let m : V4 α := ⟨mask (decide (3 < p0.val)), mask (decide (3 < p1.val)), mask (decide (3 < p2.val)), mask (decide (3 < p3.val))⟩
      let sh (V : V4 α) : V4 α := SSE.perm V (Fin.ofNat 4 p3) (Fin.ofNat 4 p2) (Fin.ofNat 4 p1) (Fin.ofNat 4 p0)
      SSE.or (SSE.andnot m (sh V1)) (SSE.and m (sh V2))
  else (XMVectorPermute c false V1 V2 p0 p1 p2 p3).getD V1

/-- vector.rs:1774-1808. SSE: signed integer `> 0`; NOI: two-element table, panics above 1. -/
def XMVectorSelectControl (c : Cfg) (i0 i1 i2 i3 : BitVec 32) : Outcome (V4 α) :=
  if c.sse then .ok ⟨mask (decide (0 < i0.toInt)), mask (decide (0 < i1.toInt)), mask (decide (0 < i2.toInt)), mask (decide (0 < i3.toInt))⟩
  else
    let t (i : BitVec 32) : Option α := match i.toNat with | 0 => some (ofBits 0#32) | 1 => some (ofBits 0xFFFFFFFF#32) | _ => none
    gather4 .panic (t i0) (t i1) (t i2) (t i3)

/-- vector.rs:1870-1898 (both builds: `(V1 & !C) | (V2 & C)`). -/
def XMVectorSelect (V1 V2 Control : V4 α) : V4 α := SSE.or (SSE.andnot Control V1) (SSE.and V2 Control)

omit [Lane α] in
/-- vector.rs:1933-1958 -/
def XMVectorMergeXY (c : Cfg) (V1 V2 : V4 α) : V4 α := if c.sse then SSE.unpacklo V1 V2 else ⟨V1.x, V2.x, V1.y, V2.y⟩
omit [Lane α] in
/-- vector.rs:1993-2018 -/
def XMVectorMergeZW (c : Cfg) (V1 V2 : V4 α) : V4 α := if c.sse then SSE.unpackhi V1 V2 else ⟨V1.z, V2.z, V1.w, V2.w⟩
/-- vector.rs:2054-2056 -/
def XMVectorShiftLeft (c : Cfg) (dbg : Bool) (V1 V2 : V4 α) (n : Nat) : Outcome (V4 α) :=
  if dbg && !(n < 4) then .panic else XMVectorPermute c dbg V1 V2 n (n+1) (n+2) (n+3)
omit [Lane α] in
/-- vector.rs:2088-2090 (`& 3` is `% 4`) -/
def XMVectorRotateLeft (c : Cfg) (dbg : Bool) (V : V4 α) (n : Nat) : Outcome (V4 α) :=
  if dbg && !(n < 4) then .panic else XMVectorSwizzle c dbg V (n % 4) ((n+1) % 4) ((n+2) % 4) ((n+3) % 4)
omit [Lane α] in
/-- vector.rs:2122-2124.  The `u32` subtractions are written modulo 2^32 (for `n ≤ 4` they do not wrap). -/
def XMVectorRotateRight (c : Cfg) (dbg : Bool) (V : V4 α) (n : Nat) : Outcome (V4 α) :=
  if dbg && !(n < 4) then .panic
  else XMVectorSwizzle c dbg V ((4 + 2^32 - n) % 4) ((5 + 2^32 - n) % 4) ((6 + 2^32 - n) % 4) ((7 + 2^32 - n) % 4)
/-- vector.rs:2163-2173 -/
def XMVectorInsert (c : Cfg) (dbg : Bool) (VD VS : V4 α) (n : Nat) (s0 s1 s2 s3 : BitVec 32) : Outcome (V4 α) :=
  match XMVectorSelectControl (α := α) c (s0 &&& 1) (s1 &&& 1) (s2 &&& 1) (s3 &&& 1), XMVectorRotateLeft c dbg VS n with
  | .ok ctl, .ok r => .ok (XMVectorSelect VD r ctl)
  | .panic, _ => .panic
  | _, .panic => .panic
  | _, _ => .outOfBounds

end movement

variable [Lane α]

section constants
/-- vector.rs:58-72 -/
def XMVectorZero : V4 α := .splat c0
/-- vector.rs:222-237 -/
def XMVectorTrueInt : V4 α := .splat (ofBits 0xFFFFFFFF#32)
/-- vector.rs:245-259 -/
def XMVectorFalseInt : V4 α := .splat c0
/-- vector.rs:422-440 -/
def XMVectorSplatOne (c : Cfg) : V4 α := if c.sse then g_XMOne else .splat c1
/-- vector.rs:454-472 -/
def XMVectorSplatInfinity (c : Cfg) : V4 α := if c.sse then g_XMInfinity else .splat (ofBits 0x7F800000#32)
/-- vector.rs:486-504 -/
def XMVectorSplatQNaN (c : Cfg) : V4 α := if c.sse then g_XMQNaN else .splat (ofBits 0x7FC00000#32)
/-- vector.rs:518-536 -/
def XMVectorSplatEpsilon (c : Cfg) : V4 α := if c.sse then g_XMEpsilon else .splat (ofBits 0x34000000#32)
/-- vector.rs:544-563 -/
def XMVectorSplatSignMask : V4 α := .splat (ofBits 0x80000000#32)
end constants

section comparisons
/-- vector.rs:2207-2231 (both builds: lane-wise IEEE `==` to mask) -/
def XMVectorEqual (V1 V2 : V4 α) : V4 α := SSE.cmpeq V1 V2
/-- vector.rs:2535-2556 -/
def XMVectorNotEqual (V1 V2 : V4 α) : V4 α := SSE.cmpneq V1 V2
/-- vector.rs:2357-2379 -/
def XMVectorEqualInt (V1 V2 : V4 α) : V4 α := SSE.cmpeq_epi32 V1 V2
/-- vector.rs:2564-2586: SSE = xor of the equality mask with all ones. -/
def XMVectorNotEqualInt (c : Cfg) (V1 V2 : V4 α) : V4 α :=
  if c.sse then SSE.xor (SSE.cmpeq_epi32 V1 V2) g_XMNegOneMask else .map2 (fun a b => mask (!ieq a b)) V1 V2
/-- vector.rs:2594-2615 -/
def XMVectorGreater (V1 V2 : V4 α) : V4 α := SSE.cmpgt V1 V2
/-- vector.rs:2673-2694 -/
def XMVectorGreaterOrEqual (V1 V2 : V4 α) : V4 α := SSE.cmpge V1 V2
/-- vector.rs:2752-2773 -/
def XMVectorLess (V1 V2 : V4 α) : V4 α := SSE.cmplt V1 V2
/-- vector.rs:2781-2802 -/
def XMVectorLessOrEqual (V1 V2 : V4 α) : V4 α := SSE.cmple V1 V2
/-- vector.rs:2462-2500: NOI `fabsf(a-b) <= eps`; SSE `max(0-(a-b), a-b) <= eps`. -/
def XMVectorNearEqual (c : Cfg) (V1 V2 Epsilon : V4 α) : V4 α :=
  if c.sse then
    let vDelta := SSE.sub V1 V2
    let vTemp := SSE.sub SSE.setzero vDelta
    let vTemp := SSE.max vTemp vDelta
    SSE.cmple vTemp Epsilon
  else .map3 (fun a b e => mask (le (abs (Lane.sub a b)) e)) V1 V2 Epsilon
/-- vector.rs:2837-2866: NOI `v <= b && v >= -b`; SSE masks with `b * -1`. -/
def XMVectorInBounds (c : Cfg) (V Bounds : V4 α) : V4 α :=
  if c.sse then
    SSE.and (SSE.cmple V Bounds) (SSE.cmple (SSE.mul Bounds g_XMNegativeOne) V)
  else .map2 (fun v b => mask (le v b && ge v (neg b))) V Bounds
/-- vector.rs:2955-2977: NOI `is_nan`; SSE `v != v`. -/
def XMVectorIsNaN (c : Cfg) (V : V4 α) : V4 α := if c.sse then SSE.cmpneq V V else .map (fun v => mask (isNaN v)) V
/-- vector.rs:3010-3036: NOI `is_infinite`; SSE `(v & abs) == inf`. -/
def XMVectorIsInfinite (c : Cfg) (V : V4 α) : V4 α :=
  if c.sse then SSE.cmpeq (SSE.and V g_XMAbsMask) g_XMInfinity else .map (fun v => mask (isInf v)) V

/-- Comparison record constants, lib.rs:1386-1389. -/
def XM_CRMASK_CR6 : Nat := 0xF0
def XM_CRMASK_CR6TRUE : Nat := 0x80
def XM_CRMASK_CR6FALSE : Nat := 0x20
def XM_CRMASK_CR6BOUNDS : Nat := XM_CRMASK_CR6FALSE
/-- lib.rs:1429-1465 -/
def XMComparisonAllTrue (CR : Nat) : Bool := (CR &&& XM_CRMASK_CR6TRUE) == XM_CRMASK_CR6TRUE
def XMComparisonAnyTrue (CR : Nat) : Bool := (CR &&& XM_CRMASK_CR6FALSE) != XM_CRMASK_CR6FALSE
def XMComparisonAllFalse (CR : Nat) : Bool := (CR &&& XM_CRMASK_CR6FALSE) == XM_CRMASK_CR6FALSE
def XMComparisonAnyFalse (CR : Nat) : Bool := (CR &&& XM_CRMASK_CR6TRUE) != XM_CRMASK_CR6TRUE
def XMComparisonMixed (CR : Nat) : Bool := (CR &&& XM_CRMASK_CR6) == 0
def XMComparisonAllInBounds (CR : Nat) : Bool := (CR &&& XM_CRMASK_CR6BOUNDS) == XM_CRMASK_CR6BOUNDS
def XMComparisonAnyOutOfBounds (CR : Nat) : Bool := (CR &&& XM_CRMASK_CR6BOUNDS) != XM_CRMASK_CR6BOUNDS

/-- The record computed by the four-lane `…R` functions: NOI from the four mask words `ux & uy & uz & uw != 0` /
`ux | … == 0` (vector.rs:2258-2275); SSE from `movemask == 0xf` / `== 0` (2283-2299).  `t*` are the lane results. -/
def recordR (c : Cfg) (v : V4 α) (tx ty tz tw : Bool) : Nat :=
  if c.sse then
    (if SSE.movemask v == 0xf then XM_CRMASK_CR6TRUE else if SSE.movemask v == 0 then XM_CRMASK_CR6FALSE else 0)
  else (if tx && ty && tz && tw then XM_CRMASK_CR6TRUE else if !(tx || ty || tz || tw) then XM_CRMASK_CR6FALSE else 0)

/-- vector.rs:2257-2299 -/
def XMVectorEqualR (c : Cfg) (V1 V2 : V4 α) : Nat × V4 α :=
  let m := SSE.cmpeq V1 V2
  (recordR c m (eq V1.x V2.x) (eq V1.y V2.y) (eq V1.z V2.z) (eq V1.w V2.w), m)
/-- vector.rs:2389-2427. NOI: through XMVector4EqualInt with TrueInt / FalseInt. -/
def XMVectorEqualIntR (c : Cfg) (V1 V2 : V4 α) : Nat × V4 α :=
  let m := XMVectorEqualInt V1 V2
  if c.sse then
    (if SSE.movemask m == 0xf then XM_CRMASK_CR6TRUE else if SSE.movemask m == 0 then XM_CRMASK_CR6FALSE else 0, m)
  else
    (if ieq m.x (ofBits 0xFFFFFFFF#32) && ieq m.y (ofBits 0xFFFFFFFF#32) && ieq m.z (ofBits 0xFFFFFFFF#32) && ieq m.w (ofBits 0xFFFFFFFF#32)
     then XM_CRMASK_CR6TRUE
     else if ieq m.x c0 && ieq m.y c0 && ieq m.z c0 && ieq m.w c0 then XM_CRMASK_CR6FALSE else 0, m)
/-- vector.rs:2623-2665 -/
def XMVectorGreaterR (c : Cfg) (V1 V2 : V4 α) : Nat × V4 α :=
  let m := SSE.cmpgt V1 V2
  (recordR c m (gt V1.x V2.x) (gt V1.y V2.y) (gt V1.z V2.z) (gt V1.w V2.w), m)
/-- vector.rs:2702-2744 -/
def XMVectorGreaterOrEqualR (c : Cfg) (V1 V2 : V4 α) : Nat × V4 α :=
  let m := SSE.cmpge V1 V2
  (recordR c m (ge V1.x V2.x) (ge V1.y V2.y) (ge V1.z V2.z) (ge V1.w V2.w), m)
/-- vector.rs:2905-2947. NOI writes CR6TRUE, SSE writes CR6BOUNDS. -/
def XMVectorInBoundsR (c : Cfg) (V Bounds : V4 α) : Nat × V4 α :=
  if c.sse then
    let m := SSE.and (SSE.cmple V Bounds) (SSE.cmple (SSE.mul Bounds g_XMNegativeOne) V)
    (if SSE.movemask m == 0xf then XM_CRMASK_CR6BOUNDS else 0, m)
  else
    let t (v b : α) : Bool := le v b && ge v (neg b)
    (if t V.x Bounds.x && t V.y Bounds.y && t V.z Bounds.z && t V.w Bounds.w then XM_CRMASK_CR6TRUE else 0,
     .map2 (fun v b => mask (t v b)) V Bounds)
end comparisons

section rounding
/-- vector.rs:3044-3065 (both: `a < b ? a : b`) -/
def XMVectorMin (V1 V2 : V4 α) : V4 α := SSE.min V1 V2
/-- vector.rs:3073-3094 -/
def XMVectorMax (V1 V2 : V4 α) : V4 α := SSE.max V1 V2
/-- vector.rs:3100-3117 `round_to_nearest` (NOI).  `modff(i/2)` returns (fraction, integral part) (lib.rs:350-384). -/
def round_to_nearest (x : α) : α :=
  let i := floor x
  let x := Lane.sub x i
  if lt x cHalf then i
  else if lt cHalf x then Lane.add i c1
  else
    let int_part := trunc (Lane.div i c2)
    if eq (Lane.mul c2 int_part) i then i else Lane.add i c1
/-- vector.rs:3149-3184. NOI rounds lane 0 into all four lanes (as the code does). SSE4: `roundps`. SSE2: magic number. -/
def XMVectorRound (c : Cfg) (V : V4 α) : V4 α :=
  if c.sse then
    if c.sse4 then .map rint V
    else
      let sign := SSE.and V g_XMNegativeZero
      let sMagic := SSE.or g_XMNoFraction sign
      let R1 := V4.map2 addSubMagic V sMagic
      let R2 := SSE.and V g_XMAbsMask
      let m := SSE.cmple R2 g_XMNoFraction
      let R2 := SSE.andnot m V
      let R1 := SSE.and R1 m
      SSE.xor R1 R2
  else ⟨round_to_nearest V.x, round_to_nearest V.x, round_to_nearest V.x, round_to_nearest V.x⟩
/-- vector.rs:3213-3262. NOI per-lane branch; SSE4 `roundps` toward zero; SSE2 int round trip with masking. -/
def XMVectorTruncate (c : Cfg) (V : V4 α) : V4 α :=
  if c.sse then
    if c.sse4 then .map trunc V
    else
      let vTest := SSE.and V g_XMAbsMask
      let vTest := SSE.cmplt_epi32 vTest g_XMNoFraction
      let vR := V4.map cvttI V
      let vR := SSE.and vR vTest
      let vTest := SSE.andnot vTest V
      SSE.or vR vTest
  else .map (fun v => if isNaN v then ofBits 0x7FC00000#32 else if lt (abs v) (ofBits 0x4B000000#32) then castI v else v) V
/-- vector.rs:3270-3311 -/
def XMVectorFloor (c : Cfg) (V : V4 α) : V4 α :=
  if c.sse then
    if c.sse4 then .map floor V
    else
      let vTest := SSE.and V g_XMAbsMask
      let vTest := SSE.cmplt_epi32 vTest g_XMNoFraction
      let vR := V4.map cvttI V
      let vLarger := SSE.cmpgt vR V
      let vLarger := V4.map i2f vLarger
      let vR := SSE.add vR vLarger
      let vR := SSE.and vR vTest
      let vTest := SSE.andnot vTest V
      SSE.or vR vTest
  else .map floor V
/-- vector.rs:3319-3360 -/
def XMVectorCeiling (c : Cfg) (V : V4 α) : V4 α :=
  if c.sse then
    if c.sse4 then .map ceil V
    else
      let vTest := SSE.and V g_XMAbsMask
      let vTest := SSE.cmplt_epi32 vTest g_XMNoFraction
      let vR := V4.map cvttI V
      let vSmaller := SSE.cmplt vR V
      let vSmaller := V4.map i2f vSmaller
      let vR := SSE.sub vR vSmaller
      let vR := SSE.and vR vTest
      let vTest := SSE.andnot vTest V
      SSE.or vR vTest
  else .map ceil V
/-- vector.rs:3397-3423 (both builds the same; the debug_assert Min ≤ Max is a precondition). -/
def XMVectorClamp (V Min Max : V4 α) : V4 α := SSE.min Max (SSE.max Min V)
/-- vector.rs:3456-3476: NOI = Clamp(V,0,1); SSE = min(max(V,0),1). -/
def XMVectorSaturate (c : Cfg) (V : V4 α) : V4 α :=
  if c.sse then SSE.min (SSE.max V g_XMZero) g_XMOne else XMVectorClamp V g_XMZero g_XMOne
end rounding

section logic
/-- vector.rs:3512-3537 -/
def XMVectorAndInt (V1 V2 : V4 α) : V4 α := SSE.and V1 V2
/-- vector.rs:3573-3599: `V1 & !V2` -/
def XMVectorAndCInt (V1 V2 : V4 α) : V4 α := SSE.andnot V2 V1
/-- vector.rs:3635-3661 -/
def XMVectorOrInt (V1 V2 : V4 α) : V4 α := SSE.or V1 V2
/-- vector.rs:3697-3725: `!(V1 | V2)`; SSE `andnot(or, ones)`, NOI the complement (written the same way here). -/
def XMVectorNorInt (V1 V2 : V4 α) : V4 α := SSE.andnot (SSE.or V1 V2) g_XMNegOneMask
/-- vector.rs:3761-3787 -/
def XMVectorXorInt (V1 V2 : V4 α) : V4 α := SSE.xor V1 V2
end logic

section arithmetic
/-- vector.rs:3820-3848: NOI sign flip; SSE `0 - V`. -/
def XMVectorNegate (c : Cfg) (V : V4 α) : V4 α := if c.sse then SSE.sub SSE.setzero V else .map neg V
/-- vector.rs:3856-3881 -/
def XMVectorAdd (V1 V2 : V4 α) : V4 α := SSE.add V1 V2
/-- vector.rs:3891-3920 -/
def XMVectorSum (c : Cfg) (V : V4 α) : V4 α :=
  if c.sse then
    if c.sse3 then
      let vTemp := SSE.hadd V V
      SSE.hadd vTemp vTemp
    else
      let vTemp := SSE.perm V 2 3 0 1
      let vTemp2 := SSE.add V vTemp
      let vTemp := SSE.perm vTemp2 1 0 3 2
      SSE.add vTemp vTemp2
  else .splat (Lane.add (Lane.add (Lane.add V.x V.y) V.z) V.w)
/-- The wrap step shared by AddAngles (3941-3987) and SubtractAngles (4042-4088), applied to the raw sum / difference. -/
def wrapAngles (c : Cfg) (R : V4 α) : V4 α :=
  if c.sse then
    let vOffset := SSE.and (SSE.cmplt R g_XMNegativePi) g_XMTwoPi
    let vR := SSE.add R vOffset
    let vOffset := SSE.and (SSE.cmpge vR g_XMPi) g_XMTwoPi
    SSE.sub vR vOffset
  else
    let Mask := XMVectorLess R g_XMNegativePi
    let Offset := XMVectorSelect g_XMZero g_XMTwoPi Mask
    let Mask := XMVectorGreaterOrEqual R g_XMPi
    let Offset := XMVectorSelect Offset g_XMNegativeTwoPi Mask
    XMVectorAdd R Offset
/-- vector.rs:3941-3987 -/
def XMVectorAddAngles (c : Cfg) (V1 V2 : V4 α) : V4 α := wrapAngles c (SSE.add V1 V2)
/-- vector.rs:3995-4020 -/
def XMVectorSubtract (V1 V2 : V4 α) : V4 α := SSE.sub V1 V2
/-- vector.rs:4042-4088 -/
def XMVectorSubtractAngles (c : Cfg) (V1 V2 : V4 α) : V4 α := wrapAngles c (SSE.sub V1 V2)
/-- vector.rs:4097-4122 -/
def XMVectorMultiply (V1 V2 : V4 α) : V4 α := SSE.mul V1 V2
/-- vector.rs:4159-4185 -/
def XMVectorMultiplyAdd (c : Cfg) (V1 V2 V3 : V4 α) : V4 α :=
  if c.sse then SSE.fmadd c V1 V2 V3 else SSE.add (SSE.mul V1 V2) V3
/-- vector.rs:4215-4240 -/
def XMVectorDivide (V1 V2 : V4 α) : V4 α := SSE.div V1 V2
/-- vector.rs:4277-4303 -/
def XMVectorNegativeMultiplySubtract (c : Cfg) (V1 V2 V3 : V4 α) : V4 α :=
  if c.sse then SSE.fnmadd c V1 V2 V3 else SSE.sub V3 (SSE.mul V1 V2)
/-- vector.rs:4311-4337: NOI `V * s`; SSE `s * V`. -/
def XMVectorScale (c : Cfg) (V : V4 α) (s : α) : V4 α := if c.sse then SSE.mul (.splat s) V else SSE.mul V (.splat s)
/-- vector.rs:4345-4369 -/
def XMVectorReciprocalEst (c : Cfg) (V : V4 α) : V4 α := if c.sse then SSE.rcp V else SSE.div (.splat c1) V
/-- vector.rs:4377-4401 -/
def XMVectorReciprocal (V : V4 α) : V4 α := SSE.div (.splat c1) V
/-- vector.rs:4441-4465 and SqrtEst 4409-4433 -/
def XMVectorSqrt (V : V4 α) : V4 α := SSE.sqrt V
/-- vector.rs:4473-4497 -/
def XMVectorReciprocalSqrtEst (c : Cfg) (V : V4 α) : V4 α := if c.sse then SSE.rsqrt V else SSE.div (.splat c1) (SSE.sqrt V)
/-- vector.rs:4505-4531 -/
def XMVectorReciprocalSqrt (V : V4 α) : V4 α := SSE.div (.splat c1) (SSE.sqrt V)
/-- vector.rs:4706-4740 (both: lane-wise `powf`) -/
def XMVectorPow (V1 V2 : V4 α) : V4 α := .map2 pow V1 V2
/-- vector.rs:4748-4772: NOI `fabsf`; SSE `max(0 - V, V)`. -/
def XMVectorAbs (c : Cfg) (V : V4 α) : V4 α := if c.sse then SSE.max (SSE.sub SSE.setzero V) V else .map abs V
end arithmetic

end DXM
