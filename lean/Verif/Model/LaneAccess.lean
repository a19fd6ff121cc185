import Verif.Model.Vector1

/-
src/vector.rs: the integer and by-reference forms of lane access (lines 107-214, 726-1011, 1263-1475), and src/lib.rs:2118-2138
(`XMMin`, `XMMax`).  The lane type `α` stands for the 32 bits of a lane, so `u32` values and `f32` values are both `α`: the casts
`_mm_castps_si128`, `_mm_castsi128_ps` and `as i32`/`as u32` do not change the bits and are left out.  A `&mut f32` argument is the
returned new contents of the referenced cell; its old contents are an argument that the code does not read.
-/

namespace DXM
open Lane
variable {α : Type}

/-- vector.rs:107-129: NOI `[x, y, z, w]`; SSE `_mm_set_epi32(w, z, y, x)`, whose last argument is lane 0. -/
def XMVectorSetInt (c : Cfg) (x y z w : α) : V4 α :=
  let set_epi32 (e3 e2 e1 e0 : α) : V4 α := ⟨e0, e1, e2, e3⟩
  if c.sse then set_epi32 w z y x else ⟨x, y, z, w⟩
/-- vector.rs:161-187: NOI four copies; AVX `_mm_broadcast_ss`; SSE `_mm_load_ps1`. -/
def XMVectorReplicatePtr (c : Cfg) (pValue : α) : V4 α := if c.sse then .splat pValue else ⟨pValue, pValue, pValue, pValue⟩
/-- vector.rs:193-214: NOI four copies; SSE `_mm_set1_epi32`. -/
def XMVectorReplicateInt (c : Cfg) (Value : α) : V4 α := if c.sse then .splat Value else ⟨Value, Value, Value, Value⟩

/-- vector.rs:726-745: NOI lane 0; SSE `_mm_store_ss`. -/
def XMVectorGetXPtr (_old : α) (V : V4 α) : α := V.x
/-- vector.rs:752-775: NOI lane 1; SSE4 `_mm_extract_ps(V, 1)`; SSE PERM(1,1,1,1) then `_mm_store_ss`. -/
def XMVectorGetYPtr (c : Cfg) (_old : α) (V : V4 α) : α := if c.sse then (if c.sse4 then V.lane 1 else (SSE.perm V 1 1 1 1).x) else V.y
/-- vector.rs:784-807: NOI lane 2; SSE4 `_mm_extract_ps(V, 2)`; SSE PERM(2,2,2,2) then `_mm_store_ss`. -/
def XMVectorGetZPtr (c : Cfg) (_old : α) (V : V4 α) : α := if c.sse then (if c.sse4 then V.lane 2 else (SSE.perm V 2 2 2 2).x) else V.z
/-- vector.rs:816-839: NOI lane 3; SSE4 `_mm_extract_ps(V, 3)`; SSE PERM(3,3,3,3) then `_mm_store_ss`. -/
def XMVectorGetWPtr (c : Cfg) (_old : α) (V : V4 α) : α := if c.sse then (if c.sse4 then V.lane 3 else (SSE.perm V 3 3 3 3).x) else V.w

/-- vector.rs:847-866: slice index in both builds, panics outside 0..3 (debug_assert or slice check). -/
def XMVectorGetIntByIndex (V : V4 α) (i : Nat) : Outcome α := match V.lane? i with | some a => .ok a | none => .panic
/-- vector.rs:882-897: NOI lane 0; SSE `_mm_cvtsi128_si32`. -/
def XMVectorGetIntX (V : V4 α) : α := V.x
/-- vector.rs:913-935: NOI lane 1; SSE4 `_mm_extract_epi32(V, 1)`; SSE `_mm_shuffle_epi32` (1,1,1,1) then lane 0. -/
def XMVectorGetIntY (c : Cfg) (V : V4 α) : α := if c.sse then (if c.sse4 then V.lane 1 else (SSE.perm V 1 1 1 1).x) else V.y
/-- vector.rs:951-973: NOI lane 2; SSE4 `_mm_extract_epi32(V, 2)`; SSE `_mm_shuffle_epi32` (2,2,2,2) then lane 0. -/
def XMVectorGetIntZ (c : Cfg) (V : V4 α) : α := if c.sse then (if c.sse4 then V.lane 2 else (SSE.perm V 2 2 2 2).x) else V.z
/-- vector.rs:989-1011: NOI lane 3; SSE4 `_mm_extract_epi32(V, 3)`; SSE `_mm_shuffle_epi32` (3,3,3,3) then lane 0. -/
def XMVectorGetIntW (c : Cfg) (V : V4 α) : α := if c.sse then (if c.sse4 then V.lane 3 else (SSE.perm V 3 3 3 3).x) else V.w

/-- vector.rs:1263-1272: array write, panics outside 0..3. -/
def XMVectorSetIntByIndex (V : V4 α) (x : α) (i : Nat) : Outcome (V4 α) :=
  match i with
  | 0 => .ok { V with x := x } | 1 => .ok { V with y := x } | 2 => .ok { V with z := x } | 3 => .ok { V with w := x }
  | _ => .panic
section
variable [Lane α]
/-- vector.rs:1288-1313: SSE `_mm_move_ss(V, _mm_cvtsi32_si128(x))`; `_mm_cvtsi32_si128` clears lanes 1 to 3. -/
def XMVectorSetIntX (c : Cfg) (V : V4 α) (x : α) : V4 α := if c.sse then SSE.move_ss V ⟨x, c0, c0, c0⟩ else ⟨x, V.y, V.z, V.w⟩
/-- vector.rs:1329-1367: SSE4 `_mm_insert_epi32(V, y, 1)`; SSE swap, `_mm_move_ss`, swap. -/
def XMVectorSetIntY (c : Cfg) (V : V4 α) (y : α) : V4 α :=
  if c.sse then
    if c.sse4 then V.setLane 1 y
    else
      let vResult := SSE.perm V 3 2 0 1
      let vTemp : V4 α := ⟨y, c0, c0, c0⟩
      let vResult := SSE.move_ss vResult vTemp
      SSE.perm vResult 3 2 0 1
  else ⟨V.x, y, V.z, V.w⟩
/-- vector.rs:1383-1421: SSE4 `_mm_insert_epi32(V, z, 2)`; SSE swap, `_mm_move_ss`, swap. -/
def XMVectorSetIntZ (c : Cfg) (V : V4 α) (z : α) : V4 α :=
  if c.sse then
    if c.sse4 then V.setLane 2 z
    else
      let vResult := SSE.perm V 3 0 1 2
      let vTemp : V4 α := ⟨z, c0, c0, c0⟩
      let vResult := SSE.move_ss vResult vTemp
      SSE.perm vResult 3 0 1 2
  else ⟨V.x, V.y, z, V.w⟩
/-- vector.rs:1437-1475: SSE4 `_mm_insert_epi32(V, w, 3)`; SSE swap, `_mm_move_ss`, swap. -/
def XMVectorSetIntW (c : Cfg) (V : V4 α) (w : α) : V4 α :=
  if c.sse then
    if c.sse4 then V.setLane 3 w
    else
      let vResult := SSE.perm V 0 2 1 3
      let vTemp : V4 α := ⟨w, c0, c0, c0⟩
      let vResult := SSE.move_ss vResult vTemp
      SSE.perm vResult 0 2 1 3
  else ⟨V.x, V.y, V.z, w⟩
end

/-- lib.rs:2118-2124, for any type with a (possibly partial) comparison `lt a b = (a < b)`. -/
def XMMin (lt : α → α → Bool) (a b : α) : α := if lt a b then a else b
/-- lib.rs:2132-2138; `a > b` is the comparison `gt a b`, for `PartialOrd` the same as `b < a`. -/
def XMMax (lt : α → α → Bool) (a b : α) : α := if lt b a then a else b

end DXM
