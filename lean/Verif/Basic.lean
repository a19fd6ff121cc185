/-
Basic vocabulary of the model: builds, 4-lane vectors, the lane interface.
Models build.rs (which `_XM_*_INTRINSICS_` switches exist) and the vector/matrix
representation of src/lib.rs:560-620 (`XMVECTOR` = four 32-bit lanes, `XMMATRIX` = four rows).
-/

namespace DXM

/-- A build of the crate: the `_XM_*_INTRINSICS_` switches emitted by build.rs:22-66.
`sse = false` is the `_XM_NO_INTRINSICS_` build (then the other switches are ignored).
The NEON build is not modelled.  Every combination is allowed, which is a superset of the builds that exist. -/
structure Cfg where
  sse : Bool
  sse3 : Bool
  sse4 : Bool
  avx : Bool
  avx2 : Bool
  fma : Bool
  f16c : Bool
  favorIntel : Bool
  /-- `nightly_specialization` (src/lib.rs:2204-2786): specialised compile-time permutes -/
  nightly : Bool
deriving DecidableEq, Repr

/-- The `_XM_NO_INTRINSICS_` build. -/
def Cfg.noIntrinsics : Cfg := ⟨false, false, false, false, false, false, false, false, false⟩
/-- The baseline x86-64 build (SSE2 only). -/
def Cfg.sse2 : Cfg := ⟨true, false, false, false, false, false, false, false, false⟩
/-- An AVX2 + FMA3 build. -/
def Cfg.avx2Build : Cfg := ⟨true, true, true, true, true, true, true, false, false⟩

/-- Four 32-bit lanes: `XMVECTOR` (src/lib.rs:560-583; a `__m128` or `__vector4`). -/
@[ext] structure V4 (α : Type) where
  x : α
  y : α
  z : α
  w : α
deriving DecidableEq, Repr

namespace V4
variable {α β γ δ : Type}
@[simp] def map (f : α → β) (a : V4 α) : V4 β := ⟨f a.x, f a.y, f a.z, f a.w⟩
@[simp] def map2 (f : α → β → γ) (a : V4 α) (b : V4 β) : V4 γ := ⟨f a.x b.x, f a.y b.y, f a.z b.z, f a.w b.w⟩
@[simp] def map3 (f : α → β → γ → δ) (a : V4 α) (b : V4 β) (c : V4 γ) : V4 δ :=
  ⟨f a.x b.x c.x, f a.y b.y c.y, f a.z b.z c.z, f a.w b.w c.w⟩
@[simp] def splat (a : α) : V4 α := ⟨a, a, a, a⟩
/-- Lane number `i` (x=0, y=1, z=2, w=3). -/
def lane (a : V4 α) (i : Fin 4) : α := match i with | 0 => a.x | 1 => a.y | 2 => a.z | 3 => a.w
/-- Replace lane number `i`. -/
def setLane (a : V4 α) (i : Fin 4) (v : α) : V4 α :=
  match i with | 0 => { a with x := v } | 1 => { a with y := v } | 2 => { a with z := v } | 3 => { a with w := v }
@[simp] theorem lane_0 (a : V4 α) : a.lane 0 = a.x := rfl
@[simp] theorem lane_1 (a : V4 α) : a.lane 1 = a.y := rfl
@[simp] theorem lane_2 (a : V4 α) : a.lane 2 = a.z := rfl
@[simp] theorem lane_3 (a : V4 α) : a.lane 3 = a.w := rfl
theorem ext_lane {a b : V4 α} (h : ∀ i, a.lane i = b.lane i) : a = b := by
  have h0 := h 0; have h1 := h 1; have h2 := h 2; have h3 := h 3
  cases a; cases b; simp_all [lane]
end V4

/-- Four rows: `XMMATRIX` (src/lib.rs:600-620). -/
@[ext] structure M4 (α : Type) where
  r0 : V4 α
  r1 : V4 α
  r2 : V4 α
  r3 : V4 α
deriving DecidableEq, Repr

/-- Row number `i`. -/
def M4.row {α : Type} (m : M4 α) (i : Fin 4) : V4 α := match i with | 0 => m.r0 | 1 => m.r1 | 2 => m.r2 | 3 => m.r3
@[simp] theorem M4.row_0 {α : Type} (m : M4 α) : m.row 0 = m.r0 := rfl
@[simp] theorem M4.row_1 {α : Type} (m : M4 α) : m.row 1 = m.r1 := rfl
@[simp] theorem M4.row_2 {α : Type} (m : M4 α) : m.row 2 = m.r2 := rfl
@[simp] theorem M4.row_3 {α : Type} (m : M4 α) : m.row 3 = m.r3 := rfl
/-- Entry in row `i`, column `j`. -/
def M4.at {α : Type} (m : M4 α) (i j : Fin 4) : α := (m.row i).lane j

/-- `XMFLOAT2`, `XMINT2`, `XMUINT2` (src/lib.rs). -/
@[ext] structure F2 (α : Type) where
  x : α
  y : α
deriving DecidableEq, Repr
/-- `XMFLOAT3`, `XMFLOAT3A`, `XMINT3`, `XMUINT3` (src/lib.rs). -/
@[ext] structure F3 (α : Type) where
  x : α
  y : α
  z : α
deriving DecidableEq, Repr

/-- The operations a 32-bit lane supports: everything the code does to a lane goes through these.
`F32` gives them IEEE-754 bit-level meaning, `E` exact-real meaning. -/
class Lane (α : Type) where
  /-- bit-pattern literal -/
  ofBits : BitVec 32 → α
  add : α → α → α
  sub : α → α → α
  mul : α → α → α
  div : α → α → α
  /-- fused `a*b+c`, one rounding -/
  fma : α → α → α → α
  /-- fused `-(a*b)+c`, one rounding -/
  fnma : α → α → α → α
  sqrt : α → α
  /-- Rust unary minus (sign-bit flip) -/
  neg : α → α
  /-- `fabsf` (sign-bit clear) -/
  abs : α → α
  band : α → α → α
  bor : α → α → α
  bxor : α → α → α
  /-- `!a & b` -/
  bandn : α → α → α
  /-- IEEE `<` -/
  lt : α → α → Bool
  /-- IEEE `<=` -/
  le : α → α → Bool
  /-- IEEE `==` -/
  eq : α → α → Bool
  /-- equality of the 32-bit patterns -/
  ieq : α → α → Bool
  /-- signed 32-bit integer `<` of the patterns (`_mm_cmplt_epi32`) -/
  ilt : α → α → Bool
  /-- most significant bit, as read by `_mm_movemask_ps` -/
  sgn : α → Bool
  /-- IEEE NaN pattern (`f32::is_nan`) -/
  isNaN : α → Bool
  /-- IEEE infinity pattern (`f32::is_infinite`) -/
  isInf : α → Bool
  /-- correctly rounded to-nearest-even integral value (`roundps` mode 0) -/
  rint : α → α
  /-- `truncf`, `roundps` toward zero -/
  trunc : α → α
  /-- `floorf`, `roundps` down -/
  floor : α → α
  /-- `ceilf`, `roundps` up -/
  ceil : α → α
  /-- `(v + m) - m` with the magic constant `m = ±2^23` -/
  addSubMagic : α → α → α
  /-- `_mm_cvtepi32_ps(_mm_cvttps_epi32(v))` -/
  cvttI : α → α
  /-- Rust `v as i32 as f32` (saturating) -/
  castI : α → α
  /-- `_mm_cvtepi32_ps` -/
  i2f : α → α
  /-- Rust `u32 as f32` of the pattern -/
  u2f : α → α
  /-- `(_mm_cvttps_epi32(v) & 1) == 0` -/
  evenI : α → Bool
  /-- approximate reciprocal `rcpps` -/
  rcpE : α → α
  /-- approximate reciprocal square root `rsqrtps` -/
  rsqrtE : α → α
  sin : α → α
  cos : α → α
  tan : α → α
  asin : α → α
  acos : α → α
  atan : α → α
  /-- `atan2f(y, x)` -/
  atan2 : α → α → α
  sinh : α → α
  cosh : α → α
  tanh : α → α
  pow : α → α → α
  exp : α → α
  log : α → α

namespace Lane
variable {α : Type} [Lane α]

/-- IEEE `!=` (true on NaN). -/
def ne (a b : α) : Bool := !eq a b
/-- IEEE `>` -/
def gt (a b : α) : Bool := lt b a
/-- IEEE `>=` -/
def ge (a b : α) : Bool := le b a
/-- A comparison result as a lane: `0xFFFFFFFF` or `0`. -/
def mask (b : Bool) : α := if b then ofBits 0xFFFFFFFF#32 else ofBits 0#32
/-- `minps` lane: `a < b ? a : b` (second operand on NaN or equality). -/
def minps (a b : α) : α := if lt a b then a else b
/-- `maxps` lane: `a > b ? a : b`. -/
def maxps (a b : α) : α := if lt b a then a else b

/-- `f32` literals that occur all over the code. -/
abbrev c0 : α := ofBits 0x00000000#32
abbrev c1 : α := ofBits 0x3F800000#32
abbrev c2 : α := ofBits 0x40000000#32
abbrev cHalf : α := ofBits 0x3F000000#32
abbrev cNeg1 : α := ofBits 0xBF800000#32

end Lane

/-- The bitwise-mask laws every interpretation satisfies: masking with all-ones / zero. -/
class LawfulLane (α : Type) [Lane α] : Prop where
  band_ones_left : ∀ x : α, Lane.band (Lane.ofBits 0xFFFFFFFF#32) x = x
  band_ones_right : ∀ x : α, Lane.band x (Lane.ofBits 0xFFFFFFFF#32) = x
  band_zero_left : ∀ x : α, Lane.band (Lane.ofBits 0#32) x = Lane.ofBits 0#32
  band_zero_right : ∀ x : α, Lane.band x (Lane.ofBits 0#32) = Lane.ofBits 0#32
  bandn_ones_left : ∀ x : α, Lane.bandn (Lane.ofBits 0xFFFFFFFF#32) x = Lane.ofBits 0#32
  bandn_zero_left : ∀ x : α, Lane.bandn (Lane.ofBits 0#32) x = x
  bandn_zero_right : ∀ x : α, Lane.bandn x (Lane.ofBits 0#32) = Lane.ofBits 0#32
  bor_zero_left : ∀ x : α, Lane.bor (Lane.ofBits 0#32) x = x
  bor_zero_right : ∀ x : α, Lane.bor x (Lane.ofBits 0#32) = x
  bxor_zero_ones : Lane.bxor (Lane.ofBits 0#32 : α) (Lane.ofBits 0xFFFFFFFF#32) = Lane.ofBits 0xFFFFFFFF#32
  bxor_ones_ones : Lane.bxor (Lane.ofBits 0xFFFFFFFF#32 : α) (Lane.ofBits 0xFFFFFFFF#32) = Lane.ofBits 0#32
  sgn_ones : Lane.sgn (Lane.ofBits 0xFFFFFFFF#32 : α) = true
  sgn_zero : Lane.sgn (Lane.ofBits 0#32 : α) = false
  ieq_ones_ones : Lane.ieq (Lane.ofBits 0xFFFFFFFF#32 : α) (Lane.ofBits 0xFFFFFFFF#32) = true
  ieq_zero_zero : Lane.ieq (Lane.ofBits 0#32 : α) (Lane.ofBits 0#32) = true
  ieq_ones_zero : Lane.ieq (Lane.ofBits 0xFFFFFFFF#32 : α) (Lane.ofBits 0#32) = false
  ieq_zero_ones : Lane.ieq (Lane.ofBits 0#32 : α) (Lane.ofBits 0xFFFFFFFF#32) = false

end DXM
