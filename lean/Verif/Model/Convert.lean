import Verif.F32
import Verif.Intrinsics
import Verif.Model.Globals
import Verif.Model.Misc

/-
src/convert.rs 11-208 (integer/float conversion), src/packed_vector.rs (half precision), src/lib.rs 2807-2835 and 2876-2897
(constants).  These functions compute on the bits, so they are modelled over IEEE binary32 lanes only.
-/

namespace DXM
variable {P : Env}

namespace F32
/-- `_mm_cvtepi32_ps` on the pattern. -/
def cvtepi32_ps (a : F32 P) : F32 P := ofBV (IEEE.ofI32 a.bits)
/-- `_mm_cvttps_epi32`, the integer as a pattern. -/
def cvttps_epi32 (a : F32 P) : F32 P := ofBV (IEEE.cvtt a.bits)
/-- `_mm_srai_epi32(a, 31)` -/
def srai31 (a : F32 P) : F32 P := ofBV (a.bits.sshiftRight 31)
/-- Rust `n as f32` for a `u32` with value `n`. -/
def ofU (n : BitVec 32) : F32 P := ofBV (IEEE.ofU32 n)
end F32
open F32

/-- `1u32 << k` -/
def shl1 (k : Nat) : BitVec 32 := 1#32 <<< k
/-- `0x3F800000u32 - (k << 23)`: the pattern of 2^-k. -/
def scaleBits (k : Nat) : BitVec 32 := 0x3F800000#32 - (BitVec.ofNat 32 k <<< 23)

/-- convert.rs:11-40.  NOI: `1.0 / (1 >> DivExponent) as f32` (sic: `>>`, an `i32`), and the lane is read as `u32`. -/
def XMConvertVectorIntToFloat (c : Cfg) (VInt : V4 (F32 P)) (DivExponent : Nat) : V4 (F32 P) :=
  if c.sse then
    SSE.mul (V4.map cvtepi32_ps VInt) (.splat (ofBV (scaleBits DivExponent)))
  else
    let fScale : F32 P := Lane.div Lane.c1 (ofBV (IEEE.ofI32 (1#32 >>> DivExponent)))
    V4.map (fun v => Lane.mul (ofU v.bits) fScale) VInt

/-- convert.rs:47-92 -/
def XMConvertVectorFloatToInt (c : Cfg) (VFloat : V4 (F32 P)) (MulExponent : Nat) : V4 (F32 P) :=
  if c.sse then
    let vResult := SSE.mul (.splat (ofU (shl1 MulExponent))) VFloat
    let vOverflow := SSE.cmpgt vResult g_XMMaxInt
    let vResulti := V4.map cvttps_epi32 vResult
    let vResult := SSE.and vOverflow g_XMAbsMask
    let vOverflow := SSE.andnot vOverflow vResulti
    SSE.or vOverflow vResult
  else
    let fScale : F32 P := ofU (shl1 MulExponent)
    V4.map (fun v =>
      let fTemp := Lane.mul v fScale
      -- -(65536.0 * 32768.0) = 0xCF000000; (65536.0 * 32768.0) - 128.0 = 0x4EFFFFFF
      if Lane.le fTemp (ofBV 0xCF000000#32) then ofBV 0x80000000#32
      else if Lane.lt (ofBV 0x4EFFFFFF#32) fTemp then ofBV 0x7FFFFFFF#32
      else ofBV (IEEE.castI32 fTemp.bits)) VFloat

/-- convert.rs:99-143 -/
def XMConvertVectorUIntToFloat (c : Cfg) (VUInt : V4 (F32 P)) (DivExponent : Nat) : V4 (F32 P) :=
  if c.sse then
    let vMask := SSE.and VUInt g_XMNegativeZero
    let vResult := SSE.xor VUInt vMask
    let vResult := V4.map cvtepi32_ps vResult
    let iMask := V4.map srai31 vMask
    let vMask := SSE.and iMask g_XMFixUnsigned
    let vResult := SSE.add vResult vMask
    SSE.mul vResult (.splat (ofBV (scaleBits DivExponent)))
  else
    let fScale : F32 P := Lane.div Lane.c1 (ofU (shl1 DivExponent))
    V4.map (fun v => Lane.mul (ofU v.bits) fScale) VUInt

/-- convert.rs:149-208 -/
def XMConvertVectorFloatToUInt (c : Cfg) (VFloat : V4 (F32 P)) (MulExponent : Nat) : V4 (F32 P) :=
  if c.sse then
    let vResult := SSE.mul (.splat (ofU (shl1 MulExponent))) VFloat
    let vResult := SSE.max vResult g_XMZero
    let vOverflow := SSE.cmpgt vResult g_XMMaxUInt
    let vValue : V4 (F32 P) := g_XMUnsignedFix
    let vMask := SSE.cmpge vResult vValue
    let vValue := SSE.and vValue vMask
    let vResult := SSE.sub vResult vValue
    let vResulti := V4.map cvttps_epi32 vResult
    let vMask := SSE.and vMask g_XMNegativeZero
    let vResult := SSE.xor vResulti vMask
    SSE.or vResult vOverflow
  else
    let fScale : F32 P := ofU (shl1 MulExponent)
    V4.map (fun v =>
      let fTemp := Lane.mul v fScale
      -- 65536.0 * 65536.0 = 0x4F800000
      if Lane.le fTemp Lane.c0 then ofBV 0#32
      else if Lane.le (ofBV 0x4F800000#32) fTemp then ofBV 0xFFFFFFFF#32
      else ofBV (IEEE.castU32 fTemp.bits)) VFloat

/-- lib.rs:2807-2835.  `none` is the panic of `0 - (C & 1)` in a build with overflow checks (`debug = true`). -/
def XMVectorSetBinaryConstant (c : Cfg) (debug : Bool) (C0 C1 C2 C3 : BitVec 32) : Option (V4 (F32 P)) :=
  if c.sse then
    let g_vMask1 : V4 (F32 P) := ⟨ofBV 1#32, ofBV 2#32, ofBV 3#32, ofBV 4#32⟩
    let vTemp : V4 (F32 P) := ⟨ofBV C0, ofBV C1, ofBV C2, ofBV C3⟩
    let vTemp := SSE.and vTemp g_vMask1
    let vTemp := SSE.cmpeq_epi32 vTemp g_vMask1
    some (SSE.and vTemp g_XMOne)
  else
    let f (C : BitVec 32) : Option (F32 P) :=
      if debug && decide (0 < (C &&& 1#32).toNat) then none else some (ofBV ((0#32 - (C &&& 1#32)) &&& 0x3F800000#32))
    match f C0, f C1, f C2, f C3 with
    | some x, some y, some z, some w => some ⟨x, y, z, w⟩
    | _, _, _, _ => none

/-- lib.rs:2876-2897; the debug assert -16 ≤ IntConstant ≤ 15 is a precondition. -/
def XMVectorSplatConstantInt (c : Cfg) (IntConstant : Int) : V4 (F32 P) := .splat (ofBV (BitVec.ofInt 32 IntConstant))

/-! ### packed_vector.rs -/

/-- One pass of the loop at packed_vector.rs:29-36 after another, until `Mantissa & 0x400 == 0`; at most `fuel` passes
(`XMConvertHalfToFloat_fuel` in Lemmas/HalfConv.lean shows that 32 are never used up). -/
def halfLoop : Nat → BitVec 32 → BitVec 32 → BitVec 32 × BitVec 32
  | 0, e, m => (e, m)
  | fuel + 1, e, m =>
    let e := e - 1#32
    let m := m <<< 1
    if m &&& 0x400#32 = 0#32 then (e, m) else halfLoop fuel e m

/-- packed_vector.rs:11-51, the software path (builds without F16C). -/
def halfToFloatSoft (Value : BitVec 16) : BitVec 32 :=
  let V := Value.setWidth 32
  let Mantissa := V &&& 0x03FF#32
  let Exponent := V &&& 0x7C00#32
  let em : BitVec 32 × BitVec 32 :=
    if Exponent = 0x7C00#32 then (0x8f#32, Mantissa)
    else if Exponent ≠ 0#32 then ((V >>> 10) &&& 0x1F#32, Mantissa)
    else if Mantissa ≠ 0#32 then
      let r := halfLoop 32 1#32 Mantissa
      (r.1, r.2 &&& 0x03FF#32)
    else (0xFFFFFF90#32, Mantissa) -- -112 as u32
  ((V &&& 0x8000#32) <<< 16) ||| ((em.1 + 112#32) <<< 23) ||| (em.2 <<< 13)

/-- packed_vector.rs:67-106, the software path (builds without F16C). -/
def floatToHalfSoft (Value : BitVec 32) : BitVec 16 :=
  let Sign := (Value &&& 0x80000000#32) >>> 16
  let IValue := Value &&& 0x7FFFFFFF#32
  let Result : BitVec 32 :=
    if 0x47800000#32 ≤ IValue then
      0x7C00#32 ||| (if 0x7F800000#32 < IValue then 0x200#32 ||| ((IValue >>> 13) &&& 0x3FF#32) else 0#32)
    else if IValue ≤ 0x33000000#32 then 0#32
    else if IValue < 0x38800000#32 then
      let Shift := 125#32 - (IValue >>> 23)
      let IValue := 0x800000#32 ||| (IValue &&& 0x7FFFFF#32)
      let Result := IValue >>> (Shift + 1#32).toNat
      let s : BitVec 32 := if (IValue &&& ((1#32 <<< Shift.toNat) - 1#32)) ≠ 0#32 then 1#32 else 0#32
      Result + ((Result ||| s) &&& ((IValue >>> Shift.toNat) &&& 1#32))
    else
      let IValue := IValue + 0xC8000000#32
      ((IValue + 0x0FFF#32 + ((IValue >>> 13) &&& 1#32)) >>> 13) &&& 0x7FFF#32
  (Result ||| Sign).setWidth 16

namespace Half
/-- The absolute value of the finite half with unsigned pattern `n`, in units of 2^-24. -/
def magH (n : Nat) : Nat := if n < 2^10 then n else (2^10 + n % 2^10) * 2^(n / 2^10 - 1)
/-- The unsigned half pattern nearest to `(p / q) * 2^-24`, ties to even; infinity on overflow. -/
def roundH (p q : Nat) : Nat :=
  let k := Nat.log2 (p / q) - 10
  min 0x7C00 (k * 2^10 + IEEE.rne p (q * 2^k))

/-- `_mm_cvtps_ph` with round-to-nearest-even (Intel SDM, VCVTPS2PH): correctly rounded; a NaN keeps its upper payload bits, quieted. -/
def cvtps_ph (a : BitVec 32) : BitVec 16 :=
  let n := if IEEE.isNaN a then 0x7E00 ||| (IEEE.am a / 2^13 % 2^10)
    else if IEEE.isInf a then 0x7C00 else roundH (IEEE.mag a) (2^125)
  BitVec.ofNat 16 (n + if IEEE.sg a then 2^15 else 0)
/-- `_mm_cvtph_ps` (Intel SDM, VCVTPH2PS): exact; a NaN keeps its payload, quieted. -/
def cvtph_ps (h : BitVec 16) : BitVec 32 :=
  let n := h.toNat % 2^15
  let r := if 0x7C00 < n then 0x7FC00000 ||| (n % 2^10) * 2^13
    else if n = 0x7C00 then 0x7F800000 else IEEE.roundN (magH n * 2^125) 1
  IEEE.mk h.msb r
end Half

/-- packed_vector.rs:11-60 -/
def XMConvertHalfToFloat (c : Cfg) (Value : BitVec 16) : F32 P :=
  if c.sse && c.f16c then ofBV (Half.cvtph_ps Value) else ofBV (halfToFloatSoft Value)

/-- packed_vector.rs:67-118 -/
def XMConvertFloatToHalf (c : Cfg) (Value : F32 P) : BitVec 16 :=
  if c.sse && c.f16c then Half.cvtps_ph Value.bits else floatToHalfSoft Value.bits

end DXM
