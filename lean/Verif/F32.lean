import Verif.Basic

/-
Interpretation I: IEEE-754 binary32 lanes.

A lane is its 32-bit pattern.  All finite binary32 numbers are integer multiples of 2^-149, so every operation is exact integer
arithmetic followed by one rounding (`roundN`).  `Verif/Props/Arith.lean` proves that these definitions are IEEE-754 arithmetic:
each result is a nearest representable number of the exact result, ties to even.

What the standard (or the hardware, or libm) leaves open is a parameter `Env`: which quiet NaN an operation returns, and
the libm functions and approximate instructions.
-/

namespace DXM

/-- What IEEE-754 leaves open. -/
structure Env where
  /-- payload bits of the NaN returned by operation `op` on given operands -/
  nan : Nat → BitVec 32 → BitVec 32 → BitVec 32 → BitVec 32
  /-- libm functions and `rcpps`/`rsqrtps` -/
  libm : Nat → BitVec 32 → BitVec 32 → BitVec 32

/-- A binary32 bit pattern, in the environment `P`. -/
def F32 (_P : Env) : Type := BitVec 32

/-- The 32 bits of a lane. -/
def F32.bits {P : Env} (a : F32 P) : BitVec 32 := a
/-- The lane with given bits. -/
def F32.ofBV {P : Env} (a : BitVec 32) : F32 P := a

instance (P : Env) : DecidableEq (F32 P) := inferInstanceAs (DecidableEq (BitVec 32))

namespace IEEE

/-- The pattern without its sign bit. -/
def am (b : BitVec 32) : Nat := b.toNat % 2^31
/-- The sign bit. -/
def sg (b : BitVec 32) : Bool := b.msb
def isNaN (b : BitVec 32) : Bool := 0x7F800000 < am b
def isInf (b : BitVec 32) : Bool := am b = 0x7F800000
/-- The absolute value of the number with unsigned pattern `n`, in units of 2^-149. -/
def magN (n : Nat) : Nat := if n < 2^23 then n else (2^23 + n % 2^23) * 2^(n / 2^23 - 1)
/-- The absolute value in units of 2^-149. -/
def mag (b : BitVec 32) : Nat := magN (am b)
/-- The value in units of 2^-149. -/
def ival (b : BitVec 32) : Int := if sg b then -(mag b : Int) else mag b
/-- Order key: the order of keys is the order of the numbers, infinities included. -/
def key (b : BitVec 32) : Int := if sg b then -(am b : Int) else am b

/-- The integer nearest to `p / q`, ties to even. -/
def rne (p q : Nat) : Nat :=
  if 2 * (p % q) < q then p / q else if q < 2 * (p % q) then p / q + 1 else if (p / q) % 2 = 0 then p / q else p / q + 1
/-- The unsigned pattern of the number nearest to `(p / q) * 2^-149`, ties to even; infinity on overflow. -/
def roundN (p q : Nat) : Nat :=
  let k := Nat.log2 (p / q) - 23
  min 0x7F800000 (k * 2^23 + rne p (q * 2^k))
/-- The pattern with sign `s` and unsigned pattern `n`. -/
def mk (s : Bool) (n : Nat) : BitVec 32 := BitVec.ofNat 32 (n + if s then 2^31 else 0)

/-- A signed integer multiple of 2^-149, rounded; `z` is the sign of a zero. -/
def roundI (z : Bool) (n : Int) (q : Nat) : BitVec 32 := if n = 0 then mk z 0 else mk (decide (n < 0)) (roundN n.natAbs q)

variable (P : Env)

/-- The quiet NaN returned by operation `op`. -/
def qnan (op : Nat) (a b c : BitVec 32) : BitVec 32 := P.nan op a b c ||| 0x7FC00000#32

def neg (a : BitVec 32) : BitVec 32 := a ^^^ 0x80000000#32
def abs (a : BitVec 32) : BitVec 32 := a &&& 0x7FFFFFFF#32

/-- Addition of non-NaN operands. -/
def addCore (op : Nat) (a b : BitVec 32) : BitVec 32 :=
  if isInf a then (if isInf b && sg a != sg b then qnan P op a b 0 else a)
  else if isInf b then b
  else roundI (sg a && sg b) (ival a + ival b) 1
def add (a b : BitVec 32) : BitVec 32 := if isNaN a || isNaN b then qnan P 0 a b 0 else addCore P 0 a b
def sub (a b : BitVec 32) : BitVec 32 := if isNaN a || isNaN b then qnan P 1 a b 0 else addCore P 1 a (neg b)
def mul (a b : BitVec 32) : BitVec 32 :=
  if isNaN a || isNaN b then qnan P 2 a b 0
  else if isInf a || isInf b then (if mag a = 0 || mag b = 0 then qnan P 2 a b 0 else mk (sg a != sg b) 0x7F800000)
  else mk (sg a != sg b) (roundN (mag a * mag b) (2^149))
def div (a b : BitVec 32) : BitVec 32 :=
  if isNaN a || isNaN b then qnan P 3 a b 0
  else if isInf a then (if isInf b then qnan P 3 a b 0 else mk (sg a != sg b) 0x7F800000)
  else if isInf b then mk (sg a != sg b) 0
  else if mag b = 0 then (if mag a = 0 then qnan P 3 a b 0 else mk (sg a != sg b) 0x7F800000)
  else mk (sg a != sg b) (roundN (mag a * 2^149) (mag b))
/-- Fused multiply-add of non-NaN operands. -/
def fmaCore (op : Nat) (a b c : BitVec 32) : BitVec 32 :=
  if isInf a || isInf b then
    (if mag a = 0 || mag b = 0 then qnan P op a b c
     else if isInf c && sg c != (sg a != sg b) then qnan P op a b c else mk (sg a != sg b) 0x7F800000)
  else if isInf c then c
  else roundI ((sg a != sg b) && sg c) (ival a * ival b + ival c * 2^149) (2^149)
def fma (a b c : BitVec 32) : BitVec 32 := if isNaN a || isNaN b || isNaN c then qnan P 4 a b c else fmaCore P 4 a b c
def fnma (a b c : BitVec 32) : BitVec 32 := if isNaN a || isNaN b || isNaN c then qnan P 5 a b c else fmaCore P 5 (neg a) b c
def sqrt (a : BitVec 32) : BitVec 32 :=
  if isNaN a then qnan P 6 a 0 0
  else if mag a = 0 then a
  else if sg a then qnan P 6 a 0 0
  else if isInf a then a
  else
    let n := mag a * 2^149
    let r := Nat.sqrt n
    mk false (roundN (2 * r + if r * r = n then 0 else 1) 2)

def lt (a b : BitVec 32) : Bool := !isNaN a && !isNaN b && decide (key a < key b)
def le (a b : BitVec 32) : Bool := !isNaN a && !isNaN b && decide (key a ≤ key b)
def eq (a b : BitVec 32) : Bool := !isNaN a && !isNaN b && decide (key a = key b)

/-- Apply a rounding of the magnitude to an integer; large numbers and infinities are integers already. -/
def toIntegral (op : Nat) (f : Bool → Nat → Nat) (a : BitVec 32) : BitVec 32 :=
  if isNaN a then qnan P op a 0 0 else if isInf a then a else mk (sg a) (roundN (f (sg a) (mag a) * 2^149) 1)
def rint : BitVec 32 → BitVec 32 := toIntegral P 7 fun _ m => rne m (2^149)
def trunc : BitVec 32 → BitVec 32 := toIntegral P 8 fun _ m => m / 2^149
def floor : BitVec 32 → BitVec 32 := toIntegral P 9 fun s m => if s then (m + (2^149 - 1)) / 2^149 else m / 2^149
def ceil : BitVec 32 → BitVec 32 := toIntegral P 10 fun s m => if s then m / 2^149 else (m + (2^149 - 1)) / 2^149

/-- `cvttps_epi32`: truncation, 0x80000000 on NaN and overflow. -/
def cvtt (a : BitVec 32) : BitVec 32 :=
  let n : Nat := mag a / 2^149
  if isNaN a || isInf a then 0x80000000#32
  else if sg a then (if n ≤ 2^31 then BitVec.ofInt 32 (-(n : Int)) else 0x80000000#32)
  else (if n < 2^31 then BitVec.ofNat 32 n else 0x80000000#32)
/-- Rust `as i32`: truncation, saturating, NaN to 0. -/
def castI32 (a : BitVec 32) : BitVec 32 :=
  let n : Nat := mag a / 2^149
  if isNaN a then 0#32
  else if sg a then (if n ≤ 2^31 then BitVec.ofInt 32 (-(n : Int)) else 0x80000000#32)
  else (if n < 2^31 then BitVec.ofNat 32 n else 0x7FFFFFFF#32)
/-- Rust `as u32`: truncation, saturating, NaN to 0. -/
def castU32 (a : BitVec 32) : BitVec 32 :=
  let n : Nat := mag a / 2^149
  if isNaN a then 0#32 else if sg a then 0#32 else if n < 2^32 then BitVec.ofNat 32 n else 0xFFFFFFFF#32
/-- `cvtepi32_ps`, Rust `i32 as f32`. -/
def ofI32 (a : BitVec 32) : BitVec 32 := roundI false (a.toInt * 2^149) 1
/-- Rust `u32 as f32`. -/
def ofU32 (a : BitVec 32) : BitVec 32 := mk false (roundN (a.toNat * 2^149) 1)

end IEEE

open IEEE in
instance (P : Env) : Lane (F32 P) where
  ofBits b := b
  add := add P
  sub := sub P
  mul := mul P
  div := div P
  fma := fma P
  fnma := fnma P
  sqrt := sqrt P
  neg := neg
  abs := abs
  band a b := BitVec.and a b
  bor a b := BitVec.or a b
  bxor a b := BitVec.xor a b
  bandn a b := BitVec.and (BitVec.not a) b
  lt := lt
  le := le
  eq := eq
  ieq a b := decide (a = b)
  ilt a b := BitVec.slt a b
  sgn := sg
  isNaN := isNaN
  isInf := isInf
  rint := rint P
  trunc := trunc P
  floor := floor P
  ceil := ceil P
  addSubMagic a m := sub P (add P a m) m
  cvttI a := ofI32 (cvtt a)
  castI a := ofI32 (castI32 a)
  i2f := ofI32
  u2f := ofU32
  evenI a := (cvtt a).getLsbD 0 = false
  rcpE a := P.libm 0 a 0
  rsqrtE a := P.libm 1 a 0
  sin a := P.libm 2 a 0
  cos a := P.libm 3 a 0
  tan a := P.libm 4 a 0
  asin a := P.libm 5 a 0
  acos a := P.libm 6 a 0
  atan a := P.libm 7 a 0
  atan2 a b := P.libm 8 a b
  sinh a := P.libm 9 a 0
  cosh a := P.libm 10 a 0
  tanh a := P.libm 11 a 0
  pow a b := P.libm 12 a b
  exp a := P.libm 13 a 0
  log a := P.libm 14 a 0

theorem F32.ofBits_eq {P : Env} (b : BitVec 32) : (Lane.ofBits b : F32 P) = b := rfl
theorem F32.sgn_eq {P : Env} (a : F32 P) : Lane.sgn a = IEEE.sg a := rfl
theorem F32.bxor_eq {P : Env} (a b : F32 P) : Lane.bxor a b = BitVec.xor a b := rfl

instance (P : Env) : LawfulLane (F32 P) where
  band_ones_left x := BitVec.allOnes_and (x := (x : BitVec 32))
  band_ones_right x := BitVec.and_allOnes (x := (x : BitVec 32))
  band_zero_left x := BitVec.zero_and (x := (x : BitVec 32))
  band_zero_right x := BitVec.and_zero (x := (x : BitVec 32))
  bandn_ones_left x := by
    show BitVec.and (BitVec.not 0xFFFFFFFF#32) x = 0#32
    rw [show BitVec.not 0xFFFFFFFF#32 = 0#32 by decide]; exact BitVec.zero_and (x := (x : BitVec 32))
  bandn_zero_left x := by
    show BitVec.and (BitVec.not 0#32) x = x
    rw [show BitVec.not 0#32 = BitVec.allOnes 32 by decide]; exact BitVec.allOnes_and (x := (x : BitVec 32))
  bandn_zero_right x := BitVec.and_zero (x := BitVec.not x)
  bor_zero_left x := BitVec.zero_or (x := (x : BitVec 32))
  bor_zero_right x := BitVec.or_zero (x := (x : BitVec 32))
  bxor_zero_ones := by rw [F32.bxor_eq, F32.ofBits_eq, F32.ofBits_eq]; exact (by decide : BitVec.xor 0#32 0xFFFFFFFF#32 = 0xFFFFFFFF#32)
  bxor_ones_ones := by rw [F32.bxor_eq, F32.ofBits_eq, F32.ofBits_eq]; exact (by decide : BitVec.xor 0xFFFFFFFF#32 0xFFFFFFFF#32 = 0#32)
  sgn_ones := by rw [F32.sgn_eq, F32.ofBits_eq]; decide
  sgn_zero := by rw [F32.sgn_eq, F32.ofBits_eq]; decide
  ieq_ones_ones := rfl
  ieq_zero_zero := rfl
  ieq_ones_zero := rfl
  ieq_zero_ones := rfl

end DXM
