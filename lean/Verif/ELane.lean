import Mathlib.Analysis.SpecialFunctions.Trigonometric.Inverse
import Mathlib.Analysis.SpecialFunctions.Trigonometric.Arctan
import Mathlib.Analysis.SpecialFunctions.Complex.Arg
import Mathlib.Analysis.SpecialFunctions.Log.Basic
import Mathlib.Analysis.SpecialFunctions.Pow.Real
import Mathlib.Algebra.Order.Round
import Verif.Basic

/-
Interpretation II: exact-real lanes.

A lane is a real number, or one of the special patterns that the code uses as data, or `bad`.
Idealisation (stated in DESIGN.md): arithmetic on reals is exact, `num 0` stands for +0 and -0,
and any operation whose result is not determined in this reading yields `bad`; comparing `bad`
yields an opaque Boolean.
-/

namespace DXM
open Classical

/-- Exact-real lane. -/
inductive E where
  /-- a finite number -/
  | num (r : ℝ)
  /-- the pattern 0x80000000 (sign mask / minus zero) -/
  | negZero
  /-- 0x7F800000 -/
  | posInf
  /-- 0xFF800000 -/
  | negInf
  /-- a quiet NaN -/
  | nan
  /-- the pattern 0xFFFFFFFF (true mask) -/
  | ones
  /-- the pattern 0x7FFFFFFF -/
  | absMask
  /-- not determined in this reading -/
  | bad

namespace E

/-- Results of comparisons that the reading does not determine. -/
opaque junk : ℕ → E → E → Bool

/-- The finite value of a lane. -/
def real? : E → Option ℝ
  | num r => some r
  | negZero => some 0
  | _ => none

/-- Is the lane a NaN pattern (as a float)? -/
def nanLike : E → Bool
  | nan => true
  | ones => true
  | absMask => true
  | _ => false

/-- Exact value of a binary32 pattern with exponent field < 255. -/
def valQ (b : BitVec 32) : ℚ :=
  let s : ℚ := if b.toNat / 2^31 = 1 then -1 else 1
  let e : ℕ := b.toNat / 2^23 % 256
  let m : ℕ := b.toNat % 2^23
  if e = 0 then s * ((m : ℚ) / 2^149)
  else if e ≤ 150 then s * (((2^23 + m : ℕ) : ℚ) / 2^(150 - e))
  else s * (((2^23 + m : ℕ) : ℚ) * 2^(e - 150))

/-- Decoding of a bit pattern. -/
noncomputable def ofBits (b : BitVec 32) : E :=
  if b = 0x80000000#32 then negZero
  else if b = 0xFFFFFFFF#32 then ones
  else if b = 0x7FFFFFFF#32 then absMask
  else if b = 0x7F800000#32 then posInf
  else if b = 0xFF800000#32 then negInf
  else if b.toNat / 2^23 % 256 = 255 then nan
  else num ((valQ b : ℚ) : ℝ)

/-- Lift an exact binary operation on reals. -/
noncomputable def lift2 (f : ℝ → ℝ → E) (a b : E) : E :=
  match a, b with
  | num a, num b => f a b
  | num a, negZero => f a 0
  | negZero, num b => f 0 b
  | negZero, negZero => f 0 0
  | bad, _ => bad
  | _, bad => bad
  | a, b => if a.nanLike || b.nanLike then nan else bad

noncomputable def lift1 (f : ℝ → E) (a : E) : E :=
  match a with
  | num a => f a
  | negZero => f 0
  | bad => bad
  | a => if a.nanLike then nan else bad

noncomputable def divR (a b : ℝ) : E := if b = 0 then (if a = 0 then nan else bad) else num (a / b)
noncomputable def sqrtR (a : ℝ) : E := if a < 0 then nan else num (Real.sqrt a)

noncomputable def and (a b : E) : E :=
  if a = num 0 then num 0 else if b = num 0 then num 0 else
  match a, b with
  | ones, b => b
  | a, ones => a
  | num r, negZero => if r < 0 then negZero else num 0
  | negZero, num r => if r < 0 then negZero else num 0
  | num r, absMask => num |r|
  | absMask, num r => num |r|
  | negZero, negZero => negZero
  | _, _ => bad

noncomputable def or (a b : E) : E :=
  if a = num 0 then b else if b = num 0 then a else
  match a, b with
  | ones, _ => ones
  | _, ones => ones
  | num r, negZero => num (-|r|)
  | negZero, num r => num (-|r|)
  | negZero, negZero => negZero
  | num r, num s => if r = s then num r else bad
  | _, _ => bad

noncomputable def xor (a b : E) : E :=
  match a, b with
  | num r, negZero => num (-r)
  | negZero, num r => num (-r)
  | a, b => if a = num 0 then b else if b = num 0 then a else
    match a, b with
    | ones, ones => num 0
    | _, _ => bad

/-- `!a & b` -/
noncomputable def andn (a b : E) : E :=
  if a = num 0 then b else if b = num 0 then num 0 else
  match a, b with
  | ones, _ => num 0
  | negZero, num r => num |r|
  | absMask, num r => if r < 0 then negZero else num 0
  | _, _ => bad

noncomputable def lt (a b : E) : Bool :=
  match a, b with
  | num a, num b => decide (a < b)
  | bad, b => junk 0 bad b
  | a, bad => junk 0 a bad
  | a, b =>
    if a.nanLike || b.nanLike then false
    else match a.real?, b.real? with
      | some a, some b => decide (a < b)
      | _, _ => (match a, b with
        | posInf, _ => false
        | _, negInf => false
        | _, _ => true)

noncomputable def le (a b : E) : Bool :=
  match a, b with
  | num a, num b => decide (a ≤ b)
  | bad, b => junk 1 bad b
  | a, bad => junk 1 a bad
  | a, b =>
    if a.nanLike || b.nanLike then false
    else match a.real?, b.real? with
      | some a, some b => decide (a ≤ b)
      | _, _ => (match a, b with
        | negInf, _ => true
        | _, posInf => true
        | _, _ => false)

noncomputable def eq (a b : E) : Bool :=
  match a, b with
  | num a, num b => decide (a = b)
  | bad, b => junk 2 bad b
  | a, bad => junk 2 a bad
  | a, b =>
    if a.nanLike || b.nanLike then false
    else match a.real?, b.real? with
      | some a, some b => decide (a = b)
      | _, _ => (match a, b with
        | negInf, negInf => true
        | posInf, posInf => true
        | _, _ => false)

/-- Equality of patterns; `nan` has unspecified payload, and bit operations read `num 0` as the pattern 0. -/
noncomputable def ieq (a b : E) : Bool :=
  match a, b with
  | num a, num b => decide (a = b)
  | bad, b => junk 3 bad b
  | a, bad => junk 3 a bad
  | nan, nan => junk 3 nan nan
  | nan, ones => junk 3 nan ones
  | ones, nan => junk 3 ones nan
  | nan, absMask => junk 3 nan absMask
  | absMask, nan => junk 3 absMask nan
  | a, b => decide (a = b)

/-- Signed integer order of patterns: on non-negative numbers it is the order of the numbers. -/
noncomputable def ilt (a b : E) : Bool :=
  match a, b with
  | num r, num s => if 0 ≤ r ∧ 0 ≤ s then decide (r < s) else junk 7 (num r) (num s)
  | a, b => junk 7 a b

noncomputable def sgn (a : E) : Bool :=
  match a with
  | num r => decide (r < 0)
  | negZero => true
  | posInf => false
  | negInf => true
  | ones => true
  | absMask => false
  | nan => junk 4 nan nan
  | bad => junk 4 bad bad

/-- Nearest integer, ties to even. -/
noncomputable def rintR (r : ℝ) : ℝ :=
  if Int.fract r < 1/2 then (⌊r⌋ : ℝ)
  else if 1/2 < Int.fract r then (⌊r⌋ : ℝ) + 1
  else if Even ⌊r⌋ then (⌊r⌋ : ℝ) else (⌊r⌋ : ℝ) + 1

/-- Integer part, toward zero. -/
noncomputable def truncR (r : ℝ) : ℝ := if 0 ≤ r then (⌊r⌋ : ℝ) else (⌈r⌉ : ℝ)

/-- `(v + m) - m` rounds `v` to an integer when `m = ±2^23` has the sign of `v` and `|v| ≤ 2^23`
(proved for binary32 in Props/Rounding.lean). -/
noncomputable def addSubMagic (a m : E) : E :=
  match a, m with
  | num r, num m => if (m = 8388608 ∧ 0 ≤ r ∧ r ≤ 8388608) ∨ (m = -8388608 ∧ -8388608 ≤ r ∧ r ≤ 0) then num (rintR r) else bad
  | _, _ => bad

noncomputable def cvttI (a : E) : E :=
  match a with
  | num r => if |r| < 2147483648 then num (truncR r) else bad
  | _ => bad

/-- Saturating Rust cast through `i32`. -/
noncomputable def castI (a : E) : E :=
  match a with
  | num r => if r ≤ -2147483648 then num (-2147483648) else if 2147483648 ≤ r then num 2147483648 else num (truncR r)
  | _ => bad

/-- `num r` with `r = n / 2^149`, `n < 2^23` is the (denormal) pattern of the integer `n`. -/
noncomputable def i2f (a : E) : E :=
  match a with
  | ones => num (-1)
  | num r => if ∃ n : ℕ, n < 2^23 ∧ r = n / 2^149 then num (r * 2^149) else bad
  | _ => bad

/-- As `i2f`, unsigned (0xFFFFFFFF rounds to 2^32). -/
noncomputable def u2f (a : E) : E :=
  match a with
  | ones => num 4294967296
  | num r => if ∃ n : ℕ, n < 2^23 ∧ r = n / 2^149 then num (r * 2^149) else bad
  | _ => bad

noncomputable def evenI (a : E) : Bool :=
  match a with
  | num r => if 0 ≤ r ∧ r < 2147483648 then decide (Even ⌊r⌋) else junk 8 (num r) (num r)
  | a => junk 8 a a

noncomputable def add (a b : E) : E := lift2 (fun a b => num (a + b)) a b
noncomputable def sub (a b : E) : E := lift2 (fun a b => num (a - b)) a b
noncomputable def mul (a b : E) : E := lift2 (fun a b => num (a * b)) a b
noncomputable def div (a b : E) : E := lift2 divR a b
noncomputable def sqrt (a : E) : E := lift1 sqrtR a
noncomputable def neg (a : E) : E := lift1 (fun a => num (-a)) a
noncomputable def abs (a : E) : E := lift1 (fun a => num |a|) a
noncomputable def isNaN (a : E) : Bool := match a with | bad => junk 5 bad bad | a => a.nanLike
noncomputable def isInf (a : E) : Bool := match a with | bad => junk 6 bad bad | posInf => true | negInf => true | _ => false

noncomputable instance : Lane E where
  ofBits := ofBits
  add := add
  sub := sub
  mul := mul
  div := div
  fma a b c := add (mul a b) c
  fnma a b c := sub c (mul a b)
  sqrt := sqrt
  neg := neg
  abs := abs
  band := and
  bor := or
  bxor := xor
  bandn := andn
  lt := lt
  le := le
  eq := eq
  ieq := ieq
  ilt := ilt
  sgn := sgn
  isNaN := isNaN
  isInf := isInf
  rint := lift1 (fun a => num (rintR a))
  trunc := lift1 (fun a => num (truncR a))
  floor := lift1 (fun a => num (⌊a⌋ : ℝ))
  ceil := lift1 (fun a => num (⌈a⌉ : ℝ))
  addSubMagic := addSubMagic
  cvttI := cvttI
  castI := castI
  i2f := i2f
  u2f := u2f
  evenI := evenI
  rcpE := fun _ => bad
  rsqrtE := fun _ => bad
  sin := lift1 (fun a => num (Real.sin a))
  cos := lift1 (fun a => num (Real.cos a))
  tan := lift1 (fun a => if Real.cos a = 0 then bad else num (Real.tan a))
  asin := lift1 (fun a => if |a| ≤ 1 then num (Real.arcsin a) else nan)
  acos := lift1 (fun a => if |a| ≤ 1 then num (Real.arccos a) else nan)
  atan := lift1 (fun a => num (Real.arctan a))
  atan2 := lift2 (fun y x => num (Complex.arg ⟨x, y⟩))
  sinh := lift1 (fun a => num (Real.sinh a))
  cosh := lift1 (fun a => num (Real.cosh a))
  tanh := lift1 (fun a => num (Real.tanh a))
  pow := lift2 (fun a b => if 0 < a then num (Real.rpow a b) else bad)
  exp := lift1 (fun a => num (Real.exp a))
  log := lift1 (fun a => if 0 < a then num (Real.log a) else bad)

end E
end DXM
