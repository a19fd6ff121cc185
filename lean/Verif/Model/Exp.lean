import Verif.F32
import Verif.Intrinsics
import Verif.Model.Vector1

/-
Exponential and hyperbolic functions.  They add and shift exponent fields as integers, so they are modelled on binary32 lanes only
(interpretation I), not on abstract lanes.
-/

namespace DXM
variable {P : Env}
open Lane

/-- `_mm_cvttps_epi32` -/
def SSE.cvttps_epi32 (V : V4 (F32 P)) : V4 (F32 P) := .map (fun a => F32.ofBV (IEEE.cvtt a.bits)) V
/-- `_mm_cvtepi32_ps` -/
def SSE.cvtepi32_ps (V : V4 (F32 P)) : V4 (F32 P) := .map Lane.i2f V
/-- `_mm_add_epi32` -/
def SSE.add_epi32 (A B : V4 (F32 P)) : V4 (F32 P) := .map2 (fun a b => F32.ofBV (a.bits + b.bits)) A B
/-- `_mm_slli_epi32(·, n)` -/
def SSE.slli_epi32 (A : V4 (F32 P)) (n : Nat) : V4 (F32 P) := .map (fun a => F32.ofBV (BitVec.shiftLeft a.bits n)) A

/-- vector.rs:4563-4650 -/
def XMVectorExp2 (c : Cfg) (V : V4 (F32 P)) : V4 (F32 P) :=
  if c.sse then
    let itrunc := SSE.cvttps_epi32 V
    let ftrunc := SSE.cvtepi32_ps itrunc
    let y := SSE.sub V ftrunc
    let poly := SSE.fmadd c g_XMExpEst7 y g_XMExpEst6
    let poly := SSE.fmadd c poly y g_XMExpEst5
    let poly := SSE.fmadd c poly y g_XMExpEst4
    let poly := SSE.fmadd c poly y g_XMExpEst3
    let poly := SSE.fmadd c poly y g_XMExpEst2
    let poly := SSE.fmadd c poly y g_XMExpEst1
    let poly := SSE.fmadd c poly y g_XMOne
    let biased := SSE.add_epi32 itrunc g_XMExponentBias
    let biased := SSE.slli_epi32 biased 23
    let result0 := SSE.div biased poly
    let biased := SSE.add_epi32 itrunc g_XM253
    let biased := SSE.slli_epi32 biased 23
    let result1 := SSE.div biased poly
    let result1 := SSE.mul g_XMMinNormal result1
    let comp := SSE.cmplt_epi32 V g_XMBin128
    let select0 := SSE.and comp result0
    let select1 := SSE.andnot comp g_XMInfinity
    let result2 := SSE.or select0 select1
    let comp := SSE.cmplt_epi32 itrunc g_XMSubnormalExponent
    let select1 := SSE.and comp result1
    let select0 := SSE.andnot comp result0
    let result3 := SSE.or select0 select1
    let comp := SSE.cmplt_epi32 V g_XMBinNeg150
    let select0 := SSE.and comp result3
    let select1 := SSE.andnot comp g_XMZero
    let result4 := SSE.or select0 select1
    let sign := SSE.and V g_XMNegativeZero
    let comp := SSE.cmpeq_epi32 sign g_XMNegativeZero
    let select0 := SSE.and comp result4
    let select1 := SSE.andnot comp result2
    let result5 := SSE.or select0 select1
    let t0 := SSE.and V g_XMQNaNTest
    let t1 := SSE.and V g_XMInfinity
    let t0 := SSE.cmpeq_epi32 t0 g_XMZero
    let t1 := SSE.cmpeq_epi32 t1 g_XMInfinity
    let isNaN := SSE.andnot t0 t1
    let select0 := SSE.and isNaN g_XMQNaN
    let select1 := SSE.andnot isNaN result5
    SSE.or select0 select1
  else .map (fun v => pow c2 v) V

/-- vector.rs:4660-4664 -/
def XMVectorExp (c : Cfg) (V : V4 (F32 P)) : V4 (F32 P) := XMVectorExp2 c V

/-- vector.rs:5356-5390; the constant is `1.442695040888963` as f32. -/
def XMVectorSinH (c : Cfg) (V : V4 (F32 P)) : V4 (F32 P) :=
  if c.sse then
    let Scale := V4.splat (ofBits 0x3FB8AA3B#32)
    let V1 := SSE.fmadd c V Scale g_XMNegativeOne
    let V2 := SSE.fnmadd c V Scale g_XMNegativeOne
    let E1 := XMVectorExp c V1
    let E2 := XMVectorExp c V2
    SSE.sub E1 E2
  else .map sinh V

/-- vector.rs:5407-5439; the constant is `1.442695040888963` as f32. -/
def XMVectorCosH (c : Cfg) (V : V4 (F32 P)) : V4 (F32 P) :=
  if c.sse then
    let Scale := V4.splat (ofBits 0x3FB8AA3B#32)
    let V1 := SSE.fmadd c V Scale g_XMNegativeOne
    let V2 := SSE.fnmadd c V Scale g_XMNegativeOne
    let E1 := XMVectorExp c V1
    let E2 := XMVectorExp c V2
    SSE.add E1 E2
  else .map cosh V

/-- vector.rs:5456-5487; the constant is `2.8853900817779268` as f32. -/
def XMVectorTanH (c : Cfg) (V : V4 (F32 P)) : V4 (F32 P) :=
  if c.sse then
    let Scale := V4.splat (ofBits 0x4038AA3B#32)
    let E := SSE.mul V Scale
    let E := XMVectorExp c E
    let E := SSE.fmadd c E g_XMOneHalf g_XMOneHalf
    let E := SSE.div g_XMOne E
    SSE.sub g_XMOne E
  else .map tanh V

end DXM
