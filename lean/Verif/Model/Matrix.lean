import Verif.Model.Misc

/-
src/matrix.rs.
-/

namespace DXM
open Lane
variable {α : Type} [Lane α]

/-- Replace row `i` (helper for assignments `M.r[i] = ...`). -/
def M4.setRow {β : Type} (m : M4 β) (i : Fin 4) (v : V4 β) : M4 β :=
  match i with | 0 => { m with r0 := v } | 1 => { m with r1 := v } | 2 => { m with r2 := v } | 3 => { m with r3 := v }
/-- Apply a per-row function to the four rows (helper for the per-row statements of the operators). -/
@[simp] def M4.mapRows {β γ : Type} (f : V4 β → V4 γ) (m : M4 β) : M4 γ := ⟨f m.r0, f m.r1, f m.r2, f m.r3⟩
@[simp] def M4.mapRows2 {β γ δ : Type} (f : V4 β → V4 γ → V4 δ) (m : M4 β) (n : M4 γ) : M4 δ :=
  ⟨f m.r0 n.r0, f m.r1 n.r1, f m.r2 n.r2, f m.r3 n.r3⟩
/-- Test over the 16 entries in memory order (helper for the `for uTest in pWork` loops). -/
def M4.any {β : Type} (p : β → Bool) (m : M4 β) : Bool :=
  p m.r0.x || p m.r0.y || p m.r0.z || p m.r0.w || p m.r1.x || p m.r1.y || p m.r1.z || p m.r1.w ||
  p m.r2.x || p m.r2.y || p m.r2.z || p m.r2.w || p m.r3.x || p m.r3.y || p m.r3.z || p m.r3.w

/-- matrix.rs:18-61.  NOI: the integer test `(u & 0x7FFFFFFF) - 0x7F800001 < 0x007FFFFF` on each entry is the NaN-pattern test. -/
def XMMatrixIsNaN (c : Cfg) (M : M4 α) : Bool :=
  if c.sse then
    let vX := SSE.cmpneq M.r0 M.r0
    let vY := SSE.cmpneq M.r1 M.r1
    let vZ := SSE.cmpneq M.r2 M.r2
    let vW := SSE.cmpneq M.r3 M.r3
    let vX := SSE.or vX vZ
    let vY := SSE.or vY vW
    let vX := SSE.or vX vY
    SSE.movemask vX != 0
  else M.any isNaN
/-- matrix.rs:100-142.  NOI: `(u & 0x7FFFFFFF) == 0x7F800000` is the infinity-pattern test. -/
def XMMatrixIsInfinite (c : Cfg) (M : M4 α) : Bool :=
  if c.sse then
    let vTemp1 := SSE.cmpeq (SSE.and M.r0 g_XMAbsMask) g_XMInfinity
    let vTemp2 := SSE.cmpeq (SSE.and M.r1 g_XMAbsMask) g_XMInfinity
    let vTemp3 := SSE.cmpeq (SSE.and M.r2 g_XMAbsMask) g_XMInfinity
    let vTemp4 := SSE.cmpeq (SSE.and M.r3 g_XMAbsMask) g_XMInfinity
    let vTemp1 := SSE.or vTemp1 vTemp2
    let vTemp3 := SSE.or vTemp3 vTemp4
    let vTemp1 := SSE.or vTemp1 vTemp3
    SSE.movemask vTemp1 != 0
  else M.any isInf
/-- matrix.rs:181-233.  NOI: integer test `uOne | (uZero & 0x7FFFFFFF) == 0`. -/
def XMMatrixIsIdentity (c : Cfg) (M : M4 α) : Bool :=
  if c.sse then
    let vTemp1 := SSE.cmpeq M.r0 g_XMIdentityR0
    let vTemp2 := SSE.cmpeq M.r1 g_XMIdentityR1
    let vTemp3 := SSE.cmpeq M.r2 g_XMIdentityR2
    let vTemp4 := SSE.cmpeq M.r3 g_XMIdentityR3
    let vTemp1 := SSE.and vTemp1 vTemp2
    let vTemp3 := SSE.and vTemp3 vTemp4
    let vTemp1 := SSE.and vTemp1 vTemp3
    SSE.movemask vTemp1 == 15
  else
    let one : α := c1
    let uOne := bxor M.r0.x one
    let uZero := bor (bor M.r0.y M.r0.z) M.r0.w
    let uZero := bor uZero M.r1.x
    let uOne := bor uOne (bxor M.r1.y one)
    let uZero := bor (bor uZero M.r1.z) M.r1.w
    let uZero := bor (bor uZero M.r2.x) M.r2.y
    let uOne := bor uOne (bxor M.r2.z one)
    let uZero := bor uZero M.r2.w
    let uZero := bor (bor (bor uZero M.r3.x) M.r3.y) M.r3.z
    let uOne := bor uOne (bxor M.r3.w one)
    let uZero := band uZero (ofBits 0x7FFFFFFF#32)
    let uOne := bor uOne uZero
    ieq uOne c0

/-- One row of the product `r * M2`: matrix.rs:260-268 (NOI), 304-345 (AVX2: 256-bit, always fused), 351-368, 420-438 (AVX, SSE). -/
def mulRow (c : Cfg) (r : V4 α) (M2 : M4 α) : V4 α :=
  if c.sse then
    let X := SSE.perm r 0 0 0 0
    let Y := SSE.perm r 1 1 1 1
    let Z := SSE.perm r 2 2 2 2
    let W := SSE.perm r 3 3 3 3
    if c.avx2 then SSE.add (.map3 Lane.fma Y M2.r1 (SSE.mul X M2.r0)) (.map3 Lane.fma W M2.r3 (SSE.mul Z M2.r2))
    else SSE.add (SSE.add (SSE.mul X M2.r0) (SSE.mul Z M2.r2)) (SSE.add (SSE.mul Y M2.r1) (SSE.mul W M2.r3))
  else
    let col (a b d e : α) : α :=
      Lane.add (Lane.add (Lane.add (Lane.mul a r.x) (Lane.mul b r.y)) (Lane.mul d r.z)) (Lane.mul e r.w)
    ⟨col M2.r0.x M2.r1.x M2.r2.x M2.r3.x, col M2.r0.y M2.r1.y M2.r2.y M2.r3.y,
     col M2.r0.z M2.r1.z M2.r2.z M2.r3.z, col M2.r0.w M2.r1.w M2.r2.w M2.r3.w⟩
/-- matrix.rs:251-487: the four rows of the result are the four `mulRow`s (the source repeats the same statements per row;
the 256-bit AVX2 form handles two rows at a time). -/
def XMMatrixMultiply (c : Cfg) (M1 M2 : M4 α) : M4 α :=
  ⟨mulRow c M1.r0 M2, mulRow c M1.r1 M2, mulRow c M1.r2 M2, mulRow c M1.r3 M2⟩
/-- The in-register transposition of matrix.rs:953-973, 726-743, 814-831, 1100-1109 (SSE shuffles). -/
def transposeSSE {β : Type} (r0 r1 r2 r3 : V4 β) : M4 β :=
  let vTemp1 := SSE.shuffle r0 r1 1 0 1 0
  let vTemp3 := SSE.shuffle r0 r1 3 2 3 2
  let vTemp2 := SSE.shuffle r2 r3 1 0 1 0
  let vTemp4 := SSE.shuffle r2 r3 3 2 3 2
  ⟨SSE.shuffle vTemp1 vTemp2 2 0 2 0, SSE.shuffle vTemp1 vTemp2 3 1 3 1,
   SSE.shuffle vTemp3 vTemp4 2 0 2 0, SSE.shuffle vTemp3 vTemp4 3 1 3 1⟩
/-- The 256-bit transposition of matrix.rs:642-655, 929-950: a `__m256` is a pair of 128-bit halves; `_mm256_unpacklo/hi_ps`
work on each half; `_mm256_permute2f128_ps(·,·,0x20 / 0x31)` picks the low / high halves. -/
def transposeAVX2 {β : Type} (r0 r1 r2 r3 : V4 β) : M4 β :=
  let vTemp := (SSE.unpacklo r0 r2, SSE.unpacklo r1 r3)
  let vTemp2 := (SSE.unpackhi r0 r2, SSE.unpackhi r1 r3)
  let vTemp3 := (vTemp.1, vTemp2.1)
  let vTemp4 := (vTemp.2, vTemp2.2)
  let vTemp := (SSE.unpacklo vTemp3.1 vTemp4.1, SSE.unpacklo vTemp3.2 vTemp4.2)
  let vTemp2 := (SSE.unpackhi vTemp3.1 vTemp4.1, SSE.unpackhi vTemp3.2 vTemp4.2)
  let t0 := (vTemp.1, vTemp2.1)
  let t1 := (vTemp.2, vTemp2.2)
  ⟨t0.1, t0.2, t1.1, t1.2⟩
/-- matrix.rs:551-833.  NOI writes entry (i,j) as `Σ_k M1[j][k]*M2[k][i]`, factors in the order `M1 * M2`. -/
def XMMatrixMultiplyTranspose (c : Cfg) (M1 M2 : M4 α) : M4 α :=
  if c.sse then
    let r0 := mulRow c M1.r0 M2
    let r1 := mulRow c M1.r1 M2
    let r2 := mulRow c M1.r2 M2
    let r3 := mulRow c M1.r3 M2
    if c.avx2 then transposeAVX2 r0 r1 r2 r3 else transposeSSE r0 r1 r2 r3
  else
    let dot (r : V4 α) (x y z w : α) : α :=
      Lane.add (Lane.add (Lane.add (Lane.mul r.x x) (Lane.mul r.y y)) (Lane.mul r.z z)) (Lane.mul r.w w)
    let out (x y z w : α) : V4 α := ⟨dot M1.r0 x y z w, dot M1.r1 x y z w, dot M1.r2 x y z w, dot M1.r3 x y z w⟩
    ⟨out M2.r0.x M2.r1.x M2.r2.x M2.r3.x, out M2.r0.y M2.r1.y M2.r2.y M2.r3.y,
     out M2.r0.z M2.r1.z M2.r2.z M2.r3.z, out M2.r0.w M2.r1.w M2.r2.w M2.r3.w⟩
/-- matrix.rs:897-975 -/
def XMMatrixTranspose {β : Type} (c : Cfg) (M : M4 β) : M4 β :=
  if c.sse then (if c.avx2 then transposeAVX2 M.r0 M.r1 M.r2 M.r3 else transposeSSE M.r0 M.r1 M.r2 M.r3)
  else
    let P0 := XMVectorMergeXY c M.r0 M.r2
    let P1 := XMVectorMergeXY c M.r1 M.r3
    let P2 := XMVectorMergeZW c M.r0 M.r2
    let P3 := XMVectorMergeZW c M.r1 M.r3
    ⟨XMVectorMergeXY c P0 P1, XMVectorMergeZW c P0 P1, XMVectorMergeXY c P2 P3, XMVectorMergeZW c P2 P3⟩

/-- matrix.rs:1000-1094: cofactor rows and determinant, NOI; returns (R0, R1, R2, R3, Determinant). -/
def inverseNOI (c : Cfg) (M : M4 α) : M4 α × V4 α :=
    let MT := XMMatrixTranspose c M
    let MT0 := MT.r0
    let MT1 := MT.r1
    let MT2 := MT.r2
    let MT3 := MT.r3
    let V00 := XMVectorSwizzleC c MT2 0 0 1 1
    let V10 := XMVectorSwizzleC c MT3 2 3 2 3
    let V01 := XMVectorSwizzleC c MT0 0 0 1 1
    let V11 := XMVectorSwizzleC c MT1 2 3 2 3
    let V12 := XMVectorPermuteC c MT3 MT1 1 3 5 7
    let V02 := XMVectorPermuteC c MT2 MT0 0 2 4 6
    let D0 := XMVectorMultiply V00 V10
    let D1 := XMVectorMultiply V01 V11
    let D2 := XMVectorMultiply V02 V12
    let V00 := XMVectorSwizzleC c MT2 2 3 2 3
    let V10 := XMVectorSwizzleC c MT3 0 0 1 1
    let V01 := XMVectorSwizzleC c MT0 2 3 2 3
    let V11 := XMVectorSwizzleC c MT1 0 0 1 1
    let V02 := XMVectorPermuteC c MT2 MT0 1 3 5 7
    let V12 := XMVectorPermuteC c MT3 MT1 0 2 4 6
    let D0 := XMVectorNegativeMultiplySubtract c V00 V10 D0
    let D1 := XMVectorNegativeMultiplySubtract c V01 V11 D1
    let D2 := XMVectorNegativeMultiplySubtract c V02 V12 D2
    let V00 := XMVectorSwizzleC c MT1 1 2 0 1
    let V10 := XMVectorPermuteC c D0 D2 5 1 3 0
    let V01 := XMVectorSwizzleC c MT0 2 0 1 0
    let V11 := XMVectorPermuteC c D0 D2 3 5 1 2
    let V02 := XMVectorSwizzleC c MT3 1 2 0 1
    let V12 := XMVectorPermuteC c D1 D2 7 1 3 0
    let V03 := XMVectorSwizzleC c MT2 2 0 1 0
    let V13 := XMVectorPermuteC c D1 D2 3 7 1 2
    let C0 := XMVectorMultiply V00 V10
    let C2 := XMVectorMultiply V01 V11
    let C4 := XMVectorMultiply V02 V12
    let C6 := XMVectorMultiply V03 V13
    let V00 := XMVectorSwizzleC c MT1 2 3 1 2
    let V10 := XMVectorPermuteC c D0 D2 3 0 1 4
    let V01 := XMVectorSwizzleC c MT0 3 2 3 1
    let V11 := XMVectorPermuteC c D0 D2 2 1 4 0
    let V02 := XMVectorSwizzleC c MT3 2 3 1 2
    let V12 := XMVectorPermuteC c D1 D2 3 0 1 6
    let V03 := XMVectorSwizzleC c MT2 3 2 3 1
    let V13 := XMVectorPermuteC c D1 D2 2 1 6 0
    let C0 := XMVectorNegativeMultiplySubtract c V00 V10 C0
    let C2 := XMVectorNegativeMultiplySubtract c V01 V11 C2
    let C4 := XMVectorNegativeMultiplySubtract c V02 V12 C4
    let C6 := XMVectorNegativeMultiplySubtract c V03 V13 C6
    let V00 := XMVectorSwizzleC c MT1 3 0 3 0
    let V10 := XMVectorPermuteC c D0 D2 2 5 4 2
    let V01 := XMVectorSwizzleC c MT0 1 3 0 2
    let V11 := XMVectorPermuteC c D0 D2 5 0 3 4
    let V02 := XMVectorSwizzleC c MT3 3 0 3 0
    let V12 := XMVectorPermuteC c D1 D2 2 7 6 2
    let V03 := XMVectorSwizzleC c MT2 1 3 0 2
    let V13 := XMVectorPermuteC c D1 D2 7 0 3 6
    let C1 := XMVectorNegativeMultiplySubtract c V00 V10 C0
    let C0 := XMVectorMultiplyAdd c V00 V10 C0
    let C3 := XMVectorMultiplyAdd c V01 V11 C2
    let C2 := XMVectorNegativeMultiplySubtract c V01 V11 C2
    let C5 := XMVectorNegativeMultiplySubtract c V02 V12 C4
    let C4 := XMVectorMultiplyAdd c V02 V12 C4
    let C7 := XMVectorMultiplyAdd c V03 V13 C6
    let C6 := XMVectorNegativeMultiplySubtract c V03 V13 C6
    let R0 := XMVectorSelect C0 C1 g_XMSelect0101
    let R1 := XMVectorSelect C2 C3 g_XMSelect0101
    let R2 := XMVectorSelect C4 C5 g_XMSelect0101
    let R3 := XMVectorSelect C6 C7 g_XMSelect0101
    let Determinant := XMVector4Dot c R0 MT0
    (⟨R0, R1, R2, R3⟩, Determinant)
/-- matrix.rs:1097-1207: the same in the SSE build. -/
def inverseSSE (c : Cfg) (M : M4 α) : M4 α × V4 α :=
    let MT := transposeSSE M.r0 M.r1 M.r2 M.r3
    let MT0 := MT.r0
    let MT1 := MT.r1
    let MT2 := MT.r2
    let MT3 := MT.r3
    let V00 := SSE.perm MT2 1 1 0 0
    let V10 := SSE.perm MT3 3 2 3 2
    let V01 := SSE.perm MT0 1 1 0 0
    let V11 := SSE.perm MT1 3 2 3 2
    let V02 := SSE.shuffle MT2 MT0 2 0 2 0
    let V12 := SSE.shuffle MT3 MT1 3 1 3 1
    let D0 := SSE.mul V00 V10
    let D1 := SSE.mul V01 V11
    let D2 := SSE.mul V02 V12
    let V00 := SSE.perm MT2 3 2 3 2
    let V10 := SSE.perm MT3 1 1 0 0
    let V01 := SSE.perm MT0 3 2 3 2
    let V11 := SSE.perm MT1 1 1 0 0
    let V02 := SSE.shuffle MT2 MT0 3 1 3 1
    let V12 := SSE.shuffle MT3 MT1 2 0 2 0
    let D0 := SSE.fnmadd c V00 V10 D0
    let D1 := SSE.fnmadd c V01 V11 D1
    let D2 := SSE.fnmadd c V02 V12 D2
    let V11 := SSE.shuffle D0 D2 1 1 3 1
    let V00 := SSE.perm MT1 1 0 2 1
    let V10 := SSE.shuffle V11 D0 0 3 0 2
    let V01 := SSE.perm MT0 0 1 0 2
    let V11 := SSE.shuffle V11 D0 2 1 2 1
    let V13 := SSE.shuffle D1 D2 3 3 3 1
    let V02 := SSE.perm MT3 1 0 2 1
    let V12 := SSE.shuffle V13 D1 0 3 0 2
    let V03 := SSE.perm MT2 0 1 0 2
    let V13 := SSE.shuffle V13 D1 2 1 2 1
    let C0 := SSE.mul V00 V10
    let C2 := SSE.mul V01 V11
    let C4 := SSE.mul V02 V12
    let C6 := SSE.mul V03 V13
    let V11 := SSE.shuffle D0 D2 0 0 1 0
    let V00 := SSE.perm MT1 2 1 3 2
    let V10 := SSE.shuffle D0 V11 2 1 0 3
    let V01 := SSE.perm MT0 1 3 2 3
    let V11 := SSE.shuffle D0 V11 0 2 1 2
    let V13 := SSE.shuffle D1 D2 2 2 1 0
    let V02 := SSE.perm MT3 2 1 3 2
    let V12 := SSE.shuffle D1 V13 2 1 0 3
    let V03 := SSE.perm MT2 1 3 2 3
    let V13 := SSE.shuffle D1 V13 0 2 1 2
    let C0 := SSE.fnmadd c V00 V10 C0
    let C2 := SSE.fnmadd c V01 V11 C2
    let C4 := SSE.fnmadd c V02 V12 C4
    let C6 := SSE.fnmadd c V03 V13 C6
    let V00 := SSE.perm MT1 0 3 0 3
    let V10 := SSE.shuffle D0 D2 1 0 2 2
    let V10 := SSE.perm V10 0 2 3 0
    let V01 := SSE.perm MT0 2 0 3 1
    let V11 := SSE.shuffle D0 D2 1 0 3 0
    let V11 := SSE.perm V11 2 1 0 3
    let V02 := SSE.perm MT3 0 3 0 3
    let V12 := SSE.shuffle D1 D2 3 2 2 2
    let V12 := SSE.perm V12 0 2 3 0
    let V03 := SSE.perm MT2 2 0 3 1
    let V13 := SSE.shuffle D1 D2 3 2 3 0
    let V13 := SSE.perm V13 2 1 0 3
    let V00 := SSE.mul V00 V10
    let V01 := SSE.mul V01 V11
    let V02 := SSE.mul V02 V12
    let V03 := SSE.mul V03 V13
    let C1 := SSE.sub C0 V00
    let C0 := SSE.add C0 V00
    let C3 := SSE.add C2 V01
    let C2 := SSE.sub C2 V01
    let C5 := SSE.sub C4 V02
    let C4 := SSE.add C4 V02
    let C7 := SSE.add C6 V03
    let C6 := SSE.sub C6 V03
    let C0 := SSE.shuffle C0 C1 3 1 2 0
    let C2 := SSE.shuffle C2 C3 3 1 2 0
    let C4 := SSE.shuffle C4 C5 3 1 2 0
    let C6 := SSE.shuffle C6 C7 3 1 2 0
    let C0 := SSE.perm C0 3 1 2 0
    let C2 := SSE.perm C2 3 1 2 0
    let C4 := SSE.perm C4 3 1 2 0
    let C6 := SSE.perm C6 3 1 2 0
    let vTemp := XMVector4Dot c C0 MT0
    (⟨C0, C2, C4, C6⟩, vTemp)
/-- matrix.rs:995-1221.  Returns (inverse, determinant); the determinant is what `*pDeterminant` receives when given. -/
def XMMatrixInverse (c : Cfg) (M : M4 α) : M4 α × V4 α :=
  let R := if c.sse then inverseSSE c M else inverseNOI c M
  let Reciprocal := if c.sse then SSE.div g_XMOne R.2 else XMVectorReciprocal R.2
  (⟨SSE.mul R.1.r0 Reciprocal, SSE.mul R.1.r1 Reciprocal, SSE.mul R.1.r2 Reciprocal, SSE.mul R.1.r3 Reciprocal⟩, R.2)
/-- matrix.rs:1227-1244 -/
def XMMatrixVectorTensorProduct (c : Cfg) (V1 V2 : V4 α) : M4 α :=
  ⟨XMVectorMultiply (XMVectorSwizzleC c V1 0 0 0 0) V2, XMVectorMultiply (XMVectorSwizzleC c V1 1 1 1 1) V2,
   XMVectorMultiply (XMVectorSwizzleC c V1 2 2 2 2) V2, XMVectorMultiply (XMVectorSwizzleC c V1 3 3 3 3) V2⟩
/-- matrix.rs:1260-1300 -/
def XMMatrixDeterminant (c : Cfg) (M : M4 α) : V4 α :=
    let Sign : V4 α := ⟨c1, cNeg1, c1, cNeg1⟩
    let V0 := XMVectorSwizzleC c M.r2 1 0 0 0
    let V1 := XMVectorSwizzleC c M.r3 2 2 1 1
    let V2 := XMVectorSwizzleC c M.r2 1 0 0 0
    let V3 := XMVectorSwizzleC c M.r3 3 3 3 2
    let V4 := XMVectorSwizzleC c M.r2 2 2 1 1
    let V5 := XMVectorSwizzleC c M.r3 3 3 3 2
    let P0 := XMVectorMultiply V0 V1
    let P1 := XMVectorMultiply V2 V3
    let P2 := XMVectorMultiply V4 V5
    let V0 := XMVectorSwizzleC c M.r2 2 2 1 1
    let V1 := XMVectorSwizzleC c M.r3 1 0 0 0
    let V2 := XMVectorSwizzleC c M.r2 3 3 3 2
    let V3 := XMVectorSwizzleC c M.r3 1 0 0 0
    let V4 := XMVectorSwizzleC c M.r2 3 3 3 2
    let V5 := XMVectorSwizzleC c M.r3 2 2 1 1
    let P0 := XMVectorNegativeMultiplySubtract c V0 V1 P0
    let P1 := XMVectorNegativeMultiplySubtract c V2 V3 P1
    let P2 := XMVectorNegativeMultiplySubtract c V4 V5 P2
    let V0 := XMVectorSwizzleC c M.r1 3 3 3 2
    let V1 := XMVectorSwizzleC c M.r1 2 2 1 1
    let V2 := XMVectorSwizzleC c M.r1 1 0 0 0
    let S := XMVectorMultiply M.r0 Sign
    let R := XMVectorMultiply V0 P0
    let R := XMVectorNegativeMultiplySubtract c V1 P1 R
    let R := XMVectorMultiplyAdd c V2 P2 R
    XMVector4Dot c S R

/-- matrix.rs:1329-1363, macro XM3RANKDECOMPOSE: indices of the largest, middle and smallest of x, y, z. -/
def rankDecompose (x y z : α) : Fin 4 × Fin 4 × Fin 4 :=
  if Lane.lt x y then
    if Lane.lt y z then (2, 1, 0)
    else if Lane.lt x z then (1, 2, 0) else (1, 0, 2)
  else
    if Lane.lt x z then (2, 0, 1)
    else if Lane.lt y z then (0, 2, 1) else (0, 1, 2)
/-- What XMMatrixDecompose leaves behind: the returned flag, the scale and translation out-parameters (always written),
and the rotation out-parameter (`none` = not written). -/
structure Decomposed (α : Type) where
  ok : Bool
  scale : V4 α
  rotation : Option (V4 α)
  translation : V4 α
/-- matrix.rs:1371-1375, `pvCanonicalBasis` = R0, R2, R3 (sic). -/
def canonicalBasis (i : Fin 4) : V4 α := match i with | 0 => g_XMIdentityR0 | 1 => g_XMIdentityR2 | _ => g_XMIdentityR3
/-- matrix.rs:1322-1462 -/
def XMMatrixDecompose (c : Cfg) (M : M4 α) : Decomposed α :=
  let eps : α := ofBits 0x38D1B717#32
  let matTemp : M4 α := { M with r3 := g_XMIdentityR3 }
  let scales : V4 α := ⟨(XMVector3Length c M.r0).x, (XMVector3Length c M.r1).x, (XMVector3Length c M.r2).x, c0⟩
  let r := rankDecompose scales.x scales.y scales.z
  let a := r.1
  let b := r.2.1
  let d := r.2.2
  let matTemp := if Lane.lt (scales.lane a) eps then matTemp.setRow a (canonicalBasis a) else matTemp
  let matTemp := matTemp.setRow a (XMVector3Normalize c (matTemp.row a))
  let matTemp :=
    if Lane.lt (scales.lane b) eps then
      let va := matTemp.row a
      let rr := rankDecompose (abs (XMVectorGetX va)) (abs (XMVectorGetY c va)) (abs (XMVectorGetZ c va))
      matTemp.setRow b (XMVector3Cross c va (canonicalBasis rr.2.2))
    else matTemp
  let matTemp := matTemp.setRow b (XMVector3Normalize c (matTemp.row b))
  let matTemp := if Lane.lt (scales.lane d) eps then matTemp.setRow d (XMVector3Cross c (matTemp.row a) (matTemp.row b)) else matTemp
  let matTemp := matTemp.setRow d (XMVector3Normalize c (matTemp.row d))
  let fDet := (XMMatrixDeterminant c matTemp).x
  let flip := Lane.lt fDet c0
  let scales := if flip then scales.setLane a (neg (scales.lane a)) else scales
  let matTemp := if flip then matTemp.setRow a (XMVectorNegate c (matTemp.row a)) else matTemp
  let fDet := if flip then neg fDet else fDet
  let fDet := Lane.sub fDet c1
  let fDet := Lane.mul fDet fDet
  if Lane.lt eps fDet then ⟨false, scales, none, M.r3⟩
  else ⟨true, scales, some (XMQuaternionRotationMatrix c matTemp), M.r3⟩

/-- matrix.rs:1509-1519 -/
def XMMatrixIdentity : M4 α := ⟨g_XMIdentityR0, g_XMIdentityR1, g_XMIdentityR2, g_XMIdentityR3⟩
/-- matrix.rs:1565-1592 -/
def XMMatrixSet (m00 m01 m02 m03 m10 m11 m12 m13 m20 m21 m22 m23 m30 m31 m32 m33 : α) : M4 α :=
  ⟨⟨m00, m01, m02, m03⟩, ⟨m10, m11, m12, m13⟩, ⟨m20, m21, m22, m23⟩, ⟨m30, m31, m32, m33⟩⟩
/-- matrix.rs:1611-1652 -/
def XMMatrixTranslation (c : Cfg) (OffsetX OffsetY OffsetZ : α) : M4 α :=
  if c.sse then ⟨g_XMIdentityR0, g_XMIdentityR1, g_XMIdentityR2, XMVectorSet OffsetX OffsetY OffsetZ c1⟩
  else ⟨⟨c1, c0, c0, c0⟩, ⟨c0, c1, c0, c0⟩, ⟨c0, c0, c1, c0⟩, ⟨OffsetX, OffsetY, OffsetZ, c1⟩⟩
/-- matrix.rs:1667-1705 -/
def XMMatrixTranslationFromVector (c : Cfg) (Offset : V4 α) : M4 α :=
  if c.sse then ⟨g_XMIdentityR0, g_XMIdentityR1, g_XMIdentityR2, XMVectorSelect g_XMIdentityR3 Offset g_XMSelect1110⟩
  else ⟨⟨c1, c0, c0, c0⟩, ⟨c0, c1, c0, c0⟩, ⟨c0, c0, c1, c0⟩, ⟨Offset.x, Offset.y, Offset.z, c1⟩⟩
/-- matrix.rs:1725-1770 -/
def XMMatrixScaling (ScaleX ScaleY ScaleZ : α) : M4 α :=
  ⟨⟨ScaleX, c0, c0, c0⟩, ⟨c0, ScaleY, c0, c0⟩, ⟨c0, c0, ScaleZ, c0⟩, ⟨c0, c0, c0, c1⟩⟩
/-- matrix.rs:1786-1829 -/
def XMMatrixScalingFromVector (c : Cfg) (Scale : V4 α) : M4 α :=
  if c.sse then ⟨SSE.and Scale g_XMMaskX, SSE.and Scale g_XMMaskY, SSE.and Scale g_XMMaskZ, g_XMIdentityR3⟩
  else XMMatrixScaling Scale.x Scale.y Scale.z
/-- matrix.rs:1846-1905 -/
def XMMatrixRotationX (c : Cfg) (Angle : α) : M4 α :=
  let sc := XMScalarSinCos Angle
  if c.sse then
    let vSin := SSE.set_ss sc.1
    let vCos := SSE.set_ss sc.2
    let vCos := SSE.shuffle vCos vSin 3 0 0 3
    let r2 := SSE.mul (SSE.perm vCos 3 1 2 0) g_XMNegateY
    ⟨g_XMIdentityR0, vCos, r2, g_XMIdentityR3⟩
  else ⟨⟨c1, c0, c0, c0⟩, ⟨c0, sc.2, sc.1, c0⟩, ⟨c0, neg sc.1, sc.2, c0⟩, ⟨c0, c0, c0, c1⟩⟩
/-- matrix.rs:1922-1981 -/
def XMMatrixRotationY (c : Cfg) (Angle : α) : M4 α :=
  let sc := XMScalarSinCos Angle
  if c.sse then
    let vSin := SSE.set_ss sc.1
    let vCos := SSE.set_ss sc.2
    let vSin := SSE.shuffle vSin vCos 3 0 3 0
    let r0 := SSE.mul (SSE.perm vSin 3 0 1 2) g_XMNegateZ
    ⟨r0, g_XMIdentityR1, vSin, g_XMIdentityR3⟩
  else ⟨⟨sc.2, c0, neg sc.1, c0⟩, ⟨c0, c1, c0, c0⟩, ⟨sc.1, c0, sc.2, c0⟩, ⟨c0, c0, c0, c1⟩⟩
/-- matrix.rs:1998-2057 -/
def XMMatrixRotationZ (c : Cfg) (Angle : α) : M4 α :=
  let sc := XMScalarSinCos Angle
  if c.sse then
    let vSin := SSE.set_ss sc.1
    let vCos := SSE.set_ss sc.2
    let vCos := SSE.unpacklo vCos vSin
    let r1 := SSE.mul (SSE.perm vCos 3 2 0 1) g_XMNegateX
    ⟨vCos, r1, g_XMIdentityR2, g_XMIdentityR3⟩
  else ⟨⟨sc.2, sc.1, c0, c0⟩, ⟨neg sc.1, sc.2, c0, c0⟩, ⟨c0, c0, c1, c0⟩, ⟨c0, c0, c0, c1⟩⟩
/-- matrix.rs:2142-2229 -/
def XMMatrixRotationNormal (c : Cfg) (NormalAxis : V4 α) (Angle : α) : M4 α :=
  let sc := XMScalarSinCos Angle
  if c.sse then
    let C2 : V4 α := .splat (Lane.sub c1 sc.2)
    let C1 : V4 α := .splat sc.2
    let C0 : V4 α := .splat sc.1
    let N0 := SSE.perm NormalAxis 3 0 2 1
    let N1 := SSE.perm NormalAxis 3 1 0 2
    let V0 := SSE.mul C2 N0
    let V0 := SSE.mul V0 N1
    let R0 := SSE.mul C2 NormalAxis
    let R0 := SSE.mul R0 NormalAxis
    let R0 := SSE.add R0 C1
    let R1 := SSE.mul C0 NormalAxis
    let R1 := SSE.add R1 V0
    let R2 := SSE.mul C0 NormalAxis
    let R2 := SSE.sub V0 R2
    let V0 := SSE.and R0 g_XMMask3
    let V1 := SSE.shuffle R1 R2 2 1 2 0
    let V1 := SSE.perm V1 0 3 2 1
    let V2 := SSE.shuffle R1 R2 0 0 1 1
    let V2 := SSE.perm V2 2 0 2 0
    let R2 := SSE.shuffle V0 V1 1 0 3 0
    let R2 := SSE.perm R2 1 3 2 0
    let M0 := R2
    let R2 := SSE.shuffle V0 V1 3 2 3 1
    let R2 := SSE.perm R2 1 3 0 2
    let V2 := SSE.shuffle V2 V0 3 2 1 0
    ⟨M0, R2, V2, g_XMIdentityR3⟩
  else
    let A := XMVectorSet sc.1 sc.2 (Lane.sub c1 sc.2) c0
    let C2 := XMVectorSplatZ c A
    let C1 := XMVectorSplatY c A
    let C0 := XMVectorSplatX c A
    let N0 := XMVectorSwizzleC c NormalAxis 1 2 0 3
    let N1 := XMVectorSwizzleC c NormalAxis 2 0 1 3
    let V0 := XMVectorMultiply C2 N0
    let V0 := XMVectorMultiply V0 N1
    let R0 := XMVectorMultiply C2 NormalAxis
    let R0 := XMVectorMultiplyAdd c R0 NormalAxis C1
    let R1 := XMVectorMultiplyAdd c C0 NormalAxis V0
    let R2 := XMVectorNegativeMultiplySubtract c C0 NormalAxis V0
    let V0 := XMVectorSelect A R0 g_XMSelect1110
    let V1 := XMVectorPermuteC c R1 R2 2 5 6 0
    let V2 := XMVectorPermuteC c R1 R2 1 4 1 4
    ⟨XMVectorPermuteC c V0 V1 0 4 5 3, XMVectorPermuteC c V0 V1 6 1 7 3, XMVectorPermuteC c V0 V2 4 5 2 3, g_XMIdentityR3⟩
/-- matrix.rs:2255-2266 -/
def XMMatrixRotationAxis (c : Cfg) (Axis : V4 α) (Angle : α) : M4 α := XMMatrixRotationNormal c (XMVector3Normalize c Axis) Angle
/-- matrix.rs:2281-2366 -/
def XMMatrixRotationQuaternion (c : Cfg) (Quaternion : V4 α) : M4 α :=
  let Constant1110 : V4 α := ⟨c1, c1, c1, c0⟩
  if c.sse then
    let Q0 := SSE.add Quaternion Quaternion
    let Q1 := SSE.mul Quaternion Q0
    let V0 := SSE.perm Q1 3 0 0 1
    let V0 := SSE.and V0 g_XMMask3
    let V1 := SSE.perm Q1 3 1 2 2
    let V1 := SSE.and V1 g_XMMask3
    let R0 := SSE.sub Constant1110 V0
    let R0 := SSE.sub R0 V1
    let V0 := SSE.perm Quaternion 3 1 0 0
    let V1 := SSE.perm Q0 3 2 1 2
    let V0 := SSE.mul V0 V1
    let V1 := SSE.perm Quaternion 3 3 3 3
    let V2 := SSE.perm Q0 3 0 2 1
    let V1 := SSE.mul V1 V2
    let R1 := SSE.add V0 V1
    let R2 := SSE.sub V0 V1
    let V0 := SSE.shuffle R1 R2 1 0 2 1
    let V0 := SSE.perm V0 1 3 2 0
    let V1 := SSE.shuffle R1 R2 2 2 0 0
    let V1 := SSE.perm V1 2 0 2 0
    let Q1 := SSE.shuffle R0 V0 1 0 3 0
    let Q1 := SSE.perm Q1 1 3 2 0
    let M0 := Q1
    let Q1 := SSE.shuffle R0 V0 3 2 3 1
    let Q1 := SSE.perm Q1 1 3 0 2
    let M1 := Q1
    let Q1 := SSE.shuffle V1 R0 3 2 1 0
    ⟨M0, M1, Q1, g_XMIdentityR3⟩
  else
    let Q0 := XMVectorAdd Quaternion Quaternion
    let Q1 := XMVectorMultiply Quaternion Q0
    let V0 := XMVectorPermuteC c Q1 Constant1110 1 0 0 7
    let V1 := XMVectorPermuteC c Q1 Constant1110 2 2 1 7
    let R0 := XMVectorSubtract Constant1110 V0
    let R0 := XMVectorSubtract R0 V1
    let V0 := XMVectorSwizzleC c Quaternion 0 0 1 3
    let V1 := XMVectorSwizzleC c Q0 2 1 2 3
    let V0 := XMVectorMultiply V0 V1
    let V1 := XMVectorSplatW c Quaternion
    let V2 := XMVectorSwizzleC c Q0 1 2 0 3
    let V1 := XMVectorMultiply V1 V2
    let R1 := XMVectorAdd V0 V1
    let R2 := XMVectorSubtract V0 V1
    let V0 := XMVectorPermuteC c R1 R2 1 4 5 2
    let V1 := XMVectorPermuteC c R1 R2 0 6 0 6
    ⟨XMVectorPermuteC c R0 V0 0 4 5 3, XMVectorPermuteC c R0 V0 6 1 7 3, XMVectorPermuteC c R0 V1 4 5 2 3, g_XMIdentityR3⟩
/-- matrix.rs:2117-2124 -/
def XMMatrixRotationRollPitchYawFromVector (c : Cfg) (Angles : V4 α) : M4 α :=
  XMMatrixRotationQuaternion c (XMQuaternionRotationRollPitchYawFromVector c Angles)
/-- matrix.rs:2085-2094 -/
def XMMatrixRotationRollPitchYaw (c : Cfg) (Pitch Yaw Roll : α) : M4 α :=
  XMMatrixRotationRollPitchYawFromVector c (XMVectorSet Pitch Yaw Roll c0)
/-- matrix.rs:2392-2428 -/
def XMMatrixTransformation2D (c : Cfg) (ScalingOrigin : V4 α) (ScalingOrientation : α) (Scaling RotationOrigin : V4 α)
    (Rotation : α) (Translation : V4 α) : M4 α :=
  let VScalingOrigin := XMVectorSelect g_XMSelect1100 ScalingOrigin g_XMSelect1100
  let NegScalingOrigin := XMVectorNegate c VScalingOrigin
  let MScalingOriginI := XMMatrixTranslationFromVector c NegScalingOrigin
  let MScalingOrientation := XMMatrixRotationZ c ScalingOrientation
  let MScalingOrientationT := XMMatrixTranspose c MScalingOrientation
  let VScaling := XMVectorSelect g_XMOne Scaling g_XMSelect1100
  let MScaling := XMMatrixScalingFromVector c VScaling
  let VRotationOrigin := XMVectorSelect g_XMSelect1100 RotationOrigin g_XMSelect1100
  let MRotation := XMMatrixRotationZ c Rotation
  let VTranslation := XMVectorSelect g_XMSelect1100 Translation g_XMSelect1100
  let M := XMMatrixMultiply c MScalingOriginI MScalingOrientationT
  let M := XMMatrixMultiply c M MScaling
  let M := XMMatrixMultiply c M MScalingOrientation
  let M : M4 α := { M with r3 := XMVectorSubtract (XMVectorAdd M.r3 VScalingOrigin) VRotationOrigin }
  let M := XMMatrixMultiply c M MRotation
  { M with r3 := XMVectorAdd (XMVectorAdd M.r3 VRotationOrigin) VTranslation }
/-- matrix.rs:2454-2489 -/
def XMMatrixTransformation (c : Cfg) (ScalingOrigin ScalingOrientationQuaternion Scaling RotationOrigin RotationQuaternion
    Translation : V4 α) : M4 α :=
  let VScalingOrigin := XMVectorSelect g_XMSelect1110 ScalingOrigin g_XMSelect1110
  let NegScalingOrigin := XMVectorNegate c ScalingOrigin
  let MScalingOriginI := XMMatrixTranslationFromVector c NegScalingOrigin
  let MScalingOrientation := XMMatrixRotationQuaternion c ScalingOrientationQuaternion
  let MScalingOrientationT := XMMatrixTranspose c MScalingOrientation
  let MScaling := XMMatrixScalingFromVector c Scaling
  let VRotationOrigin := XMVectorSelect g_XMSelect1110 RotationOrigin g_XMSelect1110
  let MRotation := XMMatrixRotationQuaternion c RotationQuaternion
  let VTranslation := XMVectorSelect g_XMSelect1110 Translation g_XMSelect1110
  let M := XMMatrixMultiply c MScalingOriginI MScalingOrientationT
  let M := XMMatrixMultiply c M MScaling
  let M := XMMatrixMultiply c M MScalingOrientation
  let M : M4 α := { M with r3 := XMVectorSubtract (XMVectorAdd M.r3 VScalingOrigin) VRotationOrigin }
  let M := XMMatrixMultiply c M MRotation
  { M with r3 := XMVectorAdd (XMVectorAdd M.r3 VRotationOrigin) VTranslation }
/-- matrix.rs:2511-2535 -/
def XMMatrixAffineTransformation2D (c : Cfg) (Scaling RotationOrigin : V4 α) (Rotation : α) (Translation : V4 α) : M4 α :=
  let VScaling := XMVectorSelect g_XMOne Scaling g_XMSelect1100
  let MScaling := XMMatrixScalingFromVector c VScaling
  let VRotationOrigin := XMVectorSelect g_XMSelect1100 RotationOrigin g_XMSelect1100
  let MRotation := XMMatrixRotationZ c Rotation
  let VTranslation := XMVectorSelect g_XMSelect1100 Translation g_XMSelect1100
  let M : M4 α := { MScaling with r3 := XMVectorSubtract MScaling.r3 VRotationOrigin }
  let M := XMMatrixMultiply c M MRotation
  { M with r3 := XMVectorAdd (XMVectorAdd M.r3 VRotationOrigin) VTranslation }
/-- matrix.rs:2557-2580 -/
def XMMatrixAffineTransformation (c : Cfg) (Scaling RotationOrigin RotationQuaternion Translation : V4 α) : M4 α :=
  let MScaling := XMMatrixScalingFromVector c Scaling
  let VRotationOrigin := XMVectorSelect g_XMSelect1110 RotationOrigin g_XMSelect1110
  let MRotation := XMMatrixRotationQuaternion c RotationQuaternion
  let VTranslation := XMVectorSelect g_XMSelect1110 Translation g_XMSelect1110
  let M : M4 α := { MScaling with r3 := XMVectorSubtract MScaling.r3 VRotationOrigin }
  let M := XMMatrixMultiply c M MRotation
  { M with r3 := XMVectorAdd (XMVectorAdd M.r3 VRotationOrigin) VTranslation }
/-- matrix.rs:2596-2621 -/
def XMMatrixReflect (c : Cfg) (ReflectionPlane : V4 α) : M4 α :=
  let NegativeTwo : V4 α := ⟨cNeg2, cNeg2, cNeg2, c0⟩
  let P := XMPlaneNormalize c ReflectionPlane
  let S := XMVectorMultiply P NegativeTwo
  let A := XMVectorSplatX c P
  let B := XMVectorSplatY c P
  let C := XMVectorSplatZ c P
  let D := XMVectorSplatW c P
  ⟨XMVectorMultiplyAdd c A S g_XMIdentityR0, XMVectorMultiplyAdd c B S g_XMIdentityR1,
   XMVectorMultiplyAdd c C S g_XMIdentityR2, XMVectorMultiplyAdd c D S g_XMIdentityR3⟩
/-- matrix.rs:2644-2674 -/
def XMMatrixShadow (c : Cfg) (ShadowPlane LightPosition : V4 α) : M4 α :=
  let Select0001 : V4 α := ⟨c0, c0, c0, ofBits 0xFFFFFFFF#32⟩
  let P := XMPlaneNormalize c ShadowPlane
  let Dot := XMPlaneDot c P LightPosition
  let P := XMVectorNegate c P
  let D := XMVectorSplatW c P
  let C := XMVectorSplatZ c P
  let B := XMVectorSplatY c P
  let A := XMVectorSplatX c P
  let Dot := XMVectorSelect Select0001 Dot Select0001
  let r3 := XMVectorMultiplyAdd c D LightPosition Dot
  let Dot := (XMVectorRotateLeft c false Dot 1).getD Dot
  let r2 := XMVectorMultiplyAdd c C LightPosition Dot
  let Dot := (XMVectorRotateLeft c false Dot 1).getD Dot
  let r1 := XMVectorMultiplyAdd c B LightPosition Dot
  let Dot := (XMVectorRotateLeft c false Dot 1).getD Dot
  let r0 := XMVectorMultiplyAdd c A LightPosition Dot
  ⟨r0, r1, r2, r3⟩
/-- matrix.rs:2750-2785 -/
def XMMatrixLookToLH (c : Cfg) (EyePosition EyeDirection UpDirection : V4 α) : M4 α :=
  let R2 := XMVector3Normalize c EyeDirection
  let R0 := XMVector3Cross c UpDirection R2
  let R0 := XMVector3Normalize c R0
  let R1 := XMVector3Cross c R2 R0
  let NegEyePosition := XMVectorNegate c EyePosition
  let D0 := XMVector3Dot c R0 NegEyePosition
  let D1 := XMVector3Dot c R1 NegEyePosition
  let D2 := XMVector3Dot c R2 NegEyePosition
  XMMatrixTranspose c ⟨XMVectorSelect D0 R0 g_XMSelect1110, XMVectorSelect D1 R1 g_XMSelect1110,
    XMVectorSelect D2 R2 g_XMSelect1110, g_XMIdentityR3⟩
/-- matrix.rs:2694-2703 -/
def XMMatrixLookAtLH (c : Cfg) (EyePosition FocusPosition UpDirection : V4 α) : M4 α :=
  XMMatrixLookToLH c EyePosition (XMVectorSubtract FocusPosition EyePosition) UpDirection
/-- matrix.rs:2722-2731 -/
def XMMatrixLookAtRH (c : Cfg) (EyePosition FocusPosition UpDirection : V4 α) : M4 α :=
  XMMatrixLookToLH c EyePosition (XMVectorSubtract EyePosition FocusPosition) UpDirection
/-- matrix.rs:2805-2814 -/
def XMMatrixLookToRH (c : Cfg) (EyePosition EyeDirection UpDirection : V4 α) : M4 α :=
  XMMatrixLookToLH c EyePosition (XMVectorNegate c EyeDirection) UpDirection

/-- The SSE tail of the symmetric perspective functions (matrix.rs:2899-2917, 3006-3024, 3121-3140, 3237-3256):
`vValues = (m00, m11, m22, m32)`, `last` = g_XMIdentityR3 (LH) or g_XMNegIdentityR3 (RH). -/
def perspTail (vValues last : V4 α) : M4 α :=
  let r0 := SSE.move_ss SSE.setzero vValues
  let r1 := SSE.and vValues g_XMMaskY
  let vValues := SSE.shuffle vValues last 3 2 3 2
  let r2 := SSE.shuffle SSE.setzero vValues 3 0 0 0
  let r3 := SSE.shuffle r2 vValues 2 1 0 0
  ⟨r0, r1, r2, r3⟩
/-- matrix.rs:2841-2920 -/
def XMMatrixPerspectiveLH (c : Cfg) (ViewWidth ViewHeight NearZ FarZ : α) : M4 α :=
  let TwoNearZ := Lane.add NearZ NearZ
  let fRange := Lane.div FarZ (Lane.sub FarZ NearZ)
  if c.sse then
    perspTail ⟨Lane.div TwoNearZ ViewWidth, Lane.div TwoNearZ ViewHeight, fRange, Lane.mul (neg fRange) NearZ⟩ g_XMIdentityR3
  else ⟨⟨Lane.div TwoNearZ ViewWidth, c0, c0, c0⟩, ⟨c0, Lane.div TwoNearZ ViewHeight, c0, c0⟩, ⟨c0, c0, fRange, c1⟩,
    ⟨c0, c0, Lane.mul (neg fRange) NearZ, c0⟩⟩
/-- matrix.rs:2948-3027 -/
def XMMatrixPerspectiveRH (c : Cfg) (ViewWidth ViewHeight NearZ FarZ : α) : M4 α :=
  let TwoNearZ := Lane.add NearZ NearZ
  let fRange := Lane.div FarZ (Lane.sub NearZ FarZ)
  if c.sse then
    perspTail ⟨Lane.div TwoNearZ ViewWidth, Lane.div TwoNearZ ViewHeight, fRange, Lane.mul fRange NearZ⟩ g_XMNegIdentityR3
  else ⟨⟨Lane.div TwoNearZ ViewWidth, c0, c0, c0⟩, ⟨c0, Lane.div TwoNearZ ViewHeight, c0, c0⟩, ⟨c0, c0, fRange, cNeg1⟩,
    ⟨c0, c0, Lane.mul fRange NearZ, c0⟩⟩
/-- matrix.rs:3055-3143 -/
def XMMatrixPerspectiveFovLH (c : Cfg) (FovAngleY AspectRatio NearZ FarZ : α) : M4 α :=
  let sc := XMScalarSinCos (Lane.mul cHalf FovAngleY)
  let Height := Lane.div sc.2 sc.1
  let Width := Lane.div Height AspectRatio
  let fRange := Lane.div FarZ (Lane.sub FarZ NearZ)
  if c.sse then perspTail ⟨Width, Height, fRange, Lane.mul (neg fRange) NearZ⟩ g_XMIdentityR3
  else ⟨⟨Width, c0, c0, c0⟩, ⟨c0, Height, c0, c0⟩, ⟨c0, c0, fRange, c1⟩, ⟨c0, c0, Lane.mul (neg fRange) NearZ, c0⟩⟩
/-- matrix.rs:3172-3259 -/
def XMMatrixPerspectiveFovRH (c : Cfg) (FovAngleY AspectRatio NearZ FarZ : α) : M4 α :=
  let sc := XMScalarSinCos (Lane.mul cHalf FovAngleY)
  let Height := Lane.div sc.2 sc.1
  let Width := Lane.div Height AspectRatio
  let fRange := Lane.div FarZ (Lane.sub NearZ FarZ)
  if c.sse then perspTail ⟨Width, Height, fRange, Lane.mul fRange NearZ⟩ g_XMNegIdentityR3
  else ⟨⟨Width, c0, c0, c0⟩, ⟨c0, Height, c0, c0⟩, ⟨c0, c0, fRange, cNeg1⟩, ⟨c0, c0, Lane.mul fRange NearZ, c0⟩⟩
/-- matrix.rs:3292-3375 -/
def XMMatrixPerspectiveOffCenterLH (c : Cfg) (ViewLeft ViewRight ViewBottom ViewTop NearZ FarZ : α) : M4 α :=
  let TwoNearZ := Lane.add NearZ NearZ
  let ReciprocalWidth := Lane.div c1 (Lane.sub ViewRight ViewLeft)
  let ReciprocalHeight := Lane.div c1 (Lane.sub ViewTop ViewBottom)
  let fRange := Lane.div FarZ (Lane.sub FarZ NearZ)
  let r2 : V4 α := ⟨Lane.mul (neg (Lane.add ViewLeft ViewRight)) ReciprocalWidth,
    Lane.mul (neg (Lane.add ViewTop ViewBottom)) ReciprocalHeight, fRange, c1⟩
  if c.sse then
    let vValues : V4 α := ⟨Lane.mul TwoNearZ ReciprocalWidth, Lane.mul TwoNearZ ReciprocalHeight, Lane.mul (neg fRange) NearZ, c0⟩
    ⟨SSE.move_ss SSE.setzero vValues, SSE.and vValues g_XMMaskY, r2, SSE.and vValues g_XMMaskZ⟩
  else ⟨⟨Lane.mul TwoNearZ ReciprocalWidth, c0, c0, c0⟩, ⟨c0, Lane.mul TwoNearZ ReciprocalHeight, c0, c0⟩, r2,
    ⟨c0, c0, Lane.mul (neg fRange) NearZ, c0⟩⟩
/-- matrix.rs:3409-3492 -/
def XMMatrixPerspectiveOffCenterRH (c : Cfg) (ViewLeft ViewRight ViewBottom ViewTop NearZ FarZ : α) : M4 α :=
  let TwoNearZ := Lane.add NearZ NearZ
  let ReciprocalWidth := Lane.div c1 (Lane.sub ViewRight ViewLeft)
  let ReciprocalHeight := Lane.div c1 (Lane.sub ViewTop ViewBottom)
  let fRange := Lane.div FarZ (Lane.sub NearZ FarZ)
  let r2 : V4 α := ⟨Lane.mul (Lane.add ViewLeft ViewRight) ReciprocalWidth,
    Lane.mul (Lane.add ViewTop ViewBottom) ReciprocalHeight, fRange, cNeg1⟩
  if c.sse then
    let vValues : V4 α := ⟨Lane.mul TwoNearZ ReciprocalWidth, Lane.mul TwoNearZ ReciprocalHeight, Lane.mul fRange NearZ, c0⟩
    ⟨SSE.move_ss SSE.setzero vValues, SSE.and vValues g_XMMaskY, r2, SSE.and vValues g_XMMaskZ⟩
  else ⟨⟨Lane.mul TwoNearZ ReciprocalWidth, c0, c0, c0⟩, ⟨c0, Lane.mul TwoNearZ ReciprocalHeight, c0, c0⟩, r2,
    ⟨c0, c0, Lane.mul fRange NearZ, c0⟩⟩
/-- The SSE tail of the orthographic functions (matrix.rs:3572-3590, 3673-3691). -/
def orthoTail (vValues : V4 α) : M4 α :=
  let r0 := SSE.move_ss SSE.setzero vValues
  let r1 := SSE.and vValues g_XMMaskY
  let vValues := SSE.shuffle vValues g_XMIdentityR3 3 2 3 2
  let r2 := SSE.shuffle SSE.setzero vValues 2 0 0 0
  let r3 := SSE.shuffle r2 vValues 3 1 0 0
  ⟨r0, r1, r2, r3⟩
/-- matrix.rs:3518-3593 -/
def XMMatrixOrthographicLH (c : Cfg) (ViewWidth ViewHeight NearZ FarZ : α) : M4 α :=
  let fRange := Lane.div c1 (Lane.sub FarZ NearZ)
  if c.sse then orthoTail ⟨Lane.div c2 ViewWidth, Lane.div c2 ViewHeight, fRange, Lane.mul (neg fRange) NearZ⟩
  else ⟨⟨Lane.div c2 ViewWidth, c0, c0, c0⟩, ⟨c0, Lane.div c2 ViewHeight, c0, c0⟩, ⟨c0, c0, fRange, c0⟩,
    ⟨c0, c0, Lane.mul (neg fRange) NearZ, c1⟩⟩
/-- matrix.rs:3619-3694 -/
def XMMatrixOrthographicRH (c : Cfg) (ViewWidth ViewHeight NearZ FarZ : α) : M4 α :=
  let fRange := Lane.div c1 (Lane.sub NearZ FarZ)
  if c.sse then orthoTail ⟨Lane.div c2 ViewWidth, Lane.div c2 ViewHeight, fRange, Lane.mul fRange NearZ⟩
  else ⟨⟨Lane.div c2 ViewWidth, c0, c0, c0⟩, ⟨c0, Lane.div c2 ViewHeight, c0, c0⟩, ⟨c0, c0, fRange, c0⟩,
    ⟨c0, c0, Lane.mul fRange NearZ, c1⟩⟩

/-- matrix.rs:3768-3781, `+` -/
def XMMatrix.add (A B : M4 α) : M4 α := .mapRows2 XMVectorAdd A B
/-- matrix.rs:3783-3793, `+=`: the value of `self` afterwards (the four statements all assign `r[0]`). -/
def XMMatrix.addAssign (A B : M4 α) : M4 α :=
  let A : M4 α := { A with r0 := XMVectorAdd A.r0 B.r0 }
  let A : M4 α := { A with r0 := XMVectorAdd A.r1 B.r1 }
  let A : M4 α := { A with r0 := XMVectorAdd A.r2 B.r2 }
  { A with r0 := XMVectorAdd A.r3 B.r3 }
/-- matrix.rs:3795-3808, `-` -/
def XMMatrix.sub (A B : M4 α) : M4 α := .mapRows2 XMVectorSubtract A B
/-- matrix.rs:3810-3820, `-=` (all four statements assign `r[0]`). -/
def XMMatrix.subAssign (A B : M4 α) : M4 α :=
  let A : M4 α := { A with r0 := XMVectorSubtract A.r0 B.r0 }
  let A : M4 α := { A with r0 := XMVectorSubtract A.r1 B.r1 }
  let A : M4 α := { A with r0 := XMVectorSubtract A.r2 B.r2 }
  { A with r0 := XMVectorSubtract A.r3 B.r3 }
/-- matrix.rs:3822-3835, `*` and `*=` -/
def XMMatrix.mul (c : Cfg) (A B : M4 α) : M4 α := XMMatrixMultiply c A B
def XMMatrix.mulAssign (c : Cfg) (A B : M4 α) : M4 α := XMMatrixMultiply c A B
/-- matrix.rs:3837-3878, scalar `*` (both orders) and `*=` -/
def XMMatrix.scale (c : Cfg) (A : M4 α) (S : α) : M4 α := .mapRows (fun r => XMVectorScale c r S) A
/-- matrix.rs:3880-3939, `/` and `/=` by a scalar -/
def XMMatrix.divScalar (A : M4 α) (S : α) : M4 α := .mapRows (fun r => XMVectorDivide r (.splat S)) A
/-- matrix.rs:3941-3954 -/
def XMMatrix.neg (c : Cfg) (A : M4 α) : M4 α := .mapRows (XMVectorNegate c) A
/-- matrix.rs:3956-3966 -/
def XMMatrix.eq (c : Cfg) (A B : M4 α) : Bool :=
  XMVector.eq c A.r0 B.r0 && XMVector.eq c A.r1 B.r1 && XMVector.eq c A.r2 B.r2 && XMVector.eq c A.r3 B.r3

end DXM
