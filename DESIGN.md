# Formal model of aloucks/directx_math in Lean 4 — design

## 1. What is modelled

`/repo/src` is a Rust port of DirectXMath.  Every public function has up to four bodies, chosen at compile
time (`build.rs`): no intrinsics (`_XM_NO_INTRINSICS_`), SSE2, and inside SSE2 further branches for SSE3,
SSE4.1, AVX, AVX2, FMA3, F16C.  A build is a value of `structure Cfg` (one Boolean per switch), every model
function takes `(c : Cfg)` and follows the `#[cfg]` branches of the code, and theorems are stated `∀ c : Cfg`
("in every build").  The NEON (nightly aarch64) branches are not modelled.

The model is one generic program over a class `Lane α` of 32-bit lane operations (`Verif/Basic.lean`); the SSE
intrinsics used by the code are defined once on `V4 α` (`Verif/Intrinsics.lean`), the functions of
`vector.rs`, `matrix.rs`, `misc.rs`, `convert.rs`, `collision.rs` are transcribed over these
(`Verif/Model/*.lean`).  It is interpreted in three ways.

* **Interpretation I, `F32`** (`Verif/F32*.lean`): a lane is a `BitVec 32` with IEEE-754 binary32 operations
  (round to nearest even, subnormals, signed zeros, infinities, NaN).  Which NaN an operation returns is a
  parameter (`Env`, which also fixes libm and the estimate instructions), theorems hold for every `Env`.  Used for bit-exact properties: comparisons, logic,
  rounding, conversions, min/max, classification.
* **Interpretation II, `E`** (`Verif/ELane.lean`): a lane is an exact real number `num r`, or one of the special
  patterns the code uses as data (±inf, NaN, sign mask, all-ones mask, abs mask), or `bad` (a value the
  idealisation does not track, e.g. the result of a division by zero).  `bad` is absorbing for arithmetic and a
  comparison with `bad` returns an opaque Boolean, so no theorem can depend on it.  The literal constants of the
  code enter with their exact binary32 value.  This is the reading in which "the function computes the dot
  product" is meant: rounding error, overflow and the sign of zero are idealised away, the control flow, lane
  shuffles, masks, special cases and constants are not.
* **Interpretation III, any `α`**: pure data movement (swizzle, permute, merge, transpose, load/store) is proved
  for every lane type, hence for all bit patterns.

Specifications are separate (`Verif/Spec/*.lean`): 3-D vectors over ℝ with dot/cross, Mathlib `Matrix (Fin 4)
(Fin 4) ℝ`, Mathlib `Quaternion ℝ`, point sets of balls, boxes, triangles, frusta, half-spaces, IEEE value
functions `value : BitVec 32 → ℝ` and `evalue : BitVec 32 → EReal`.

Property theorems are in `Verif/Props/*.lean`, helper lemmas elsewhere.  Beside each property theorem an
`example` instantiates its hypotheses at a concrete non-trivial case.

## 2. Trusted base

Lean 4.33.0's kernel; the axioms `propext`, `Classical.choice`, `Quot.sound` (no others; no `sorry`, no
`native_decide`, no `bv_decide`); Mathlib's definitions of ℝ, matrices, quaternions, sin, cos; the reading of
Rust and of the Intel intrinsics documented in the model's comments; the transcription of the code (each
definition cites file and lines); for interpretation II the exact-arithmetic idealisation.

Decimal float literals of the code appear as their binary32 bit patterns (comment gives the decimal).

The memory of loads and stores (`Verif/Model/LoadStore.lean`) is a function from word addresses to lanes; each load
and store is modelled by the words it touches, in the order of the intrinsics used.

## 3. Not modelled

NEON branches; `XMLoad*/XMStore*` pointer validity (a reference in Rust is always valid; slices are lists);
process-level effects of panics (a panic is `none`/an explicit outcome where a property speaks about it);
libm functions `sinf`, `cosf`, `tanf`, `asinf`, `acosf`, `atanf`, `atan2f`, `powf`, `expf`, `logf`, … used by the
no-intrinsics build are parameters (interpretation II: the exact real functions); denormals-are-zero / rounding-mode
CPU state; the hardware approximate instructions `rcpps`/`rsqrtps` (the `*Est` functions that use them) are an
arbitrary parameter, constrained by their documented error bound in C102.

## 4. Plan per property

- **C01** Swizzle and permute return exactly the requested lanes — III; data movement for all α. Model swizzle/permute of both builds (index tables / AVX permutevar / select). Theorem: lane k of the result = lane named by the index, for all indices in range, all cfgs; run-time = const form.
- **C02** Out-of-range swizzle and permute indices are rejected, never read out of bounds — Model returns Option: none = panic, and a separate outcome for an out-of-bounds read. Swizzle in release SSE without AVX reads out of bounds for index ≥ 4 (debug_assert only): prove the negation with a witness, and the positive part for the other builds.
- **C03** Select is a bitwise multiplexer — F32 bit-level: per-bit statement for every bit index. SelectControl domain {0,1}.
- **C04** Shift, rotate, insert, merge and splat move whole lanes — III for all α.
- **C05** Lane get/set laws — III; laws of write histories by induction over a list of writes.
- **C06** Load/store round trips — III; memory formats as tuples of lanes.
- **C07** Integer lane logic — F32 bitwise laws via BitVec lemmas.
- **C08** Lane comparison masks follow IEEE-754 — F32; IEEE order defined independently through `evalue` in EReal; theorem that the model's bit-level comparison agrees.
- **C09** Vector comparison predicates depend only on the leading lanes — F32; masks and movemask analysed; iff-statement for each predicate.
- **C10** Comparison records encode all/any/mixed correctly — F32; record bits; known disagreement: XMVectorInBoundsR no-intrinsics sets the wrong bit, GreaterR on NaN differs by build: negations with witnesses, partial theorem for the rest.
- **C11** NearEqual and InBounds lane tests — F32.
- **C12** IsNaN / IsInfinite classify every bit pattern — F32; iff with exponent/mantissa fields.
- **C13** Min, Max, Clamp and Saturate bound their result — F32; Saturate NaN differs by build (witness).
- **C14** Round, Truncate, Floor and Ceiling are exact — F32; value function; magic-number rounding proved via integer arithmetic. Known disagreement: XMVectorRound no-intrinsics uses lane 0 for all lanes.
- **C15** Integer/float vector conversion — F32; known disagreement: IntToFloat in the no-intrinsics build.
- **C16** Float to half conversion is correctly rounded — bit-level model of the software path; value semantics of half; nearest-ness proved. F16C path = hardware spec.
- **C17** Half to float conversion is exact — known disagreement: subnormal loop condition inverted; negation + partial theorem for all other halves.
- **C18** Element-wise arithmetic is the IEEE operation in every build — F32 and III: lane-wise characterisation.
- **C19** Negate and Abs — F32.
- **C20** Constant constructors — F32; SetBinaryConstant SSE uses mask [1,2,3,4] (witness), partial otherwise.
- **C21** Angle wrapping — E; round as nearest integer.
- **C22** Horizontal sum — E.
- **C23** Dot products — E; full-equality lemma (result vector = spec value in every lane) per function and build, then the law over ℝ.
- **C24** Cross products — E; full-equality lemma (result vector = spec value in every lane) per function and build, then the law over ℝ.
- **C25** Length functions — E; full-equality lemma (result vector = spec value in every lane) per function and build, then the law over ℝ.
- **C26** Normalize — E; full-equality lemma (result vector = spec value in every lane) per function and build, then the law over ℝ.
- **C27** ClampLength — E; full-equality lemma (result vector = spec value in every lane) per function and build, then the law over ℝ.
- **C28** Reflect — E; full-equality lemma (result vector = spec value in every lane) per function and build, then the law over ℝ.
- **C29** Refract obeys Snell's law — E; full-equality lemma (result vector = spec value in every lane) per function and build, then the law over ℝ.
- **C30** Orthogonal vectors — E; full-equality lemma (result vector = spec value in every lane) per function and build, then the law over ℝ.
- **C31** Components from normal — E; full-equality lemma (result vector = spec value in every lane) per function and build, then the law over ℝ.
- **C32** Line/point distance — E; full-equality lemma (result vector = spec value in every lane) per function and build, then the law over ℝ.
- **C33** 2-D line intersection — E; full-equality lemma (result vector = spec value in every lane) per function and build, then the law over ℝ.
- **C34** Interpolation endpoints and partition of unity — E; full-equality lemma (result vector = spec value in every lane) per function and build, then the law over ℝ.
- **C35** Quaternion rotation of vectors — E; full-equality lemma (result vector = spec value in every lane) per function and build, then the law over ℝ.
- **C36** Vector-matrix transforms — E; full-equality lemma (result vector = spec value in every lane) per function and build, then the law over ℝ.
- **C37** Project and Unproject are mutually inverse — E; full-equality lemma (result vector = spec value in every lane) per function and build, then the law over ℝ.
- **C38** Matrix multiplication is the matrix product — E; model of every code path, equality with the Mathlib matrix / spec formula, then the law.
- **C39** Transpose — E; model of every code path, equality with the Mathlib matrix / spec formula, then the law.
- **C40** Determinant — E; model of every code path, equality with the Mathlib matrix / spec formula, then the law.
- **C41** Inverse — E; model of every code path, equality with the Mathlib matrix / spec formula, then the law.
- **C42** Tensor product — E; model of every code path, equality with the Mathlib matrix / spec formula, then the law.
- **C43** Identity, translation and scaling matrices — E; model of every code path, equality with the Mathlib matrix / spec formula, then the law.
- **C44** Axis rotation matrices — E; model of every code path, equality with the Mathlib matrix / spec formula, then the law.
- **C45** Quaternion to matrix — E; model of every code path, equality with the Mathlib matrix / spec formula, then the law.
- **C46** Matrix to quaternion — E; model of every code path, equality with the Mathlib matrix / spec formula, then the law.
- **C47** Roll-pitch-yaw — E; model of every code path, equality with the Mathlib matrix / spec formula, then the law.
- **C48** Composite transformation matrices — E; model of every code path, equality with the Mathlib matrix / spec formula, then the law.
- **C49** Reflection and shadow matrices — E; model of every code path, equality with the Mathlib matrix / spec formula, then the law.
- **C50** View matrices — E; model of every code path, equality with the Mathlib matrix / spec formula, then the law.
- **C51** Projection matrices — E; model of every code path, equality with the Mathlib matrix / spec formula, then the law.
- **C52** Decompose inverts composition — E; model of every code path, equality with the Mathlib matrix / spec formula, then the law. Known disagreement: the degenerate branch uses rows 0,2,3 of the identity (witness); partial theorem for non-degenerate scales.
- **C53** Matrix operators agree with the functions — E; model of every code path, equality with the Mathlib matrix / spec formula, then the law. Known disagreement: += and -= write row 0 four times (witness).
- **C54** XMVector operator overloads agree with the functions — E; model of every code path, equality with the Mathlib matrix / spec formula, then the law.
- **C55** Quaternion multiplication is the Hamilton product with swapped arguments — E; equality with Mathlib Quaternion operations; trigonometric identities from Mathlib.
- **C56** Quaternion conjugate and inverse — E; equality with Mathlib Quaternion operations; trigonometric identities from Mathlib.
- **C57** Slerp endpoints and unit norm — E; equality with Mathlib Quaternion operations; trigonometric identities from Mathlib.
- **C58** Quaternion exponential and logarithm — E; equality with Mathlib Quaternion operations; trigonometric identities from Mathlib.
- **C59** Axis-angle quaternions — E; equality with Mathlib Quaternion operations; trigonometric identities from Mathlib.
- **C60** Squad and barycentric quaternion interpolation endpoints — E; equality with Mathlib Quaternion operations; trigonometric identities from Mathlib.
- **C61** Plane evaluation and normalization — E; half-space semantics over ℝ³.
- **C62** Plane construction — E; half-space semantics over ℝ³.
- **C63** Plane intersections — E; half-space semantics over ℝ³.
- **C64** Plane transformation — E; half-space semantics over ℝ³.
- **C65** Fresnel term — E; real inequality.
- **C66** Scalar trigonometry accuracy — E with exact coefficient values; Taylor remainder bound from Mathlib (Complex.exp_bound') plus coefficient differences.
- **C67** Vector trigonometry accuracy — E with exact coefficient values; Taylor remainder bound from Mathlib (Complex.exp_bound') plus coefficient differences.
- **C68** Scalar near-equality — F32 and E.
- **C69** Sphere-point containment is exact — E; the model of the test is reduced to a real formula, then compared with point-set semantics in ℝ³ (subset / common point / half-space).
- **C70** Sphere-sphere tests — E; the model of the test is reduced to a real formula, then compared with point-set semantics in ℝ³ (subset / common point / half-space).
- **C71** Merged sphere contains both — E; the model of the test is reduced to a real formula, then compared with point-set semantics in ℝ³ (subset / common point / half-space).
- **C72** Sphere from points contains every point — E; the model of the test is reduced to a real formula, then compared with point-set semantics in ℝ³ (subset / common point / half-space).
- **C73** Box from points is the tight box — E; the model of the test is reduced to a real formula, then compared with point-set semantics in ℝ³ (subset / common point / half-space).
- **C74** Merged box contains both — E; the model of the test is reduced to a real formula, then compared with point-set semantics in ℝ³ (subset / common point / half-space).
- **C75** Box-point, box-box tests are exact — E; the model of the test is reduced to a real formula, then compared with point-set semantics in ℝ³ (subset / common point / half-space).
- **C76** Box-sphere tests are exact — E; the model of the test is reduced to a real formula, then compared with point-set semantics in ℝ³ (subset / common point / half-space).
- **C77** Sphere from box, box from sphere — E; the model of the test is reduced to a real formula, then compared with point-set semantics in ℝ³ (subset / common point / half-space).
- **C78** Ray-sphere intersection — E; the model of the test is reduced to a real formula, then compared with point-set semantics in ℝ³ (subset / common point / half-space).
- **C79** Ray-box intersection — E; the model of the test is reduced to a real formula, then compared with point-set semantics in ℝ³ (subset / common point / half-space). The reported distance is negative when the origin is inside (stated so).
- **C80** Ray-triangle intersection — E; the model of the test is reduced to a real formula, then compared with point-set semantics in ℝ³ (subset / common point / half-space).
- **C81** Plane classification of volumes — E; the model of the test is reduced to a real formula, then compared with point-set semantics in ℝ³ (subset / common point / half-space).
- **C82** ContainedBy six planes — E; the model of the test is reduced to a real formula, then compared with point-set semantics in ℝ³ (subset / common point / half-space).
- **C83** Box-triangle test never misses — E; the model of the test is reduced to a real formula, then compared with point-set semantics in ℝ³ (subset / common point / half-space).
- **C84** Oriented-box intersection never misses and is symmetric — E; the model of the test is reduced to a real formula, then compared with point-set semantics in ℝ³ (subset / common point / half-space).
- **C85** Oriented-box containment — E; the model of the test is reduced to a real formula, then compared with point-set semantics in ℝ³ (subset / common point / half-space).
- **C86** Oriented box from points contains every point — E; the model of the test is reduced to a real formula, then compared with point-set semantics in ℝ³ (subset / common point / half-space). Known disagreement: points after the first are not rotated (witness).
- **C87** Transforming volumes — E; the model of the test is reduced to a real formula, then compared with point-set semantics in ℝ³ (subset / common point / half-space). Known disagreement: sphere transform with shear (witness).
- **C88** Sphere-triangle test is exact — E; the model of the test is reduced to a real formula, then compared with point-set semantics in ℝ³ (subset / common point / half-space).
- **C89** Triangle-triangle test — E; the model of the test is reduced to a real formula, then compared with point-set semantics in ℝ³ (subset / common point / half-space). Known disagreement: coplanarity flag of A computed from B's distances.
- **C90** Frustum point containment and planes — E; the model of the test is reduced to a real formula, then compared with point-set semantics in ℝ³ (subset / common point / half-space).
- **C91** Frustum intersection tests never miss — E; the model of the test is reduced to a real formula, then compared with point-set semantics in ℝ³ (subset / common point / half-space). Known disagreement: IntersectsTriangle uses untransformed vertices (witness).
- **C92** Frustum ray intersection — E; the model of the test is reduced to a real formula, then compared with point-set semantics in ℝ³ (subset / common point / half-space).
- **C93** f32 accuracy of dot and cross products — I (binary32): a forward error calculus (Lemmas/FErr.lean) with one rule per operation (add, sub, mul, fma, div, sqrt), each from the correct-rounding specification `Rounds`; bounds stated with `Near` (Spec/Rounding.lean).
- **C94** f32 accuracy of transforms, matrix and quaternion products — as C93.
- **C95** f32 accuracy of length and normalization — as C93, with the masks of the SSE Normalize tail shown inactive in the range.
- **C96** robustness of box tests — interpretation I; rounding is monotone and fixes representable numbers (Lemmas/FMono.lean), so real overlap survives rounding.
- **C97** boxes from points and merges — interpretation I; fold invariant on exact minima/maxima, two rounded operations for center and extents; concrete witness for the failure of exact enclosure.
- **C98** robustness of sphere and plane tests — interpretation I; C93 error bounds, then real inequalities.
- C99: `Model/Exp.lean` models the four functions on binary32 lanes (they add and shift exponent fields as integers, so there is no abstract-lane model). `Lemmas/ExpLane.lean` reduces a lane to a decision tree; `Lemmas/ExpPoly.lean` bounds the polynomial against `2^-y` on [-1,1] by the mean value theorem and Bernstein certificates; `Lemmas/ExpErr.lean` bounds the Horner evaluation with and without FMA, shows the reduction `x - trunc x` exact, and the shifted exponent exact. The NO_INTRINSICS build calls libm `powf`, which is a parameter of the environment; nothing is claimed there.
- C100: same pieces plus the rounding of the scaled argument; specification is Mathlib's `Real.cosh`, `Real.sinh`, `Real.tanh`. Arguments between 89 and 90 in magnitude are not covered for cosh and sinh. NO_INTRINSICS calls libm.
- C101: exact-real lanes; composes the arccosine bound of C67 with the exact dot product and lengths (`Props/Angles.lean`). The specification is `Real.arccos`.
- C102: `Model/Est.lean` adds the remaining estimating functions. `rcpps`/`rsqrtps` are parameters of the environment; the theorems assume only the documented error bound (`RcpOk`, `RsqrtOk`) and `estEnv_ok` shows the assumption satisfiable. The rounding of the squared length is bounded with the lemmas of C95.
- C103: equality on binary32 patterns follows from C09; near equality on exact-real lanes through C61.
- C104: binary32; the rounding bounds of C95 composed with the subtraction, absolute value and comparison of the check (`Props/FloatUnit.lean`).
- C105: binary32; monotonicity of rounding gives the truncated quotient, the error of the multiply-subtract is bounded with and without FMA (`Props/FloatMod.lean`).
- C106: exact-real lanes (`Props/CollisionConv.lean`).
- C107: E model. Lemmas/TanPoly bounds tan(arctan-backward) by polynomial certificates on eight subintervals; the reduction x - n*(C0+C1+C2) with C0 = f32(pi/2) is compared with pi/2; the even/odd quadrant select is tan or -cot (Props/Tan).
- C108: E model, SSE. Ln accuracy from the arccos bound (C58) restricted to scalar part in [0,1-eps]; exp and the sign selects as in C57; composition by Lipschitz bounds of quaternion multiplication (Props/Squad). Refutation without intrinsics in F32, for all inputs (Props/SquadNoi).
- C109: E model, SSE: both forms reduce to the same three slerps; F32 without intrinsics: the threshold constant is infinite, so every finite f+g is `in bounds` (Props/SquadNoi).
- C110: F32 model. Lemmas/FHorner bounds one Horner step in absolute error, Lemmas/FPoly and FPolyLane chain the steps with the coefficient bit patterns (fused and unfused), Lemmas/FTrig does the argument reduction and reflection; Props/FloatTrig adds the polynomial's distance from sine and cosine (C58's certificates).
- C111: F32 model, same machinery; the rounded 1-x is within u(1-x), so its root is within u of the true root (Props/FloatArc).
- C112: F32 model; specification Spec/Atan2.lean (extArctan, extAtan2). Reciprocal within u and not above 1, polynomial as in C110, quotient compared through arctan(1/q) when it exceeds 1 or overflows; the select tree of ATan2 as one lane function (Props/FloatAtan).
- C113: F32 model; NaN propagates through each operation, and every select of the code chooses between NaNs (Props/NanProp). ATan2 violates it (see section 5).
- C114: Model/LaneAccess (integer and by-reference forms of lane access) over any lane type; history by induction; quaternion measures against Mathlib's inner product and norm (Props/LaneAccess).
- C115: binary32 lanes; dot product (C93), reciprocal length (C95) and arccosine (C111) errors composed; the arccosine's Hoelder continuity turns a cosine error into an angle error (Props/FloatAngle).
- C116: binary32 lanes; rational approximation of the tangent by Bernstein certificates (Lemmas/TanEstPoly), any reciprocal instruction satisfying RcpOk (Props/FloatEst2).
- C117: binary32 lanes; lane forms of the rotation functions proved over any lane type (Lemmas/RotForm), rounding by the rules of Lemmas/FErr with numeric magnitudes, sine and cosine by C110, exact part by C44/C47/C59 (Props/FloatRot).
- C118: binary32 lanes related to exact lanes vector by vector (Lemmas/VRel: a rule for each vector operation, including the shuffles), applied to the unfolded model of the determinant and both inverse paths; exact value by the determinant and adjugate theorems of Lemmas/Mat; the final division by an explicit perturbation bound (Props/FloatMat).
- C119: lane forms of the multiply-adds with the error rules of Lemmas/FErr and Lemmas/VRel; monotonicity from the monotonicity of rounding (Lemmas/FMono) through both the fused and the two-step multiply-add; the endpoint witness is evaluated bit by bit in the kernel (Props/FloatInterp).
- C120: error rules lane by lane over the unfolded model; quotients by a perturbation lemma; the cross product by the exact-lane theorem of C24 and Lemmas/VRel; the parallel test of the line/plane intersection is shown false from the bound on the denominator (Props/FloatGeom).
- C121: interpretation I; projection matrices. `MRel M A k` says that every entry of the computed matrix is the exact entry up to k relative roundings. Proved by a relative error calculus (Lemmas/FRel) after making the entries explicit for both code paths.
- C122: the exact motion is the one of C50, written out; errors pass through the two normalizations (C95) by a perturbation lemma for directions, through the cross products (C93) and the dot products with the negated eye (Props/FloatView).
- C123: `Same` (equal bits or both NaN) and `SameNum` (equal numbers or both NaN) in Spec/Same; congruence of every operation and commutativity of addition and multiplication (Lemmas/Same); each build is compared with the one without intrinsics; differing functions have concrete witnesses, evaluated for every environment by Lemmas/FEval (Props/Repro).
- C124: a calculus of exact results (Lemmas/FExact: `Ex`, finite with a given value; `Ro`, the rounding of a given value): an operation whose exact result is a float does not round, and at most one operation on each path rounds. The matrix inverse is followed statement by statement on exact vectors (Lemmas/FExactV); the theorems are in Props/FloatExact.
- C125: rounding to nearest is odd, so negating the operands negates the result (Lemmas/FSym); each reduction order of the sums is followed per build on lanes. The theorems are in Props/FloatSym.
- C126: the common subexpression of the two tests is isolated and the two comparisons are related as IEEE comparisons (`FLe`, `FLt`) of the same two lanes; the distance of box and sphere is shown to be a number by a small calculus of non-negative lanes. The theorems are in Props/FloatAgree.
- C127: every arithmetic operation is NaN on a NaN operand, so each build's arrangement of a product or rotation is searched for the NaN operand; comparisons with NaN are false. The theorems are in Props/FloatNaN.
- C128: rounding is monotone, so rounded sums, differences and squares of non-negative numbers keep their order; the side of each test that does not involve the size is left untouched. The theorems are in Props/FloatGrow.
- C129: at the parameters 0 and 1 every weight is a small integer computed without rounding, and adding a product with an exact zero weight does not round; every intermediate number is shown to be a float. The theorems are in Props/FloatEnds.
- C130: the square root of a correctly rounded square is the magnitude again (the rounded square is within half a unit in the last place of v*v, which moves the root by less than half a unit in the last place of v; powers of two square exactly); zero products add exactly; division by the exact length gives 1, -1 or 0 exactly. The theorems are in Props/FloatAxis.
- C131: one product is exact up to 4.8e-7 relative (C94 with the inequality of Cauchy and Schwarz), one normalization up to 9e-7 (C95); directions of close quaternions are close, multiplication by a unit quaternion is an isometry; induction on the list of rotations. The theorems are in Props/FloatDrift.
- C132: one product is exact up to gam(4) times the product of the Frobenius norms (C94), multiplication by an orthogonal matrix is an isometry, induction on the list of matrices. The theorem is in Props/FloatDriftM.
- C133: each loop step adds one rounding to the running error certificate of the accumulator (Lemmas/FErr), by induction on the list. The theorems are in Props/FloatSum.
- C134: the rounded local coordinates are within a bound of the exact rotation by the unit quaternion (C117 and quaternion norms); box: comparison of finite lanes; frustum: dot products with the six local planes (C93), the mask fold as an any over planes. The theorems are in Props/FloatObb.
- C135: the rounded corners move by at most 2^-24 M, the gap along each axis and the squared distance carry a few relative roundings (C93), a point of one box has a close point in the other. The theorems are in Props/FloatBoxSphere.
- C136: the rounded local center is within m of the exact one along each axis (the lemma behind C134), the gaps along the axes and the squared distance carry a few relative roundings (C93, as in C135), and rotating by u reduces the claim to a box at the origin. The theorem is in Props/FloatObbSphere.
- C137: the inside tests compare rounded sums and differences of the (local) center, the radius and the corners, each with one relative rounding; a contained ball has zero gaps, so the distance test before it cannot answer DISJOINT. The theorems are in Props/FloatContainsSphere.
- C138: the masks of the six planes are combined lane by lane; each lane compares a plane value with the error bound of C93 against the radius. Extreme points of the ball, the box and the triangle turn center distances into statements about all points. The theorems are in Props/FloatSix; SixWithin there states what right up to a margin means.
- C139: the distance of the centers is within 7 roundings of the real one; the two nested branches compare it with a rounded difference of radii, and in the third branch the rounded end points t1, t2 on the line of centers bound both spheres from below and above. The radius, offset and center are followed with the Ap calculus of Lemmas/FErr. The theorem is in Props/FloatMerge.
- C140: the sum of squares is nonnegative in every order of summation, so its square root is taken of a nonnegative number and is at most 2^-48 where squares underflow. The projection is followed with the Ap calculus; the rounded differences move a point of the line by at most 2^-24 of its distance. The theorems are in Props/FloatLine.
- C141: the radius is a length with the error of C140, combined with the real containments of C77; the box from a sphere goes through its two rounded corners and the center and extents computed from corners as in C97. The theorems are in Props/FloatConv.
- C142: the center has the error of C94; the three squared row lengths have the error of C93, their maximum is as near to s^2, and the square root and product follow with the Ap calculus. Rows orthogonal up to eta stretch a vector by at most s (1 + eta). The theorem is in Props/FloatSphereT.
- C143: the scaled center has one rounding, the rotation has the error of C117, the translation one more rounding and the radius one. The unit quaternion keeps distances, so the image of a ball is a ball of the scaled radius. The theorem is in Props/FloatSphereD.
- C144: the center or origin as in C143, each extent with one rounding, the orientation with the error of one quaternion product (C94) plus that of its two factors. The set statement for boxes follows from the exact image (C87) in the coordinates of the product rotation. The theorems are in Props/FloatObbD.
- C145: the loop over the eight corners returns lane-wise bounds that are attained, exactly; each corner has the error of one multiply-add and of the transform (C94, or C117 as in C143); center and extents have the error of C97. An affine function on a box is bounded by its values at the corners. The theorems are in Props/FloatBoxD.
- C146: one multiply-add for a box; one product, the rotation of C117 and one sum for the others, as in C143. The lists are compared entry by entry with List.Forall2 against the literal list of corners. The theorems are in Props/FloatCorners.
- C147: the conjunction of the three lane masks is full exactly when each comparison holds in the first three lanes, which are the comparisons of ContainsPoint; the metric claims follow from C96 and C98 and the convexity of balls and boxes. The theorems are in Props/FloatTriIn.
- C148: by induction on the list of corners, the folded mask is full exactly when each comparison holds in the first three lanes, which are the comparisons of ContainsPoint; the metric claim follows from the corner bounds of C146, the convex hull of C90 and C96. The theorems are in Props/FloatFrusIn.

## 5. Disagreements between code and property

Each is a theorem (negation, with a concrete witness) beside a `_partial` theorem for what does hold.

- C02 `C02_swizzle_safe_fails`: SSE2 release build of XMVectorSwizzle reads out of bounds for an index above 3.
- C03 `C03_control_outside`: XMVectorSelectControl outside its documented domain {0,1} differs between builds (outside the property).
- C06 `C06_float3x3_fails`: SSE XMLoadFloat3x3 computes row 1 by an addition: -0 is loaded as +0.
- C10 `C10_inBounds_fails`, `C10_greater2/3/4_fails`: wrong record bit in the no-intrinsics XMVectorInBoundsR; records of NaN operands.
- C13 `C13_saturate_fails`: XMVectorSaturate(NaN) is NaN or 0 depending on the build.
- C14 `C14_round_fails`: no-intrinsics XMVectorRound rounds lane 0 four times.
- C15 `C15_intToFloat_fails`: no-intrinsics XMConvertVectorIntToFloat converts the float reading of the bits; `C15_uintToFloat_fails`: SSE
  XMConvertVectorUIntToFloat rounds twice above 2^31 (error bound `C15_uintToFloat_error`).
- C17 `C17_subnormal_fails`: the software XMConvertHalfToFloat is wrong on every nonzero subnormal half.
- C19 `C19_bits_fails`: SSE XMVectorAbs/Negate are arithmetic (max with 0 - x), not sign-bit operations, on NaN/zero.
- C20 `C20_splatConstant_fails` (no-intrinsics), `C20_binaryConstant_fails` (SSE).
- C21 `C21_mod_fails`: no-intrinsics angle wrapping inherits the rounding bug of C14.
- C29 `C29_refract2_agree_fails`: XMVector2Refract builds disagree on total internal reflection.
- C52 `C52_degenerate_fails`: XMMatrixDecompose canonical basis uses the wrong rows in the degenerate case.
- C53 `C53_assign_fails`: XMMatrix += and -= write row 0 four times.
- C58 `C58_ln_fails`: XMQuaternionLn does not invert XMQuaternionExp when the scalar part is near 1 or negative real part.
- C79: BoundingBox/BoundingOrientedBox::IntersectsRay report a negative Dist when the origin is inside (example beside `C79_boxFirst`).
- C86 `C86_fails`: BoundingOrientedBox::CreateFromPoints moves only the first point into the box frame (collision.rs:3274-3283); witness
  (±2,0,0),(0,±1,0),(0,0,±1).
- C87 `C87_sphere_shear_fails`: BoundingSphere::TransformMatrix is too small for matrices whose rows are not orthogonal.
- C88 `C88_degenerate_fails`: BoundingSphere::IntersectsTriangle is always true for a degenerate triangle.
- C89 `C89_fails`: the zero mask of A is computed from B's distances (collision.rs:5274) and the coplanar branch takes inward normals as
  outward: `C89_coplanar_fails` (nested coplanar triangles missed), `C89_vertexInPlane_fails` (piercing triangle missed),
  `C89_falsePositive_fails` (disjoint triangles reported), `C89_symmetry_fails` (argument order matters).
- C91 `C91_triangle_fails`: BoundingFrustum::IntersectsTriangle uses the untransformed vertices.
- C92 `C92_slow_fails`: a direction of length 1e-20 or less counts as parallel to every face (a threshold, not a bug).
- C97 `C97_fromPoints_fails`: CreateFromPoints of (1,1,1) and (2^24,2^24,2^24) in f32 gives a box that does not contain the second point (center and extents are rounded independently); ContainsPoint reports DISJOINT.
- XMVectorExp2: the polynomial was fitted on [0,1], but the exponent is split toward zero, so negative inputs evaluate it on (-1,0]; there its error reaches 1e-5 relative (about 150 ulps) against 3e-8 for positive inputs. Witness: `C99_exp2_negative_error` at x = -0.99999994.
- XMVectorSinH (SSE): computed as a difference of two exponentials, so small arguments cancel; 2^-30 gives 0. Witness: `C100_sinh_cancels`. Only the error relative to cosh is bounded.
- XMVectorMod: because the quotient is rounded before truncation, the result can have the wrong sign and differ from the mathematical remainder by the divisor: 8034.3999 mod 96.8 is negative in every build (`C105_sign_fails`).
- C107: XMVectorTan's constants C0, C1, C2 do not add up to pi/2 (C1 = 6.077e-11 does not repair C0 = f32(pi/2), which is 4.37e-8 too large), so the angle drifts by 4.4e-8 per quadrant; hence the bound proportional to |x|.
- C108 `C108_squadSetup_fails`: without intrinsics XMVectorSplatConstant(-1, 2) is infinite (C20), so for every input both control points of XMQuaternionSquadSetup are NaN or infinite.
- C109 `C109_baryV_fails`: without intrinsics XMVectorSplatConstant(1, 16) is infinite, so XMQuaternionBaryCentricV returns Q0 for all finite weights. With intrinsics its cut-off is 2^-16 where the scalar form has 1e-5.
- C110: XMScalarSin computes the quotient of the angle by a turn in an i32, which saturates; from about 2^35 the reduced angle is not small any more and the result is not a sine. `C110_scalar_large_fails`: XMScalarSin(2^36) is not finite. The property is therefore stated for |x| <= 10^6.
- C113: XMVectorATan2 drops a NaN: with x = 0 and y NaN it returns +-pi/2, with x NaN and y = 0 it returns 0 or pi, with x NaN and y infinite +-pi/2 (`C113_atan2_fails`); IEEE 754 atan2 returns NaN. `C113_atan2_partial` proves NaN for all other combinations.
- C119: linear interpolation at parameter 1 need not return the second endpoint in single precision: `XMVectorLerp` computes V0 + t (V1 - V0), which for V0 = 1, V1 = 2^-30 is 0 in every build (`C119_lerp_one`). Real-number exactness (C34) is unaffected.
- C123: XMVector3Length adds the squares in the order x, z, y in the SSE2 build and x, y, z in all others, so the length of the same vector can differ in the last bit between builds (`C123_length3_differs`).
- `XMVector3Cross` (C125): with FMA the product subtracted is not rounded, so the cross product of a vector with itself can be non-zero (-2^-46 for (1+2^-23, 1+2^-23, 0)) and exchanging the arguments does not negate the result. `C125_cross_self_fma` is the witness; without FMA both laws hold.
- `BoundingSphere::ContainsSphere` (C126): computes the distance by a square root of the squared length, which overflows for coordinates of 1e20; overlapping spheres are then reported as DISJOINT, while `IntersectsSphere` compares squares (both overflow) and answers true. `C126_sphere_sphere_overflow`.
- `BoundingBox::ContainsSphere` (C126): with a NaN radius answers other than DISJOINT while `IntersectsSphere` answers false, for every box. `C126_box_sphere_nan`.
- NaN coordinates (C127): tests that accumulate reasons for rejection accept NaN, because no comparison with NaN is ever true. `BoundingFrustum::ContainsPoint` answers CONTAINS for every point with a NaN coordinate (`C127_frustum_fails`), `BoundingBox::IntersectsBox` answers true for a box with a NaN center against every box (`C127_box_box_fails`), `BoundingSphere::IntersectsRay` answers true for a NaN center or origin (`C127_ray_sphere_fails`). Tests that accumulate reasons for acceptance reject NaN (`C127_containsPoint_partial`, `C127_sphere_sphere`, `C127_box_box_contains`).
- `XMVectorCatmullRomV` sums twice the curve and halves it at the end, so at parameter 0 it returns infinity for a point with a coordinate of at least 2^127, where `XMVectorCatmullRom` returns the point (`C129_catmullRomV_overflow`). `XMVectorLerp` at parameter 0 returns NaN when the difference of the two points overflows (`C129_lerp_overflow`).
- Without intrinsics `XMVector2Normalize`, `XMVector3Normalize` and `XMVector4Normalize` multiply by the rounded reciprocal of the length, so the vector (41, 0, 0, 0) becomes (0x3F7FFFFF, 0, 0, 0), just below one (`C130_normalize_noi`); with intrinsics they divide and every axis vector becomes an exact unit vector (`C130_normalize3_partial`).
