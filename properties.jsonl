{"id": "C01", "title": "Swizzle and permute return exactly the requested lanes", "statement": "XMVectorSwizzle(V,e0..e3) and XMVectorPermute(V1,V2,p0..p3), in the run-time and the compile-time-index forms, return in lane k exactly the source lane named by the k-th index (indices 0-3 name V1, 4-7 name V2), bit for bit, and the run-time and compile-time forms agree, in every build.", "quantifier": "every pair of 128-bit vectors, every in-range index quadruple (4^4 swizzles, 8^4 permutes), every build configuration", "why_tests_cant": "there are 4^4+8^4 index combinations times all vectors times builds; the tests touch a handful of index tuples in the one configuration they are compiled for", "anchors": ["src/vector.rs:XMVectorSwizzle", "src/vector.rs:XMVectorPermute", "src/lib.rs:Permute", "src/lib.rs:Swizzle"]}
{"id": "C02", "title": "Out-of-range swizzle and permute indices are rejected, never read out of bounds", "statement": "A safe call to XMVectorSwizzle or XMVectorPermute with an index beyond the documented range either panics or behaves as a documented masked index; it never reads memory outside the vector.", "quantifier": "every u32 index, every build configuration, debug and release profile", "why_tests_cant": "a test of one bad index in a debug build hits debug_assert and cannot show what a release build does for all indices", "anchors": ["src/vector.rs:XMVectorSwizzle", "src/vector.rs:XMVectorPermute"]}
{"id": "C03", "title": "Select is a bitwise multiplexer", "statement": "XMVectorSelect(V1,V2,Control) takes every bit from V2 where Control has a 1 and from V1 where it has a 0; with Control=XMVectorSelectControl(i0..i3), i in {0,1}, lane k is V2's lane iff ik=1; all builds agree.", "quantifier": "every triple of 128-bit vectors; every control index tuple", "why_tests_cant": "2^384 inputs; tests use only all-ones/zero controls", "anchors": ["src/vector.rs:XMVectorSelect", "src/vector.rs:XMVectorSelectControl"]}
{"id": "C04", "title": "Shift, rotate, insert, merge and splat move whole lanes", "statement": "XMVectorShiftLeft, RotateLeft, RotateRight, Insert, MergeXY, MergeZW and SplatX..W return exactly the documented lanes; RotateRight undoes RotateLeft by the same amount; rotating by 4-n is the reverse rotation; merging then re-splitting loses no lane; in every build.", "quantifier": "every vector pair, every element count in range, every select tuple, every build", "why_tests_cant": "tests pick one rotation amount and one vector", "anchors": ["src/vector.rs:XMVectorShiftLeft", "src/vector.rs:XMVectorRotateLeft", "src/vector.rs:XMVectorRotateRight", "src/vector.rs:XMVectorInsert", "src/vector.rs:XMVectorMergeXY", "src/vector.rs:XMVectorMergeZW", "src/vector.rs:XMVectorSplatX"]}
{"id": "C05", "title": "Lane get/set laws", "statement": "XMVectorGetX..W / ByIndex / Ptr / Int* after XMVectorSetX..W / ByIndex / Ptr / Int* on the same lane return the value just written bit for bit (NaN payloads included), leave the other three lanes unchanged, and the last write to a lane wins; every build.", "quantifier": "every vector, every written value, every lane, every build, every sequence of lane writes", "why_tests_cant": "the law ranges over arbitrary histories of writes and all 2^32 lane patterns", "anchors": ["src/vector.rs:XMVectorGetX", "src/vector.rs:XMVectorSetX", "src/vector.rs:XMVectorGetByIndex", "src/vector.rs:XMVectorSetByIndex", "src/vector.rs:XMVectorSetIntByIndex"]}
{"id": "C06", "title": "Load/store round trips", "statement": "For every XMLoadX/XMStoreX pair, storing a vector and loading it back returns the stored lanes bit for bit and fills the missing lanes with the documented constants (0 for vectors; rows/columns of the identity for 3x3, 4x3, 3x4 matrices); storing writes nothing outside the target; every build.", "quantifier": "every vector/matrix bit pattern, every supported memory format, every build", "why_tests_cant": "NaN payloads, denormals and the exact padding lanes are not sampled by the tests", "anchors": ["src/convert.rs:XMLoadFloat3", "src/convert.rs:XMStoreFloat3", "src/convert.rs:XMLoadFloat4x3", "src/convert.rs:XMStoreFloat4x3", "src/convert.rs:XMLoadFloat3x3", "src/convert.rs:XMLoadFloat3x4", "src/convert.rs:XMLoadFloat4x4"]}
{"id": "C07", "title": "Integer lane logic", "statement": "XMVectorAndInt, AndCInt, OrInt, NorInt, XorInt, EqualInt, NotEqualInt, TrueInt, FalseInt compute the bitwise / lane-wise function named, on all 128 bits, and obey the Boolean-algebra laws (De Morgan, absorption, AndC = And of complement); every build.", "quantifier": "all pairs of 128-bit vectors, every build", "why_tests_cant": "2^256 inputs", "anchors": ["src/vector.rs:XMVectorAndInt", "src/vector.rs:XMVectorAndCInt", "src/vector.rs:XMVectorOrInt", "src/vector.rs:XMVectorNorInt", "src/vector.rs:XMVectorXorInt", "src/vector.rs:XMVectorEqualInt"]}
{"id": "C08", "title": "Lane comparison masks follow IEEE-754", "statement": "XMVectorEqual/NotEqual/Greater/GreaterOrEqual/Less/LessOrEqual return, per lane, 0xFFFFFFFF when the IEEE comparison of the two floats holds and 0 otherwise: +0 equals -0, NaN is unordered (only NotEqual true), infinities order as extremes; the ordering is a total preorder on non-NaN lanes; every build.", "quantifier": "all 2^64 pairs of lane patterns, every build", "why_tests_cant": "NaN payloads/denormals/signed zeros are unsampled; order laws quantify over all triples", "anchors": ["src/vector.rs:XMVectorEqual", "src/vector.rs:XMVectorGreater", "src/vector.rs:XMVectorLessOrEqual", "src/vector.rs:XMVectorNotEqual"]}
{"id": "C09", "title": "Vector comparison predicates depend only on the leading lanes", "statement": "XMVector2/3/4 Equal, NotEqual, Greater, GreaterOrEqual, Less, LessOrEqual and the Int versions return true iff the lane comparison holds on all of the first 2/3/4 lanes (NotEqual: iff Equal is false), whatever garbage the remaining lanes hold; every build.", "quantifier": "all pairs of vectors (NaN, garbage upper lanes), every build", "why_tests_cant": "the upper lanes may hold anything; sampling cannot show independence", "anchors": ["src/vector.rs:XMVector2Equal", "src/vector.rs:XMVector3Equal", "src/vector.rs:XMVector3Less", "src/vector.rs:XMVector4GreaterOrEqual", "src/vector.rs:XMVector3NotEqual"]}
{"id": "C10", "title": "Comparison records encode all/any/mixed correctly", "statement": "The CR value produced by XMVectorXxxR / XMVector{2,3,4}XxxR, read through XMComparisonAllTrue/AnyTrue/AllFalse/AnyFalse/Mixed/AllInBounds/AnyOutOfBounds, answers exactly whether the lane comparison holds for all / some / no / not all lanes, in every build, also with NaN lanes.", "quantifier": "all pairs of vectors including NaN, every build", "why_tests_cant": "flags in two builds differ only on NaN or on the record bits, which the tests do not sample", "anchors": ["src/vector.rs:XMVectorEqualR", "src/vector.rs:XMVectorGreaterR", "src/vector.rs:XMVectorGreaterOrEqualR", "src/vector.rs:XMVectorInBoundsR", "src/lib.rs:XMComparisonAllTrue"]}
{"id": "C11", "title": "NearEqual and InBounds lane tests", "statement": "XMVectorNearEqual gives the all-ones mask exactly on lanes with |a-b| <= eps (IEEE difference) and XMVectorInBounds exactly on lanes with -B <= V <= B; the XMVector2/3/4 versions are their conjunctions over the leading lanes; NaN lanes are never near-equal nor in bounds; every build.", "quantifier": "all vector triples, every build", "why_tests_cant": "NaN/denormal/infinite lanes, all magnitudes", "anchors": ["src/vector.rs:XMVectorNearEqual", "src/vector.rs:XMVectorInBounds", "src/vector.rs:XMVector3NearEqual", "src/vector.rs:XMVector3InBounds"]}
{"id": "C12", "title": "IsNaN / IsInfinite classify every bit pattern", "statement": "XMVectorIsNaN/IsInfinite masks, XMVector2/3/4IsNaN/IsInfinite, XMMatrixIsNaN/IsInfinite and XMQuaternion/XMPlane versions are true exactly when some examined lane's bit pattern is an IEEE NaN / infinity; every build.", "quantifier": "all 2^128 vectors and 2^512 matrices, every build", "why_tests_cant": "exhaustive over payloads; tests check three patterns", "anchors": ["src/vector.rs:XMVectorIsNaN", "src/vector.rs:XMVectorIsInfinite", "src/vector.rs:XMVector3IsNaN", "src/matrix.rs:XMMatrixIsNaN", "src/matrix.rs:XMMatrixIsInfinite"]}
{"id": "C13", "title": "Min, Max, Clamp and Saturate bound their result", "statement": "On non-NaN lanes XMVectorMin/Max return a lane that is one of the inputs and bounds both; XMVectorClamp(V,lo,hi) with lo<=hi lies in [lo,hi], equals V when V is already inside, and is idempotent; XMVectorSaturate lies in [0,1]; the builds agree (also on NaN).", "quantifier": "all lane bit patterns, every build", "why_tests_cant": "order laws over all floats, NaN behaviour across builds", "anchors": ["src/vector.rs:XMVectorMin", "src/vector.rs:XMVectorMax", "src/vector.rs:XMVectorClamp", "src/vector.rs:XMVectorSaturate"]}
{"id": "C14", "title": "Round, Truncate, Floor and Ceiling are exact", "statement": "For every float lane, XMVectorRound returns the nearest integer (ties to even), XMVectorTruncate the integer part toward zero, XMVectorFloor/Ceiling the greatest/least integer not above/below it, exactly, with infinities and already-integral huge values unchanged and NaN giving NaN; every build.", "quantifier": "all 2^32 lane patterns in each lane, every build", "why_tests_cant": "2^32 patterns per lane and the magic-constant rounding trick; tests use a few values in one build", "anchors": ["src/vector.rs:XMVectorRound", "src/vector.rs:XMVectorTruncate", "src/vector.rs:XMVectorFloor", "src/vector.rs:XMVectorCeiling"]}
{"id": "C15", "title": "Integer/float vector conversion", "statement": "XMConvertVectorIntToFloat(V,k) yields round(int/2^k) and UInt likewise; XMConvertVectorFloatToInt/UInt truncate v*2^k toward zero and saturate out-of-range values to the extreme integer; Int->Float->Int is the identity on |n|<=2^24; every build.", "quantifier": "all 2^32 lane patterns, all exponents 0..31, every build", "why_tests_cant": "boundary values around 2^31, 2^32 and NaN; all exponents", "anchors": ["src/convert.rs:XMConvertVectorIntToFloat", "src/convert.rs:XMConvertVectorFloatToInt", "src/convert.rs:XMConvertVectorUIntToFloat", "src/convert.rs:XMConvertVectorFloatToUInt"]}
{"id": "C16", "title": "Float to half conversion is correctly rounded", "statement": "XMConvertFloatToHalf returns the IEEE binary16 nearest to its argument (ties to even), infinities map to infinities, values beyond the half range overflow as IEEE prescribes, NaN maps to a NaN half, sign preserved; every build.", "quantifier": "all 2^32 float patterns, every build", "why_tests_cant": "2^32 inputs incl. ties, subnormal halves and overflow boundary", "anchors": ["src/packed_vector.rs:XMConvertFloatToHalf"]}
{"id": "C17", "title": "Half to float conversion is exact", "statement": "XMConvertHalfToFloat returns the float with exactly the value of the half (normal, subnormal, zero, infinity; NaN to NaN); in particular float->half after half->float is the identity on non-NaN halves; every build.", "quantifier": "all 65536 halves, every build", "why_tests_cant": "the test-suite's halves avoid the subnormal loop", "anchors": ["src/packed_vector.rs:XMConvertHalfToFloat", "src/packed_vector.rs:XMConvertFloatToHalf"]}
{"id": "C18", "title": "Element-wise arithmetic is the IEEE operation in every build", "statement": "XMVectorAdd, Subtract, Multiply, Divide, MultiplyAdd, NegativeMultiplySubtract, Scale, Reciprocal, Sqrt, ReciprocalSqrt, Min, Max act lane-wise as the IEEE operations, lanes never interact, and the no-intrinsics and SSE builds return identical bits on non-NaN results.", "quantifier": "all vectors, every build without fused multiply-add (with FMA: single rounding)", "why_tests_cant": "bit-equality for all floats across builds", "anchors": ["src/vector.rs:XMVectorAdd", "src/vector.rs:XMVectorMultiplyAdd", "src/vector.rs:XMVectorDivide", "src/vector.rs:XMVectorReciprocal", "src/vector.rs:XMVectorScale"]}
{"id": "C19", "title": "Negate and Abs", "statement": "XMVectorNegate(V) has the value -V and XMVectorAbs(V) the value |V| on every non-NaN lane; Abs is idempotent and invariant under Negate; the builds return the same bits.", "quantifier": "all lane patterns, every build", "why_tests_cant": "signed zeros and infinities over all patterns", "anchors": ["src/vector.rs:XMVectorNegate", "src/vector.rs:XMVectorAbs"]}
{"id": "C20", "title": "Constant constructors", "statement": "XMVectorSplatConstant(n,k) is n/2^k in all lanes, XMVectorSplatConstantInt(n) is n, XMVectorSetBinaryConstant(c0..c3) has 1.0 in lane i iff ci=1 else 0.0, XMVectorReplicate/Zero/One/Infinity/QNaN/Epsilon/SignMask as named; every build.", "quantifier": "every n in [-16,15], k in 0..31, every 0/1 tuple, every build", "why_tests_cant": "the constants differ by build; tests exercise few tuples in one build", "anchors": ["src/lib.rs:XMVectorSplatConstant", "src/lib.rs:XMVectorSetBinaryConstant", "src/vector.rs:XMVectorReplicate", "src/vector.rs:XMVectorSplatOne"]}
{"id": "C21", "title": "Angle wrapping", "statement": "XMVectorModAngles(x) differs from x by a multiple of the code's 2*pi and lies in [-pi,pi] up to 1.3e-8 per radian; XMVectorAddAngles/SubtractAngles of angles in [-pi,pi) give the wrapped sum/difference in [-pi,pi); XMScalarModAngle is congruent and in [-pi,pi]; every build.", "quantifier": "every angle (exact-arithmetic reading), every build", "why_tests_cant": "all real angles, boundary +-pi", "anchors": ["src/vector.rs:XMVectorModAngles", "src/vector.rs:XMVectorAddAngles", "src/vector.rs:XMVectorSubtractAngles", "src/misc.rs:XMScalarModAngle"]}
{"id": "C22", "title": "Horizontal sum", "statement": "XMVectorSum(V) holds x+y+z+w in all four lanes; every build.", "quantifier": "all vectors, every build", "why_tests_cant": "association order differs by build", "anchors": ["src/vector.rs:XMVectorSum"]}
{"id": "C23", "title": "Dot products", "statement": "XMVector2/3/4Dot replicate the Euclidean dot product of the leading 2/3/4 components into all lanes, ignoring the other lanes (even NaN), and are symmetric and bilinear; every build.", "quantifier": "all real vectors, arbitrary unused lanes, every build", "why_tests_cant": "algebraic law for all inputs in 4 code paths", "anchors": ["src/vector.rs:XMVector2Dot", "src/vector.rs:XMVector3Dot", "src/vector.rs:XMVector4Dot"]}
{"id": "C24", "title": "Cross products", "statement": "XMVector3Cross is the right-handed cross product (w=0): orthogonal to both inputs, antisymmetric, |a x b|^2=|a|^2|b|^2-(a.b)^2; XMVector2Cross is the 2-D determinant; XMVector4Cross is orthogonal to its three inputs and equals the 4-D determinant expansion; every build.", "quantifier": "all real vectors, every build", "why_tests_cant": "sign/shuffle errors cancel on symmetric test vectors", "anchors": ["src/vector.rs:XMVector3Cross", "src/vector.rs:XMVector2Cross", "src/vector.rs:XMVector4Cross"]}
{"id": "C25", "title": "Length functions", "statement": "XMVectorNLengthSq/Length/ReciprocalLength equal the squared norm, norm, and reciprocal norm (non-zero vectors) of the first N components in all lanes; every build.", "quantifier": "all real vectors, N=2,3,4, every build", "why_tests_cant": "all inputs in four code paths", "anchors": ["src/vector.rs:XMVector3Length", "src/vector.rs:XMVector3LengthSq", "src/vector.rs:XMVector3ReciprocalLength", "src/vector.rs:XMVector2Length", "src/vector.rs:XMVector4Length"]}
{"id": "C26", "title": "Normalize", "statement": "XMVectorNNormalize of a non-zero vector has length 1 and is a positive multiple of the input; the zero vector maps to the zero vector; normalizing twice equals normalizing once; every build.", "quantifier": "all real vectors, N=2,3,4, every build", "why_tests_cant": "all directions/magnitudes plus the zero special case in each path", "anchors": ["src/vector.rs:XMVector2Normalize", "src/vector.rs:XMVector3Normalize", "src/vector.rs:XMVector4Normalize"]}
{"id": "C27", "title": "ClampLength", "statement": "XMVectorNClampLength(V,lo,hi), 0<=lo<=hi, returns V when lo<=|V|<=hi, otherwise the vector with V's direction and length lo or hi (and length never exceeds hi); every build.", "quantifier": "all real vectors and bounds, N=2,3,4, every build", "why_tests_cant": "branch masks select between three formulas", "anchors": ["src/vector.rs:XMVector3ClampLength", "src/vector.rs:XMVector3ClampLengthV", "src/vector.rs:XMVector2ClampLengthV", "src/vector.rs:XMVector4ClampLengthV"]}
{"id": "C28", "title": "Reflect", "statement": "XMVectorNReflect(I,N) = I - 2(I.N)N; for unit N it is an involution, preserves length, and flips the normal component; every build.", "quantifier": "all real incident vectors and normals, every build", "why_tests_cant": "algebraic law for all inputs", "anchors": ["src/vector.rs:XMVector2Reflect", "src/vector.rs:XMVector3Reflect", "src/vector.rs:XMVector4Reflect"]}
{"id": "C29", "title": "Refract obeys Snell's law", "statement": "For unit I,N and index r, XMVectorNRefract returns zero exactly under total internal reflection (1-r^2(1-(I.N)^2) below the threshold) and otherwise a unit vector whose tangential component is r times the incident one; every build agrees.", "quantifier": "all unit vectors and indices, every build", "why_tests_cant": "threshold behaviour and direction law for all inputs", "anchors": ["src/vector.rs:XMVector3Refract", "src/vector.rs:XMVector3RefractV", "src/vector.rs:XMVector2RefractV", "src/vector.rs:XMVector4RefractV"]}
{"id": "C30", "title": "Orthogonal vectors", "statement": "XMVector2Orthogonal, XMVector3Orthogonal and XMVector4Orthogonal return a vector orthogonal to the input, non-zero when the (relevant part of the) input is non-zero; every build.", "quantifier": "all real vectors, every build", "why_tests_cant": "branch on signs of components", "anchors": ["src/vector.rs:XMVector3Orthogonal", "src/vector.rs:XMVector2Orthogonal", "src/vector.rs:XMVector4Orthogonal"]}
{"id": "C31", "title": "Components from normal", "statement": "XMVector3ComponentsFromNormal(V,N) with unit N splits V = perpendicular + parallel with parallel a multiple of N and perpendicular orthogonal to N; every build.", "quantifier": "all real V, unit N, every build", "why_tests_cant": "algebraic law", "anchors": ["src/vector.rs:XMVector3ComponentsFromNormal"]}
{"id": "C32", "title": "Line/point distance", "statement": "XMVector2/3LinePointDistance(P1,P2,Q) is the Euclidean distance from Q to the line through P1,P2 (P1 != P2): it is attained by a point of the line and no point of the line is nearer; every build.", "quantifier": "all real points, every build", "why_tests_cant": "optimality over all line points", "anchors": ["src/vector.rs:XMVector2LinePointDistance", "src/vector.rs:XMVector3LinePointDistance"]}
{"id": "C33", "title": "2-D line intersection", "statement": "XMVector2IntersectLine returns a point on both lines when they cross, QNaN-filled / infinite vectors exactly in the coincident / parallel cases as documented; every build.", "quantifier": "all real point quadruples, every build", "why_tests_cant": "case split on near-equality", "anchors": ["src/vector.rs:XMVector2IntersectLine"]}
{"id": "C34", "title": "Interpolation endpoints and partition of unity", "statement": "XMVectorLerp/LerpV, Hermite/HermiteV, CatmullRom/CatmullRomV, BaryCentric/BaryCentricV reproduce their control points at the end parameters, reproduce constants, equal their cubic/affine formulas, and the V form with a splatted parameter equals the scalar form; every build.", "quantifier": "all real control vectors and parameters, every build", "why_tests_cant": "polynomial identity for all inputs in two paths", "anchors": ["src/vector.rs:XMVectorLerp", "src/vector.rs:XMVectorHermite", "src/vector.rs:XMVectorHermiteV", "src/vector.rs:XMVectorCatmullRom", "src/vector.rs:XMVectorBaryCentric"]}
{"id": "C35", "title": "Quaternion rotation of vectors", "statement": "XMVector3Rotate(V,Q) with unit Q is the linear isometry v -> q v q* of quaternion algebra (orientation preserving), InverseRotate undoes it, and rotating by XMQuaternionMultiply(Q1,Q2) is rotating by Q1 then Q2; every build.", "quantifier": "all real vectors and unit quaternions, every build", "why_tests_cant": "composition/order laws for all inputs", "anchors": ["src/vector.rs:XMVector3Rotate", "src/vector.rs:XMVector3InverseRotate", "src/misc.rs:XMQuaternionMultiply"]}
{"id": "C36", "title": "Vector-matrix transforms", "statement": "XMVector2/3/4Transform is row-vector times matrix (with 0/1 padding), TransformNormal ignores translation, TransformCoord is Transform followed by perspective division; transforming by M1*M2 equals transforming by M1 then M2; every build.", "quantifier": "all real vectors and matrices, every build", "why_tests_cant": "algebraic law for all inputs", "anchors": ["src/vector.rs:XMVector3Transform", "src/vector.rs:XMVector4Transform", "src/vector.rs:XMVector3TransformCoord", "src/vector.rs:XMVector3TransformNormal", "src/vector.rs:XMVector2Transform"]}
{"id": "C37", "title": "Project and Unproject are mutually inverse", "statement": "XMVector3Unproject after XMVector3Project (same viewport with positive extent, invertible world-view-projection, non-zero clip w) returns the original point; every build.", "quantifier": "all real points, viewports, invertible transform triples, every build", "why_tests_cant": "round trip for all matrices", "anchors": ["src/vector.rs:XMVector3Project", "src/vector.rs:XMVector3Unproject"]}
{"id": "C38", "title": "Matrix multiplication is the matrix product", "statement": "XMMatrixMultiply(A,B) (and operator *) is the row-by-column product A*B over all 16 entries: associative, identity-neutral, distributive; XMMatrixMultiplyTranspose(A,B) is its transpose; all four code paths (scalar, SSE, AVX, AVX2) agree; every build.", "quantifier": "all real 4x4 matrices, every build", "why_tests_cant": "16 polynomial identities x 4 paths", "anchors": ["src/matrix.rs:XMMatrixMultiply", "src/matrix.rs:XMMatrixMultiplyTranspose"]}
{"id": "C39", "title": "Transpose", "statement": "XMMatrixTranspose swaps entry (i,j) with (j,i) bit for bit and is an involution; every build.", "quantifier": "all matrices of arbitrary lane bits, every build", "why_tests_cant": "all lane contents", "anchors": ["src/matrix.rs:XMMatrixTranspose"]}
{"id": "C40", "title": "Determinant", "statement": "XMMatrixDeterminant(M) is the 4x4 determinant replicated to all lanes; it is multiplicative and transpose-invariant; every build.", "quantifier": "all real matrices, every build", "why_tests_cant": "24-term polynomial identity", "anchors": ["src/matrix.rs:XMMatrixDeterminant"]}
{"id": "C41", "title": "Inverse", "statement": "If det M != 0, XMMatrixInverse(M) is a two-sided inverse of M and reports the determinant of M; every build.", "quantifier": "all real invertible matrices, both code paths", "why_tests_cant": "rational identity in 16 variables; tests sample a few", "anchors": ["src/matrix.rs:XMMatrixInverse"]}
{"id": "C42", "title": "Tensor product", "statement": "XMMatrixVectorTensorProduct(a,b) has entry a_i*b_j and maps v to (v.a) b; every build.", "quantifier": "all real vectors", "why_tests_cant": "algebraic law", "anchors": ["src/matrix.rs:XMMatrixVectorTensorProduct"]}
{"id": "C43", "title": "Identity, translation and scaling matrices", "statement": "XMMatrixIdentity/Translation/Scaling (scalar and FromVector forms) map points as their names say, compose additively/multiplicatively, invert by negation/reciprocal; XMMatrixIsIdentity is true exactly for the identity; both forms and all builds agree.", "quantifier": "all real parameters and vectors, every build", "why_tests_cant": "all inputs; IsIdentity over all 2^512 matrices", "anchors": ["src/matrix.rs:XMMatrixIdentity", "src/matrix.rs:XMMatrixTranslation", "src/matrix.rs:XMMatrixScaling", "src/matrix.rs:XMMatrixIsIdentity", "src/matrix.rs:XMMatrixTranslationFromVector"]}
{"id": "C44", "title": "Axis rotation matrices", "statement": "XMMatrixRotationX/Y/Z(a) for the computed sine/cosine pair are the standard left-handed row-vector rotations; with s^2+c^2=1 they are orthogonal with determinant 1, fix their axis, and compose by angle addition; RotationNormal/RotationAxis generalize them; every build.", "quantifier": "all angles/axes, every build", "why_tests_cant": "algebraic law", "anchors": ["src/matrix.rs:XMMatrixRotationX", "src/matrix.rs:XMMatrixRotationY", "src/matrix.rs:XMMatrixRotationZ", "src/matrix.rs:XMMatrixRotationNormal", "src/matrix.rs:XMMatrixRotationAxis"]}
{"id": "C45", "title": "Quaternion to matrix", "statement": "XMMatrixRotationQuaternion(Q) of a unit quaternion is orthogonal with determinant 1 and transforms vectors exactly as XMVector3Rotate(.,Q); the matrix of a product is the product of the matrices; every build.", "quantifier": "all unit quaternions and vectors, every build", "why_tests_cant": "polynomial identities in two paths", "anchors": ["src/matrix.rs:XMMatrixRotationQuaternion", "src/vector.rs:XMVector3Rotate"]}
{"id": "C46", "title": "Matrix to quaternion", "statement": "XMQuaternionRotationMatrix(M) of a rotation matrix M returns a unit quaternion whose matrix is M (so quaternion->matrix->quaternion is the identity up to sign); every build.", "quantifier": "all rotation matrices, every build and each of the four branches", "why_tests_cant": "four branch regions of SO(3)", "anchors": ["src/misc.rs:XMQuaternionRotationMatrix"]}
{"id": "C47", "title": "Roll-pitch-yaw", "statement": "XMQuaternionRotationRollPitchYaw and XMMatrixRotationRollPitchYaw denote the rotation by roll about Z, then pitch about X, then yaw about Y; quaternion and matrix forms agree; every build.", "quantifier": "all angles, every build", "why_tests_cant": "composition order for all angle triples", "anchors": ["src/misc.rs:XMQuaternionRotationRollPitchYaw", "src/matrix.rs:XMMatrixRotationRollPitchYaw"]}
{"id": "C48", "title": "Composite transformation matrices", "statement": "XMMatrixTransformation, AffineTransformation, and their 2D forms equal the documented product of scaling, rotation and translation about the given origins: every point is mapped accordingly; every build.", "quantifier": "all parameters and points, every build", "why_tests_cant": "multi-factor composition law", "anchors": ["src/matrix.rs:XMMatrixTransformation", "src/matrix.rs:XMMatrixAffineTransformation", "src/matrix.rs:XMMatrixTransformation2D", "src/matrix.rs:XMMatrixAffineTransformation2D"]}
{"id": "C49", "title": "Reflection and shadow matrices", "statement": "XMMatrixReflect(P) is an involution fixing the points of the plane and mirroring all others; XMMatrixShadow(P,L) maps every point onto the plane along the light direction; every build.", "quantifier": "all planes, lights and points, every build", "why_tests_cant": "algebraic law", "anchors": ["src/matrix.rs:XMMatrixReflect", "src/matrix.rs:XMMatrixShadow"]}
{"id": "C50", "title": "View matrices", "statement": "XMMatrixLookToLH/RH and LookAtLH/RH are rigid motions (orthogonal, det 1) taking the eye to the origin and the view direction to +Z (LH) / -Z (RH); every build.", "quantifier": "all eye/direction/up with non-parallel direction and up, every build", "why_tests_cant": "all viewpoints", "anchors": ["src/matrix.rs:XMMatrixLookToLH", "src/matrix.rs:XMMatrixLookToRH", "src/matrix.rs:XMMatrixLookAtLH", "src/matrix.rs:XMMatrixLookAtRH"]}
{"id": "C51", "title": "Projection matrices", "statement": "XMMatrixPerspective*/Orthographic* (LH/RH, Fov, OffCenter) map the corners of the view volume to the clip cube (x,y in +-1, z 0 at near and 1 at far) and interior points to its interior; every build.", "quantifier": "all valid parameters and all points of the view volume, every build", "why_tests_cant": "holds for all frusta, not samples", "anchors": ["src/matrix.rs:XMMatrixPerspectiveLH", "src/matrix.rs:XMMatrixPerspectiveFovLH", "src/matrix.rs:XMMatrixPerspectiveOffCenterLH", "src/matrix.rs:XMMatrixOrthographicLH"]}
{"id": "C52", "title": "Decompose inverts composition", "statement": "XMMatrixDecompose(S*R*T) with scale factors of magnitude above the threshold and rotation R succeeds and returns scale, rotation, translation that recompose to the input, also when one or two scale factors are (near) zero, as its degenerate branch intends; every build.", "quantifier": "all scale/rotation/translation, every build", "why_tests_cant": "axis-ranking branches, degenerate branches", "anchors": ["src/matrix.rs:XMMatrixDecompose"]}
{"id": "C53", "title": "Matrix operators agree with the functions", "statement": "On XMMatrix, +,-,*,/ by scalar, unary -, and the assigning forms +=,-=,*=,/= compute entry-wise sum/difference/scale and matrix product, with a op= b equivalent to a = a op b.", "quantifier": "all matrices and scalars, every build", "why_tests_cant": "row-wise assignment over all matrices", "anchors": ["src/matrix.rs:impl AddAssign for XMMatrix", "src/matrix.rs:impl SubAssign for XMMatrix", "src/matrix.rs:impl MulAssign for XMMatrix"]}
{"id": "C54", "title": "XMVector operator overloads agree with the functions", "statement": "On XMVector, +,-,*,/, scalar variants, unary - and the assigning forms act lane-wise and a op= b is a = a op b.", "quantifier": "all vectors and scalars, every build", "why_tests_cant": "all inputs", "anchors": ["src/vector.rs:impl Add for XMVector", "src/vector.rs:impl AddAssign for XMVector"]}
{"id": "C55", "title": "Quaternion multiplication is the Hamilton product with swapped arguments", "statement": "XMQuaternionMultiply(Q1,Q2) equals the Hamilton product Q2*Q1; hence associative, norm-multiplicative, with identity XMQuaternionIdentity; every build.", "quantifier": "all real quaternions, every build", "why_tests_cant": "sign/shuffle pattern for all inputs", "anchors": ["src/misc.rs:XMQuaternionMultiply", "src/misc.rs:XMQuaternionIdentity"]}
{"id": "C56", "title": "Quaternion conjugate and inverse", "statement": "XMQuaternionConjugate negates the vector part; XMQuaternionInverse(Q)*Q = identity when |Q|^2 exceeds the epsilon threshold and is zero otherwise; every build.", "quantifier": "all real quaternions, every build", "why_tests_cant": "threshold split", "anchors": ["src/misc.rs:XMQuaternionConjugate", "src/misc.rs:XMQuaternionInverse"]}
{"id": "C57", "title": "Slerp endpoints and unit norm", "statement": "XMQuaternionSlerp(Q0,Q1,t) of unit quaternions takes the value Q0 at t=0 and +-Q1 at t=1 (the sign of the shorter arc) and, with exact sine/arctangent, is a unit quaternion at constant angle t*Omega from Q0; every build.", "quantifier": "all unit quaternion pairs and t, every build", "why_tests_cant": "shorter-arc sign, near-parallel fallback", "anchors": ["src/misc.rs:XMQuaternionSlerp", "src/misc.rs:XMQuaternionSlerpV"]}
{"id": "C58", "title": "Quaternion exponential and logarithm", "statement": "With exact sine/cosine, XMQuaternionExp of a pure quaternion is a unit quaternion (cos t, sin t * axis); XMQuaternionLn inverts it for angles in (0,pi); near-zero and near-one special cases are continuous to first order; every build.", "quantifier": "all pure quaternions, every build", "why_tests_cant": "transcendental identity", "anchors": ["src/misc.rs:XMQuaternionExp", "src/misc.rs:XMQuaternionLn"]}
{"id": "C59", "title": "Axis-angle quaternions", "statement": "XMQuaternionRotationNormal(n,a), n unit, is the unit quaternion (n sin(a/2), cos(a/2)), RotationAxis normalizes first, and its matrix equals XMMatrixRotationNormal(n,a); ToAxisAngle recovers the axis and 2*acos(w); every build.", "quantifier": "all unit axes and angles, every build", "why_tests_cant": "half-angle identities", "anchors": ["src/misc.rs:XMQuaternionRotationNormal", "src/misc.rs:XMQuaternionRotationAxis", "src/misc.rs:XMQuaternionToAxisAngle", "src/matrix.rs:XMMatrixRotationNormal"]}
{"id": "C60", "title": "Squad and barycentric quaternion interpolation endpoints", "statement": "XMQuaternionSquad at t=0 gives Q0 and at t=1 gives Q3 up to sign; XMQuaternionBaryCentric(f,g) with f+g near 0 returns Q0, and at (1,0)/(0,1) returns Q1/Q2 up to sign; every build.", "quantifier": "all unit quaternions, every build", "why_tests_cant": "nested slerps", "anchors": ["src/misc.rs:XMQuaternionSquad", "src/misc.rs:XMQuaternionBaryCentric", "src/misc.rs:XMQuaternionBaryCentricV"]}
{"id": "C61", "title": "Plane evaluation and normalization", "statement": "XMPlaneDot/DotCoord/DotNormal evaluate the plane on (x,y,z,w)/(x,y,z,1)/(x,y,z); XMPlaneNormalize rescales to a unit normal preserving the zero set and the sign of every point; every build agrees (non-degenerate planes).", "quantifier": "all planes and points, every build", "why_tests_cant": "all inputs", "anchors": ["src/misc.rs:XMPlaneDot", "src/misc.rs:XMPlaneDotCoord", "src/misc.rs:XMPlaneNormalize"]}
{"id": "C62", "title": "Plane construction", "statement": "XMPlaneFromPointNormal contains the point and has the given normal; XMPlaneFromPoints contains all three points with a unit normal (non-collinear points); every build.", "quantifier": "all points, every build", "why_tests_cant": "all inputs", "anchors": ["src/misc.rs:XMPlaneFromPointNormal", "src/misc.rs:XMPlaneFromPoints"]}
{"id": "C63", "title": "Plane intersections", "statement": "XMPlaneIntersectLine returns the point of the line lying on the plane, or QNaN exactly when |N.(P1-P2)| <= epsilon; XMPlaneIntersectPlane returns two distinct points on both planes, or QNaN when the normals are (nearly) parallel; every build.", "quantifier": "all planes and lines, every build", "why_tests_cant": "case split and algebraic law", "anchors": ["src/misc.rs:XMPlaneIntersectLine", "src/misc.rs:XMPlaneIntersectPlane"]}
{"id": "C64", "title": "Plane transformation", "statement": "XMPlaneTransform(P, inverse-transpose of M) contains M-transformed points exactly when P contains the originals: transformed plane dot transformed point = plane dot point; every build.", "quantifier": "all planes, points, invertible matrices", "why_tests_cant": "algebraic law", "anchors": ["src/misc.rs:XMPlaneTransform"]}
{"id": "C65", "title": "Fresnel term", "statement": "XMFresnelTerm(c,n) lies in [0,1] and equals the unpolarized Fresnel reflectance formula clamped to [0,1] (exact arithmetic, non-degenerate denominators); every build.", "quantifier": "all cosines and indices, every build", "why_tests_cant": "range over all inputs", "anchors": ["src/misc.rs:XMFresnelTerm"]}
{"id": "C66", "title": "Scalar trigonometry accuracy", "statement": "In exact arithmetic with the literal f32 coefficients, XMScalarSin/Cos/SinCos are within 3e-7+2.9e-8|x| of sin/cos (the Est versions within 4e-6 / 2.1e-5 plus the same drift) for every |x| <= 1e8, XMScalarASin/ACos within 3.5e-7 / 3e-7 (Est 1.04e-4) on all of [-1,1], and SinCos agrees with Sin and Cos bit for bit.", "quantifier": "all reals |x| <= 1e8 (trig), all of [-1,1] (arc); all bit patterns for the agreement", "why_tests_cant": "error bound over a continuum", "anchors": ["src/misc.rs:XMScalarSin", "src/misc.rs:XMScalarCos", "src/misc.rs:XMScalarSinCos", "src/misc.rs:XMScalarACos"]}
{"id": "C67", "title": "Vector trigonometry accuracy", "statement": "In exact arithmetic with the literal coefficients, XMVectorSin/Cos/SinCos (+Est) are within a stated absolute error of the true functions on every lane for |x| <= 1e7, ASin/ACos(+Est) on [-1,1], ATan(+Est) on all reals, ATan2 on all pairs of reals including both axes and the origin; SinCos agrees with Sin and Cos; every build.", "quantifier": "all lanes, all real arguments in the stated ranges, every build", "why_tests_cant": "error bound over a continuum", "anchors": ["src/vector.rs:XMVectorSin", "src/vector.rs:XMVectorCos", "src/vector.rs:XMVectorSinCos", "src/vector.rs:XMVectorASin", "src/vector.rs:XMVectorACos", "src/vector.rs:XMVectorATan", "src/vector.rs:XMVectorATan2"]}
{"id": "C68", "title": "Scalar near-equality", "statement": "XMScalarNearEqual(a,b,eps) is |a-b| <= eps in f32, symmetric in a,b, false if any NaN.", "quantifier": "all float triples", "why_tests_cant": "all bit patterns", "anchors": ["src/misc.rs:XMScalarNearEqual"]}
{"id": "C69", "title": "Sphere-point containment is exact", "statement": "BoundingSphere::ContainsPoint is CONTAINS iff |p-c|^2 <= r^2 (never INTERSECTS); every build.", "quantifier": "all spheres with r>=0 and points, every build", "why_tests_cant": "all inputs", "anchors": ["src/collision.rs:BoundingSphere::ContainsPoint"]}
{"id": "C70", "title": "Sphere-sphere tests", "statement": "BoundingSphere::IntersectsSphere is true iff the closed balls share a point, and is symmetric; ContainsSphere is CONTAINS iff the second ball is a subset, DISJOINT iff no common point, else INTERSECTS; every build.", "quantifier": "all spheres, every build", "why_tests_cant": "set inclusion over all points", "anchors": ["src/collision.rs:BoundingSphere::IntersectsSphere", "src/collision.rs:BoundingSphere::ContainsSphere"]}
{"id": "C71", "title": "Merged sphere contains both", "statement": "BoundingSphere::CreateMerged contains every point of both spheres, and is the smallest such sphere; every build.", "quantifier": "all sphere pairs, every build", "why_tests_cant": "inclusion over all points", "anchors": ["src/collision.rs:BoundingSphere::CreateMerged"]}
{"id": "C72", "title": "Sphere from points contains every point", "statement": "BoundingSphere::CreateFromPoints(points) (non-empty list) contains every listed point; every build.", "quantifier": "every finite list of points of any length and order", "why_tests_cant": "unbounded list; growth loop invariant", "anchors": ["src/collision.rs:BoundingSphere::CreateFromPoints"]}
{"id": "C73", "title": "Box from points is the tight box", "statement": "BoundingBox::CreateFromPoints(points) contains every listed point and is contained in every axis-aligned box that contains them; independent of the order of the points; every build.", "quantifier": "every non-empty finite list of points", "why_tests_cant": "unbounded list, order independence", "anchors": ["src/collision.rs:BoundingBox::CreateFromPoints"]}
{"id": "C74", "title": "Merged box contains both", "statement": "BoundingBox::CreateMerged contains both boxes and is contained in every box containing both; commutative, idempotent; every build.", "quantifier": "all box pairs", "why_tests_cant": "lattice laws over all boxes", "anchors": ["src/collision.rs:BoundingBox::CreateMerged"]}
{"id": "C75", "title": "Box-point, box-box tests are exact", "statement": "BoundingBox::ContainsPoint is exact; IntersectsBox is true iff the boxes share a point and is symmetric; ContainsBox is CONTAINS iff subset, DISJOINT iff no common point, INTERSECTS otherwise; every build.", "quantifier": "all boxes with non-negative extents", "why_tests_cant": "set semantics over all points", "anchors": ["src/collision.rs:BoundingBox::ContainsPoint", "src/collision.rs:BoundingBox::IntersectsBox", "src/collision.rs:BoundingBox::ContainsBox"]}
{"id": "C76", "title": "Box-sphere tests are exact", "statement": "BoundingBox::IntersectsSphere (and BoundingSphere::IntersectsBox) is true iff the sphere and box share a point; ContainsSphere CONTAINS implies the sphere is inside the box, DISJOINT iff no common point; BoundingSphere::ContainsBox CONTAINS iff every corner (hence every point) of the box is inside; every build.", "quantifier": "all spheres/boxes", "why_tests_cant": "set semantics", "anchors": ["src/collision.rs:BoundingBox::IntersectsSphere", "src/collision.rs:BoundingBox::ContainsSphere", "src/collision.rs:BoundingSphere::ContainsBox"]}
{"id": "C77", "title": "Sphere from box, box from sphere", "statement": "BoundingSphere::CreateFromBoundingBox/OrientedBox contains the box; BoundingBox::CreateFromSphere is the tight box around the sphere; every build.", "quantifier": "all boxes and spheres", "why_tests_cant": "inclusion over all points", "anchors": ["src/collision.rs:BoundingSphere::CreateFromBoundingBox", "src/collision.rs:BoundingBox::CreateFromSphere"]}
{"id": "C78", "title": "Ray-sphere intersection", "statement": "BoundingSphere::IntersectsRay (unit direction) is true iff the ray meets the ball, and Dist is the distance of the first boundary point (exit point if the origin is inside); 0 and false otherwise; every build.", "quantifier": "all rays and spheres", "why_tests_cant": "geometric law", "anchors": ["src/collision.rs:BoundingSphere::IntersectsRay"]}
{"id": "C79", "title": "Ray-box intersection", "statement": "BoundingBox::IntersectsRay is true iff some point Origin+t*Direction, t>=0, lies in the box; when true the reported Dist is the entry parameter; every build.", "quantifier": "all rays and boxes (direction components exactly zero or above the parallel threshold)", "why_tests_cant": "slab case split", "anchors": ["src/collision.rs:BoundingBox::IntersectsRay"]}
{"id": "C80", "title": "Ray-triangle intersection", "statement": "triangle_tests::IntersectsRay returns true only if Origin+Dist*Direction with Dist>=0 is a point of the triangle, and returns true whenever the ray hits the triangle with |det| at or above the threshold; every build.", "quantifier": "all rays and triangles", "why_tests_cant": "geometric law", "anchors": ["src/collision.rs:triangle_tests::IntersectsRay"]}
{"id": "C81", "title": "Plane classification of volumes", "statement": "IntersectsPlane for sphere, box, oriented box, frustum and triangle returns FRONT iff the whole volume is strictly in front (plane value > 0) of the unit plane, BACK iff strictly behind, INTERSECTING otherwise; every build.", "quantifier": "all volumes and unit planes", "why_tests_cant": "quantifies over all points of the volume", "anchors": ["src/collision.rs:BoundingSphere::IntersectsPlane", "src/collision.rs:BoundingBox::IntersectsPlane", "src/collision.rs:BoundingOrientedBox::IntersectsPlane", "src/collision.rs:BoundingFrustum::IntersectsPlane", "src/collision.rs:triangle_tests::IntersectsPlane"]}
{"id": "C82", "title": "ContainedBy six planes", "statement": "ContainedBy for sphere, box, oriented box, frustum and triangle returns DISJOINT iff the volume is entirely in front of some plane and CONTAINS iff entirely behind all six, INTERSECTS otherwise; every build.", "quantifier": "all volumes and plane sextuples", "why_tests_cant": "all points of the volume", "anchors": ["src/collision.rs:BoundingSphere::ContainedBy", "src/collision.rs:BoundingBox::ContainedBy", "src/collision.rs:BoundingOrientedBox::ContainedBy", "src/collision.rs:BoundingFrustum::ContainedBy", "src/collision.rs:triangle_tests::ContainedBy"]}
{"id": "C83", "title": "Box-triangle test never misses", "statement": "BoundingBox::IntersectsTriangle returns true whenever the triangle and box share a point; ContainsTriangle CONTAINS iff all of the triangle is inside; oriented box likewise; every build.", "quantifier": "all boxes and non-degenerate triangles", "why_tests_cant": "separating-axis logic over 13 axes", "anchors": ["src/collision.rs:BoundingBox::IntersectsTriangle", "src/collision.rs:BoundingBox::ContainsTriangle", "src/collision.rs:BoundingOrientedBox::IntersectsTriangle"]}
{"id": "C84", "title": "Oriented-box intersection never misses and is symmetric", "statement": "BoundingOrientedBox::IntersectsOrientedBox returns true whenever the two boxes share a point and false only if they do not; the answer is symmetric in the boxes; every build.", "quantifier": "all oriented boxes with unit orientation", "why_tests_cant": "15 separating axes", "anchors": ["src/collision.rs:BoundingOrientedBox::IntersectsOrientedBox"]}
{"id": "C85", "title": "Oriented-box containment", "statement": "BoundingOrientedBox::ContainsPoint is exact (point in the rotated box); ContainsOrientedBox CONTAINS iff every point of the other box is inside; ContainsSphere/IntersectsSphere exact; GetCorners returns points of the box whose hull it is; every build.", "quantifier": "all oriented boxes with unit orientation", "why_tests_cant": "set semantics", "anchors": ["src/collision.rs:BoundingOrientedBox::ContainsPoint", "src/collision.rs:BoundingOrientedBox::ContainsOrientedBox", "src/collision.rs:BoundingOrientedBox::GetCorners"]}
{"id": "C86", "title": "Oriented box from points contains every point", "statement": "BoundingOrientedBox::CreateFromPoints(points) contains every listed point; every build.", "quantifier": "every non-empty finite list of points", "why_tests_cant": "unbounded lists; depends on the eigenbasis", "anchors": ["src/collision.rs:BoundingOrientedBox::CreateFromPoints"]}
{"id": "C87", "title": "Transforming volumes", "statement": "BoundingBox::Transform contains the image of every point of the box; BoundingSphere::Transform under rotation/uniform scale/translation maps members to members; oriented box and frustum transforms by scale+rotation+translation commute with membership; every build.", "quantifier": "all volumes, transforms, points", "why_tests_cant": "inclusion over all points", "anchors": ["src/collision.rs:BoundingBox::TransformMatrix", "src/collision.rs:BoundingSphere::TransformMatrix", "src/collision.rs:BoundingOrientedBox::TransformDecomposed", "src/collision.rs:BoundingFrustum::TransformDecomposed"]}
{"id": "C88", "title": "Sphere-triangle test is exact", "statement": "BoundingSphere::IntersectsTriangle is true iff some point of the (non-degenerate) triangle is within the radius; ContainsTriangle CONTAINS iff all points are; every build.", "quantifier": "all spheres and triangles", "why_tests_cant": "nearest-feature case analysis", "anchors": ["src/collision.rs:BoundingSphere::IntersectsTriangle", "src/collision.rs:BoundingSphere::ContainsTriangle"]}
{"id": "C89", "title": "Triangle-triangle test", "statement": "triangle_tests::IntersectsTriangle(A,B) is true iff the two non-degenerate triangles share a point; symmetric in A and B; every build.", "quantifier": "all pairs of non-degenerate triangles", "why_tests_cant": "many sign cases", "anchors": ["src/collision.rs:triangle_tests::IntersectsTriangle"]}
{"id": "C90", "title": "Frustum point containment and planes", "statement": "BoundingFrustum::ContainsPoint is exact for the frustum's six half-spaces; GetPlanes returns unit planes with the same half-spaces; GetCorners are the extreme points; CreateFromMatrix of a perspective matrix recovers its slopes and near/far; every build.", "quantifier": "all frusta with unit orientation, all points", "why_tests_cant": "set semantics", "anchors": ["src/collision.rs:BoundingFrustum::ContainsPoint", "src/collision.rs:BoundingFrustum::GetPlanes", "src/collision.rs:BoundingFrustum::GetCorners", "src/collision.rs:BoundingFrustum::CreateFromMatrix"]}
{"id": "C91", "title": "Frustum intersection tests never miss", "statement": "BoundingFrustum::IntersectsSphere/OrientedBox/Box/Frustum/Triangle return true whenever the two volumes share a point (no false negatives), for every origin and orientation; every build.", "quantifier": "all frusta and volumes", "why_tests_cant": "separating-axis logic for all placements", "anchors": ["src/collision.rs:BoundingFrustum::IntersectsSphere", "src/collision.rs:BoundingFrustum::IntersectsOrientedBox", "src/collision.rs:BoundingFrustum::IntersectsFrustum", "src/collision.rs:BoundingFrustum::IntersectsTriangle"]}
{"id": "C92", "title": "Frustum ray intersection", "statement": "BoundingFrustum::IntersectsRay is true iff the ray meets the frustum, with Dist 0 from inside and otherwise the first entry parameter; every build.", "quantifier": "all frusta and rays", "why_tests_cant": "plane-by-plane clipping loop", "anchors": ["src/collision.rs:BoundingFrustum::IntersectsRay"]}
{"id": "C93", "title": "f32 accuracy of dot and cross products", "statement": "In every build, for finite inputs, XMVector2/3/4Dot, LengthSq, XMVector2Cross and XMVector3Cross computed in binary32 are finite and differ from the exact real value by at most gam(k) (about k*2^-24, k = number of successive roundings) times the sum of the magnitudes of the products (plus a subnormal-range term), as long as that sum is at most 2^127.", "quantifier": "all finite f32 vectors, all builds (association order and FMA use differ)", "why_tests_cant": "2^128 to 2^256 input patterns and five different summation orders", "anchors": ["src/vector.rs:XMVector3Dot", "src/vector.rs:XMVector4Dot", "src/vector.rs:XMVector3Cross"]}
{"id": "C94", "title": "f32 accuracy of transforms, matrix and quaternion products", "statement": "In every build, for finite inputs, every component of XMVector2/3/4Transform, TransformNormal, XMMatrixMultiply and XMQuaternionMultiply computed in binary32 is within gam(k) times the sum of the magnitudes of its terms of the exact value, as long as that sum is at most 2^127.", "quantifier": "all finite f32 vectors, matrices, quaternions, all builds", "why_tests_cant": "unbounded inputs; SSE, AVX2 and FMA code paths round differently", "anchors": ["src/vector.rs:XMVector4Transform", "src/matrix.rs:XMMatrixMultiply", "src/misc.rs:XMQuaternionMultiply"]}
{"id": "C95", "title": "f32 accuracy of length and normalization", "statement": "In every build, for finite inputs whose exact squared length is between 2^-100 and 2^126, Length and ReciprocalLength have small relative error (n+2 resp. 2n+6 roundings for n components), every component of Normalize is within 2n+7 roundings of the exact component, and the normalized vector is finite and has length 1 up to gam(2n+8).", "quantifier": "all finite f32 vectors of 2, 3 or 4 components in that range, all builds", "why_tests_cant": "unbounded inputs; the builds divide in different ways (v/len against v*(1/len))", "anchors": ["src/vector.rs:XMVector3Length", "src/vector.rs:XMVector3ReciprocalLength", "src/vector.rs:XMVector3Normalize", "src/misc.rs:XMQuaternionNormalize"]}
{"id": "C96", "title": "Robustness of axis-aligned box tests in f32", "statement": "For boxes and points with finite f32 components, in every build: a point exactly inside the box is reported CONTAINS whatever the roundings (overflow included), and a point reported CONTAINS lies in the box with extents enlarged by a relative 2^-24; two boxes that share a point are reported intersecting, and boxes reported intersecting meet once each is inflated by 2^-24 times their coordinate magnitude; the same one-sided guarantees hold for box containment.", "quantifier": "all finite f32 boxes and points, all builds", "why_tests_cant": "holds for every finite operand, at every rounding and overflow boundary", "anchors": ["src/collision.rs:BoundingBox::ContainsPoint", "src/collision.rs:BoundingBox::IntersectsBox", "src/collision.rs:BoundingBox::ContainsBox"]}
{"id": "C97", "title": "Boxes built from points or by merging, in f32", "statement": "For finite f32 points of magnitude at most R, every input point lies in the box built by CreateFromPoints once it is inflated by a few 2^-24 of R; the same for both operands of CreateMerged. Exact enclosure does not hold: two points exist whose box excludes one of them, in every build.", "quantifier": "all finite lists of finite f32 points and pairs of boxes, all builds", "why_tests_cant": "unbounded lists and operands; the failure needs points of very different magnitude", "anchors": ["src/collision.rs:BoundingBox::CreateFromPoints", "src/collision.rs:BoundingBox::CreateMerged"]}
{"id": "C98", "title": "Robustness of sphere tests and plane classification in f32", "statement": "For finite f32 data of moderate size, in every build: a point at most (1-2^-21) radii from the center is reported CONTAINS and a point reported CONTAINS is at most (1+2^-21) radii away; sphere-sphere intersection is right up to the same relative change of the radii; spheres and boxes are classified FRONT/BACK of a plane as the exact signed distance says whenever it differs from the radius by more than the stated rounding error, and a FRONT/BACK answer is right up to that error.", "quantifier": "all finite f32 spheres, boxes, points and planes in the stated range, all builds", "why_tests_cant": "unbounded operands; each build rounds differently", "anchors": ["src/collision.rs:BoundingSphere::ContainsPoint", "src/collision.rs:BoundingSphere::IntersectsSphere", "src/collision.rs:BoundingSphere::IntersectsPlane", "src/collision.rs:BoundingBox::IntersectsPlane"]}
{"id": "C99", "title": "Accuracy of the vector exponential", "statement": "In SSE builds every lane of XMVectorExp2 (and XMVectorExp) is 2 to the power of the lane: within 2^-20 relative for 0 <= x < 128, within 2^-15 relative for -126 <= x < 0, and within that plus half the smallest subnormal down to -150; +infinity for x >= 128 and for +infinity; +0 for x <= -150 and for -infinity; NaN for NaN.", "quantifier": "all f32 lanes, all SSE builds with and without FMA", "why_tests_cant": "2^32 inputs per lane and a real-valued specification; the error of the polynomial, of its evaluation and of the final division must be bounded together", "anchors": ["src/vector.rs:XMVectorExp2", "src/vector.rs:XMVectorExp", "src/globals.rs:g_XMExpEst1..g_XMExpEst7"]}
{"id": "C100", "title": "Accuracy of the hyperbolic functions", "statement": "In SSE builds XMVectorCosH is within 2^-14 relative of cosh for |x| <= 89 and +infinity for |x| >= 90; XMVectorSinH is within 2^-14 cosh x of sinh x for |x| <= 89 and the infinity of the sign of x for |x| >= 90; XMVectorTanH is within 2^-16 of tanh x for every finite x and is +1, -1 at the infinities.", "quantifier": "all finite f32 lanes, all SSE builds with and without FMA", "why_tests_cant": "2^32 inputs per lane and a real-valued specification; includes arguments whose scaled exponent overflows", "anchors": ["src/vector.rs:XMVectorSinH", "src/vector.rs:XMVectorCosH", "src/vector.rs:XMVectorTanH"]}
{"id": "C101", "title": "Angles between vectors and normals", "statement": "For unit u, v XMVector2/3/4AngleBetweenNormals returns the angle arccos(u.v) within 3e-7 (and AngleBetweenNormalsEst within 1.04e-4); for nonzero u, v XMVector2/3/4AngleBetweenVectors returns arccos(u.v/(|u||v|)) within 3e-7; the result is replicated to all lanes.", "quantifier": "all pairs of real unit vectors / nonzero vectors of dimension 2, 3, 4; all build configurations", "why_tests_cant": "continuum of vector pairs; the polynomial arccosine and the reciprocal length must be composed for every pair, including parallel and opposite ones", "anchors": ["src/vector.rs:XMVector2AngleBetweenNormals", "src/vector.rs:XMVector2AngleBetweenVectors", "src/vector.rs:XMVector3AngleBetweenNormals", "src/vector.rs:XMVector3AngleBetweenVectors", "src/vector.rs:XMVector4AngleBetweenNormals", "src/vector.rs:XMVector4AngleBetweenVectors"]}
{"id": "C102", "title": "Accuracy of the estimating functions", "statement": "If the approximate instructions rcpps and rsqrtps meet their documented relative error 1.5*2^-12, then XMVectorReciprocalEst, XMVectorReciprocalSqrtEst, XMVector2/3/4ReciprocalLengthEst, XMVector2/3/4NormalizeEst, XMQuaternionNormalizeEst and XMPlaneNormalizeEst are within 2^-11 relative of the exact result on f32 lanes (normalizing functions: plus 2^-126 for underflow). XMVectorSqrtEst and XMVector3/4LengthEst are bit for bit the exact functions.", "quantifier": "all finite f32 vectors whose squared length is between 2^-100 and 2^126, every function within the documented error for the two instructions, all build configurations", "why_tests_cant": "the approximate instructions differ between processors; a test sees one processor and finitely many vectors", "anchors": ["src/vector.rs:XMVectorReciprocalEst", "src/vector.rs:XMVectorReciprocalSqrtEst", "src/vector.rs:XMVector2ReciprocalLengthEst", "src/vector.rs:XMVector3ReciprocalLengthEst", "src/vector.rs:XMVector4ReciprocalLengthEst", "src/vector.rs:XMVector2NormalizeEst", "src/vector.rs:XMVector3NormalizeEst", "src/vector.rs:XMVector4NormalizeEst", "src/misc.rs:XMQuaternionNormalizeEst", "src/misc.rs:XMPlaneNormalizeEst"]}
{"id": "C103", "title": "Equality of quaternions, planes and matrices", "statement": "XMQuaternionEqual, XMPlaneEqual and == on matrices hold exactly when every component is IEEE-equal; the NotEqual forms are the negations; XMQuaternionIsIdentity holds exactly for components with values 0, 0, 0, 1 (either zero sign); equality is reflexive except on NaN. XMPlaneNearEqual compares the coefficients after dividing each plane by the length of its normal, and so does not depend on the positive scale of either plane.", "quantifier": "all f32 bit patterns (equality), all real planes with nonzero normal (near equality), all build configurations", "why_tests_cant": "2^256 operand pairs including NaN payloads, infinities and both zeros; a continuum of planes and scales", "anchors": ["src/misc.rs:XMQuaternionEqual", "src/misc.rs:XMQuaternionNotEqual", "src/misc.rs:XMQuaternionIsIdentity", "src/misc.rs:XMPlaneEqual", "src/misc.rs:XMPlaneNotEqual", "src/misc.rs:XMPlaneNearEqual", "src/matrix.rs:PartialEq for XMMatrix"]}
{"id": "C104", "title": "Unit-length assertions accept normalized values", "statement": "The checks that guard the collision functions (vector, plane and quaternion of unit length) accept every f32 value whose length is within 9.8e-5 of one and reject every one whose length differs by more than 1.02e-4; in particular the results of XMVector3Normalize, XMQuaternionNormalize and XMPlaneNormalize pass them. XMPlaneNormalize divides all four coefficients by the length of the normal within 13 roundings.", "quantifier": "all finite f32 vectors whose squared length is between 2^-100 and 2^126, all build configurations", "why_tests_cant": "the margin between the rounding error of normalize + length and the tolerance must hold for every input and every instruction order", "anchors": ["src/collision.rs:internal::XMVector3IsUnit", "src/collision.rs:internal::XMQuaternionIsUnit", "src/collision.rs:internal::XMPlaneIsUnit", "src/misc.rs:XMPlaneNormalize"]}
{"id": "C105", "title": "Remainder and angle unit conversion in f32", "statement": "XMVectorMod(x,y) is x - n*y within two roundings of |x|+|n*y|, where the integer n has the sign of x/y, |n| <= (1+2^-22)|x/y| and |x/y| < |n|+1: the truncated quotient up to one rounding. XMConvertToRadians and XMConvertToDegrees are within relative error 2^-22 (plus underflow) of multiplication by pi/180 and 180/pi.", "quantifier": "all finite f32 x, y with y nonzero and |x/y| <= 2^22; all finite f32 angles below 2^120; all build configurations", "why_tests_cant": "2^64 operand pairs per lane; the off-by-one quotient occurs on rare pairs", "anchors": ["src/vector.rs:XMVectorMod", "src/lib.rs:XMConvertToRadians", "src/lib.rs:XMConvertToDegrees"]}
{"id": "C106", "title": "An oriented box made from an axis-aligned box is the same point set", "statement": "BoundingOrientedBox::CreateFromBoundingBox returns a box with unit orientation whose points are exactly the points of the axis-aligned box.", "quantifier": "all centers and extents", "why_tests_cant": "set equality over a continuum of points and boxes", "anchors": ["src/collision.rs:BoundingOrientedBox::CreateFromBoundingBox"]}
{"id": "C107", "title": "Vector tangent is the tangent of a nearby angle", "statement": "Every lane of XMVectorTan(x) is tan(y) for some y within 9e-8*|x| of x, so its error is at most 1e-7*|x|/cos(x)^2: the argument reduction and the rational approximation together disturb the angle by less than one part in ten million.", "quantifier": "all real x with |x| <= 10^4 not within 1e-6*|x| (relative) of a pole, all four lanes independently, all build configurations (exact arithmetic on the code's own constants)", "why_tests_cant": "a continuum of angles and thousands of quadrants; the polynomial's error must be bounded everywhere between samples", "anchors": ["src/vector.rs:XMVectorTan", "src/globals.rs:g_XMTanCoefficients0", "src/globals.rs:g_XMTanConstants"]}
{"id": "C108", "title": "Squad control points", "statement": "XMQuaternionSquadSetup(Q0,Q1,Q2,Q3) returns A = q1*exp(-(ln(q1^-1 q2') + ln(q1^-1 q0'))/4), B likewise for q2, and C = q2' (Shoemake's control points, with the neighbours' signs chosen along the shorter arcs), within 5e-6 per component; and XMQuaternionLn is within 2e-6 of the logarithm when the rotation angle is at most 180 degrees.", "quantifier": "all quadruples of unit quaternions and (as the property is stated) all build configurations; proved with intrinsics, and refuted without them", "why_tests_cant": "a continuum of quadruples of rotations; the signs depend on which of two sums is longer", "anchors": ["src/misc.rs:XMQuaternionSquadSetup", "src/misc.rs:XMQuaternionLn", "src/misc.rs:XMQuaternionExp"]}
{"id": "C109", "title": "The vector form of barycentric quaternion interpolation agrees with the scalar form", "statement": "XMQuaternionBaryCentricV(Q0,Q1,Q2,F,G) with F and G replicated equals XMQuaternionBaryCentric(Q0,Q1,Q2,f,g).", "quantifier": "all quaternions and all weights f, g with |f+g| outside [1e-5, 2^-16] (where the two forms use different thresholds), all build configurations; proved with intrinsics, and refuted without them", "why_tests_cant": "a continuum of quaternions and weights", "anchors": ["src/misc.rs:XMQuaternionBaryCentricV", "src/misc.rs:XMQuaternionBaryCentric", "src/lib.rs:XMVectorSplatConstant"]}
{"id": "C110", "title": "Sine and cosine accuracy on real 32-bit floats", "statement": "On binary32 lanes, with every operation rounded as IEEE 754 prescribes, XMScalarSin and XMVectorSin return a finite number within 1.2e-6 + 9e-8*|x| of sin(x), XMScalarCos and XMVectorCos within 1.4e-6 + 9e-8*|x| of cos(x); the Est forms within 4.7e-6 (sine) and 2.14e-5 (cosine) plus the same term; the combined SinCos forms meet the same bounds. The result is never NaN or infinite for |x| <= 10^6.", "quantifier": "all finite binary32 x with |x| <= 10^6; scalar forms in every build configuration, vector forms in every build with intrinsics, with and without fused multiply-add", "why_tests_cant": "every one of the two billion arguments passes through a different chain of roundings; a sample misses the worst case", "anchors": ["src/misc.rs:XMScalarSin", "src/misc.rs:XMScalarCos", "src/misc.rs:XMScalarSinCos", "src/vector.rs:XMVectorSin", "src/vector.rs:XMVectorCos", "src/vector.rs:XMVectorSinCos", "src/vector.rs:XMVectorSinEst", "src/vector.rs:XMVectorCosEst"]}
{"id": "C111", "title": "Arc sine and arc cosine accuracy on real 32-bit floats", "statement": "On binary32 lanes with IEEE rounding, for |x| <= 1 XMScalarACos, XMScalarASin and XMVectorACos are within 1.1e-6 of the true value, XMVectorASin within 1.3e-6, the Est forms within 1.05e-4; none returns NaN, including at and next to -1 and 1.", "quantifier": "all binary32 x in [-1, 1]; scalar forms in every build configuration, vector forms in every build with intrinsics", "why_tests_cant": "the square root near 1 amplifies rounding, so the bound must be argued for all of the two billion arguments", "anchors": ["src/misc.rs:XMScalarASin", "src/misc.rs:XMScalarACos", "src/misc.rs:XMScalarASinEst", "src/misc.rs:XMScalarACosEst", "src/vector.rs:XMVectorASin", "src/vector.rs:XMVectorACos", "src/vector.rs:XMVectorASinEst", "src/vector.rs:XMVectorACosEst"]}
{"id": "C112", "title": "Arctangent accuracy on real 32-bit floats, infinities and signed zeros included", "statement": "On binary32 lanes with IEEE rounding, XMVectorATan is within 9.8e-7 of the arctangent and XMVectorATanEst within 1.346e-4, with +-pi/2 at the infinities; XMVectorATan2(y,x) is within 1.32e-6 of the angle of the point (x,y) as IEEE 754 defines atan2: in the right quadrant, +-pi and +-0 by the sign of a zero y, +-pi/4 and +-3pi/4 when both are infinite. The result is always finite.", "quantifier": "all binary32 arguments and pairs that are not NaN, infinities, zeros of both signs, subnormals and overflowing quotients included; every build with intrinsics", "why_tests_cant": "2^64 pairs; the quotient may overflow, underflow or round at every step", "anchors": ["src/vector.rs:XMVectorATan", "src/vector.rs:XMVectorATanEst", "src/vector.rs:XMVectorATan2"]}
{"id": "C113", "title": "A NaN argument gives a NaN result", "statement": "The scalar and vector sine, cosine, tangent, arc sine, arc cosine, arctangent, two-argument arctangent, exponential and hyperbolic functions and their Est forms return NaN in every lane where an argument is NaN, so an invalid value is never turned into a plausible angle.", "quantifier": "all NaN bit patterns, every lane independently; scalar forms in every build configuration, vector forms in every build with intrinsics", "why_tests_cant": "16 million NaN patterns and branch selections by comparisons that are all false on NaN", "anchors": ["src/misc.rs:XMScalarSin", "src/misc.rs:XMScalarACos", "src/vector.rs:XMVectorSin", "src/vector.rs:XMVectorTan", "src/vector.rs:XMVectorATan2", "src/vector.rs:XMVectorExp2"]}
{"id": "C114", "title": "Every form of lane access agrees, float or integer, by name, by index or by reference", "statement": "The float getters, the integer getters, the by-index getters and the getters that store through a reference all return the bits of the lane they name; the float and integer setters change exactly the lane they name; after any history of mixed float and integer writes every form of read returns the last value written to its lane; an index above 3 panics. XMVectorSet, XMVectorSetInt, XMVectorReplicate, XMVectorReplicateInt, XMVectorReplicatePtr and XMMatrixSet put each argument where its position says. XMMin and XMMax are the minimum and maximum of a linear order, and on floats return the second argument when either is a NaN. XMQuaternionDot, XMQuaternionLength and XMQuaternionReciprocalLength are the inner product, norm and inverse norm.", "quantifier": "all lane contents, all histories of writes of any length, all indices, all real quaternions, all floats, every build configuration", "why_tests_cant": "unbounded histories over 2^128 vector states and several builds", "anchors": ["src/vector.rs:XMVectorGetIntY", "src/vector.rs:XMVectorGetYPtr", "src/vector.rs:XMVectorSetIntW", "src/vector.rs:XMVectorSetInt", "src/vector.rs:XMVectorReplicateInt", "src/lib.rs:XMMin", "src/lib.rs:XMMax", "src/misc.rs:XMQuaternionDot", "src/misc.rs:XMQuaternionLength"]}
{"id": "C115", "title": "The angle between two vectors is computed accurately in binary32", "statement": "On binary32 lanes in the builds with intrinsics, the angle between two vectors of 2, 3 or 4 components whose squared lengths lie between 2^-100 and 2^100 is within 11e-7 of an angle whose cosine is within 21e-7 of the exact cosine, and within 0.0033 radians of the exact angle; it is never NaN, even when rounding pushes the computed cosine past 1. The angle between two normals (and its estimate form) is that of the exact dot product clamped to [-1, 1], up to the rounding error of the dot product and the error of the arccosine.", "quantifier": "all binary32 vectors in the stated range, both vectors independently, every build with intrinsics, with or without fused multiply-add", "why_tests_cant": "2^256 pairs of vectors; the worst case is near parallel vectors, where rounding decides whether the arccosine is defined", "anchors": ["src/vector.rs:XMVector2AngleBetweenVectors", "src/vector.rs:XMVector3AngleBetweenVectors", "src/vector.rs:XMVector4AngleBetweenVectors", "src/vector.rs:XMVector3AngleBetweenNormals", "src/vector.rs:XMVector3AngleBetweenNormalsEst", "src/vector.rs:XMVector4AngleBetweenNormalsEst"]}
{"id": "C116", "title": "The estimated tangent and two-argument arctangent stay within a stated error", "statement": "In the builds with intrinsics, for any approximate-reciprocal instruction of the documented precision: the estimated tangent of an angle of at most 1000 radians whose cosine is at least 1/100 in magnitude is finite and within 0.75% of the exact tangent of an angle that differs from the given one by at most 3e-7 relatively; the estimated two-argument arctangent is within 5.1e-4 radians of the exact angle, including the signed-zero and infinite-y conventions, for every y that is not NaN and every finite x that is zero or of normal magnitude.", "quantifier": "all binary32 angles in range, all y and x as stated, every approximate reciprocal within the documented error, every build with intrinsics", "why_tests_cant": "2^64 argument pairs, and the approximate instruction differs between processors: a test only sees one of them", "anchors": ["src/vector.rs:XMVectorTanEst", "src/vector.rs:XMVectorATan2Est"]}
{"id": "C117", "title": "Binary32 rotations stay within a stated distance of the exact rotation", "statement": "In single precision: the matrix and the quaternion of a rotation about a nearly unit axis, about any axis of moderate length, and about the coordinate axes are finite and, entry by entry, within a few units in 1e-6 plus a multiple of the angle times 1e-7 of the exact rotation; the fourth row and column are exactly (0,0,0,1), and in the X, Y and Z matrices the two sines are exactly opposite and the two cosines equal. The matrix of a quaternion with components up to 1.01 is within 2e-6 of the exact entries. Roll, pitch and yaw up to 1e4 radians give, in the builds with intrinsics, the quaternion and matrix of the three rotations composed in that order. Rotating a vector by a quaternion, or back, is within 8e-6 of the largest component of the vector from the exact q v q*.", "quantifier": "all finite binary32 axes, angles (up to 1e6 radians), quaternions and vectors in the stated ranges, every build (roll-pitch-yaw: every build with intrinsics)", "why_tests_cant": "Axes, angles and quaternions range over 2^128 and more bit patterns; the error bound is a statement about all of them and about every build's rounding order", "anchors": ["src/matrix.rs:XMMatrixRotationNormal", "src/matrix.rs:XMMatrixRotationAxis", "src/matrix.rs:XMMatrixRotationX", "src/matrix.rs:XMMatrixRotationQuaternion", "src/matrix.rs:XMMatrixRotationRollPitchYawFromVector", "src/misc.rs:XMQuaternionRotationNormal", "src/misc.rs:XMQuaternionRotationAxis", "src/misc.rs:XMQuaternionRotationRollPitchYawFromVector", "src/vector.rs:XMVector3Rotate", "src/vector.rs:XMVector3InverseRotate"]}
{"id": "C118", "title": "Binary32 determinants and inverses stay within a stated distance of the exact ones", "statement": "In single precision, for a matrix whose entries have magnitude at most B (2^-20 <= B <= 2^20): the determinant is finite and within 1.4e-5 B^4 of the exact determinant. If moreover the determinant is at least B^4/20000 in magnitude, every entry of the computed inverse is finite and within (K/B)(4e-6 + 1.2e-4 K) of the exact inverse's entry, where K = B^4/|det|, and the determinant returned beside the inverse is within 1.4e-5 B^4 in every lane.", "quantifier": "all 4x4 matrices of finite binary32 entries of magnitude at most B, every such B, every build (for the inverse: determinant at least B^4/20000)", "why_tests_cant": "Sixteen binary32 entries are 2^512 matrices, and the rounding order differs between builds; the bound must hold for all of them", "anchors": ["src/matrix.rs:XMMatrixDeterminant", "src/matrix.rs:XMMatrixInverse"]}
{"id": "C119", "title": "Binary32 interpolation stays within a stated distance of the exact curve, and linear interpolation is monotone", "statement": "In single precision every component of a linear or barycentric interpolation is the exact value up to the error of three or four successive roundings (measured against the sum of the magnitudes of its terms), and every component of a Hermite or Catmull-Rom curve with parameter in [-1, 1] and control points of magnitude at most B is within (up to 2^-126) 1.1e-5 B (per-component parameter: 1.7e-5 B), respectively 8e-6 B, of the exact curve. Linear interpolation is monotone in its parameter in spite of rounding, returns exactly the first endpoint at 0, and, going up, never falls below it; at parameter 1 it need not return the second endpoint: from 1 to 2^-30 it returns 0.", "quantifier": "all finite binary32 components and parameters (curves: parameter in [-1,1], any bound B <= 2^120 on the control points; monotonicity: |t| <= 1 and components of magnitude at most 2^125), every build", "why_tests_cant": "Every pair of parameters and every control point; monotonicity relates all pairs of the 2^32 parameters", "anchors": ["src/vector.rs:XMVectorLerp", "src/vector.rs:XMVectorLerpV", "src/vector.rs:XMVectorBaryCentric", "src/vector.rs:XMVectorBaryCentricV", "src/vector.rs:XMVectorHermite", "src/vector.rs:XMVectorHermiteV", "src/vector.rs:XMVectorCatmullRom", "src/vector.rs:XMVectorCatmullRomV"]}
{"id": "C120", "title": "Binary32 reflections, plane operations, projective points and the four-dimensional cross product stay within a stated distance of the exact ones", "statement": "In single precision: each component of a reflected vector, of a plane dot product, of a transformed plane, of the plane through a point with a normal (whose normal is copied exactly) and of the parts of a vector along and across a normal is the exact value up to the error of three to seven roundings of its terms. A transformed point after the division by w is within 3(e_x + |x/w| e_w)/|w| + 2^-24 |x/w| of the exact one, where e_x and e_w are the rounding bounds of the undivided components and 2 e_w <= |w|. The four-dimensional cross product of vectors of magnitude at most b is within 2e-6 b^3. The point at which a line meets a plane (normal components at most 1, points and offset at most b) is within 2e-5 b (1 + |t|) b/|den|, where t is the position along the line and den = n.(p - q), whenever |den| >= 2^-21 and |den| >= 3e-6 b.", "quantifier": "all finite binary32 inputs within the stated bounds, every build", "why_tests_cant": "Up to twenty binary32 numbers as input, four or more rounding orders across the builds; bounds must hold for all of them", "anchors": ["src/vector.rs:XMVector2Reflect", "src/vector.rs:XMVector3Reflect", "src/vector.rs:XMVector4Reflect", "src/vector.rs:XMVector2TransformCoord", "src/vector.rs:XMVector3TransformCoord", "src/vector.rs:XMVector3ComponentsFromNormal", "src/vector.rs:XMVector4Cross", "src/misc.rs:XMPlaneDot", "src/misc.rs:XMPlaneDotCoord", "src/misc.rs:XMPlaneDotNormal", "src/misc.rs:XMPlaneFromPointNormal", "src/misc.rs:XMPlaneTransform", "src/misc.rs:XMPlaneIntersectLine"]}
{"id": "C121", "title": "Binary32 projection matrices carry only a few relative roundings, with exact zeros and ones", "statement": "In single precision the symmetric perspective and the orthographic matrices have every entry equal to the textbook entry up to the relative error of four roundings, the off-centre perspectives up to five; entries that should be 0, 1 or -1 are exactly so, and a view volume symmetric about an axis gives exactly zero off-centre terms. For a field of view a between a thousandth and 3.14 radians the vertical scale is within 6e-6 (1 + cot(a/2))/sin(a/2) of cot(a/2), the horizontal scale within four times that over the aspect ratio, and the depth entries as before.", "quantifier": "all finite binary32 widths, heights, plane distances, edges, angles and aspect ratios whose magnitudes and differences lie between 2^-30 and 2^30 (the near distance of an orthographic view may be 0), every build", "why_tests_cant": "Four to six free binary32 parameters; the bound has to be relative, so it must hold across sixty binades", "anchors": ["src/matrix.rs:XMMatrixPerspectiveLH", "src/matrix.rs:XMMatrixPerspectiveRH", "src/matrix.rs:XMMatrixPerspectiveFovLH", "src/matrix.rs:XMMatrixPerspectiveFovRH", "src/matrix.rs:XMMatrixPerspectiveOffCenterLH", "src/matrix.rs:XMMatrixPerspectiveOffCenterRH", "src/matrix.rs:XMMatrixOrthographicLH", "src/matrix.rs:XMMatrixOrthographicRH"]}
{"id": "C122", "title": "Binary32 view matrices are a rigid motion up to a stated distance", "statement": "For an eye, a view direction or focus point and an up vector (components at most 1) given in single precision, the left- and right-handed view matrices are entry by entry close to an exact rigid motion that takes the eye to the origin, the view direction to the positive (left-handed) or negative (right-handed) z axis and the up vector into the upper half of the yz plane: rotation entries within 2.1e-5/s, translation entries within 6.5e-5 b/s (up to 2^-126), where s is the length of the up vector times the sine of its angle with the direction (at least a thousandth) and b bounds the eye coordinates. The last column is exactly (0,0,0,1).", "quantifier": "all finite binary32 eyes (|coordinates| <= b <= 2^100), directions of squared length between 2^-100 and 2^126 (for a focus point: distance between 2^-49 and 2^62), up vectors with s >= 1/1000, every build", "why_tests_cant": "Nine free binary32 numbers and a conditioning parameter; the bound must degrade exactly with 1/s", "anchors": ["src/matrix.rs:XMMatrixLookToLH", "src/matrix.rs:XMMatrixLookToRH", "src/matrix.rs:XMMatrixLookAtLH", "src/matrix.rs:XMMatrixLookAtRH"]}
{"id": "C123", "title": "Which float results do not depend on the build", "statement": "Changing the instruction set the crate is compiled for does not change the following single-precision results. Bit for bit, in any two builds: all projection matrices. Bit for bit except for which NaN is returned, in any two builds without fused multiply-add: multiply-add, multiply-subtract, scaling, 2D cross product, squared length and reflection, 2D and 3D point, coordinate and normal transformation, 3D cross product, linear and Hermite interpolation, barycentric combination, tensor product. As numbers (zeros may differ in sign), in any two builds: 3D dot product and squared length, 2D length, quaternion conjugate, rotation matrices about an axis; and without fused multiply-add 3D reflection. Fused multiply-add, the sum of four lanes, the 4D dot product, the 3D length and the matrix product do change.", "quantifier": "all pairs of build configurations, all 32-bit patterns in every lane (NaN, infinities, zeros, subnormals included)", "why_tests_cant": "A test run sees one build; agreement must hold for all operands of every pair of builds", "anchors": ["src/vector.rs:XMVectorMultiplyAdd", "src/vector.rs:XMVectorScale", "src/vector.rs:XMVector3Cross", "src/vector.rs:XMVector3Transform", "src/vector.rs:XMVector3Dot", "src/vector.rs:XMVectorSum", "src/vector.rs:XMVector3Length", "src/matrix.rs:XMMatrixPerspectiveLH", "src/matrix.rs:XMMatrixMultiply", "src/matrix.rs:XMMatrixRotationX"]}
{"id": "C124", "title": "What identity, translation and scaling do to single-precision numbers exactly", "statement": "In single precision and in every build: transforming a finite vector by the identity matrix, multiplying a finite matrix by the identity on either side, multiplying a finite quaternion by the identity quaternion on either side and rotating a finite vector by the identity quaternion return the same numbers (a zero may lose its sign). Transforming a point by a translation (scaling) matrix rounds once: each coordinate is the float nearest to the exact sum (product), and a translation leaves directions unchanged. The product of two translation (scaling) matrices is the translation (scaling) by the once-rounded sums (products). The inverse of a translation matrix is the translation by the negated offset without any rounding, with determinant one. Sine and cosine of zero are exactly 0 and 1, and rotation matrices of angle zero are the identity.", "quantifier": "all build configurations, all finite single-precision operands (overflow, subnormals and both zeros included)", "why_tests_cant": "Tests sample a few operands and one build; absence of any rounding must hold for every operand in every arrangement of the operations", "anchors": ["src/vector.rs:XMVector3Transform", "src/vector.rs:XMVector3TransformCoord", "src/vector.rs:XMVector3TransformNormal", "src/vector.rs:XMVector4Transform", "src/vector.rs:XMVector2Transform", "src/vector.rs:XMVector3Rotate", "src/matrix.rs:XMMatrixMultiply", "src/matrix.rs:XMMatrixInverse", "src/matrix.rs:XMMatrixTranslation", "src/matrix.rs:XMMatrixScaling", "src/matrix.rs:XMMatrixRotationX", "src/quaternion.rs:XMQuaternionMultiply", "src/misc.rs:XMScalarSinCos"]}
{"id": "C125", "title": "Symmetries of single-precision results", "statement": "In single precision, for every operand including infinities and NaN: dot products (2, 3 and 4 components) do not depend on the order of their arguments in any build; the distance from A to B (length, or squared length, of the difference) equals the distance from B to A; a vector and its negation have equal lengths; A-B is the negation of B-A; the 2D cross product, and in builds without FMA the 3D cross product, changes sign when its arguments are exchanged. Without FMA the cross product of a vector with itself is zero whenever the pairwise products are finite; with FMA it is not, and antisymmetry fails: a concrete vector with cross product -2^-46 with itself is exhibited.", "quantifier": "all build configurations, all single-precision bit patterns of the operands", "why_tests_cant": "A sampled pair of operands says nothing about the other 2^256, nor about the builds not compiled; the failure with FMA needs operands whose product rounds", "anchors": ["src/vector.rs:XMVector2Dot", "src/vector.rs:XMVector3Dot", "src/vector.rs:XMVector4Dot", "src/vector.rs:XMVector2Length", "src/vector.rs:XMVector3Length", "src/vector.rs:XMVector4Length", "src/vector.rs:XMVector3LengthSq", "src/vector.rs:XMVectorSubtract", "src/vector.rs:XMVectorNegate", "src/vector.rs:XMVector2Cross", "src/vector.rs:XMVector3Cross"]}
{"id": "C126", "title": "The containment and the intersection tests tell the same story in single precision", "statement": "For every bit pattern of the shapes: the answer DISJOINT of a containment test (sphere, box or oriented box against triangle; oriented box against box or oriented box; sphere against box or oriented box; sphere, box or oriented box against frustum; box against box) is exactly the answer false of the intersection test of the pair; sphere-sphere and box-box intersection do not depend on which shape is asked; containment of boxes is transitive, and what meets a contained box meets the outer one, despite rounding; a finite sphere or box of non-negative size contains and meets itself. For box against sphere an intersection is never DISJOINT, and the tests agree when box and center are finite and the radius is not NaN; with a NaN radius they never agree. For sphere against sphere they disagree on finite overlapping spheres (radius 1e20, centers 1e20 apart): the containment test answers DISJOINT in every build because the distance overflows.", "quantifier": "all build configurations, all single-precision bit patterns of the shapes", "why_tests_cant": "Agreement of two separately coded tests must hold for every pair of shapes including NaN, infinities and borderline roundings; tests sample a few well-separated shapes", "anchors": ["src/collision.rs:BoundingSphere::Contains", "src/collision.rs:BoundingSphere::Intersects", "src/collision.rs:BoundingBox::Contains", "src/collision.rs:BoundingBox::Intersects", "src/collision.rs:BoundingOrientedBox::Contains", "src/collision.rs:BoundingOrientedBox::Intersects"]}
{"id": "C127", "title": "NaN coordinates never count as contained", "statement": "A NaN coordinate propagates through dot products, lengths, quaternion products and rotations to every lane of the result, in every build; hence a point with a NaN coordinate is contained in no bounding shape, a shape with a NaN coordinate contains and meets nothing, and a ray with a NaN origin hits nothing. Proved for points in spheres, boxes and oriented boxes, for sphere against sphere, and for containment of boxes. The code violates it elsewhere: every frustum contains every NaN point, a box whose center is NaN intersects every box, and every ray hits a sphere whose center is NaN.", "quantifier": "all build configurations, all bit patterns of the other operands, any NaN payload in any coordinate", "why_tests_cant": "The NaN may sit in any lane of any operand with any payload, and the outcome depends on how each of the many comparisons is negated; tests use ordinary numbers", "anchors": ["src/collision.rs:BoundingSphere::Contains", "src/collision.rs:BoundingBox::Contains", "src/collision.rs:BoundingBox::Intersects", "src/collision.rs:BoundingOrientedBox::Contains", "src/collision.rs:BoundingFrustum::Contains", "src/collision.rs:BoundingSphere::Intersects", "src/vector.rs:XMVector3Dot", "src/vector.rs:XMVector3Length", "src/vector.rs:XMVector3Rotate", "src/vector.rs:XMVector3InverseRotate"]}
{"id": "C128", "title": "Growing a shape never loses what it held", "statement": "In binary32, with rounding and overflow: enlarging the radius of a sphere (finite, not negative) keeps every point it contained and every sphere, box and oriented box it met; a sphere contained in another stays contained when the outer radius grows or the inner one shrinks. Enlarging the finite extents of a box keeps every point and box it contained and every box it met, and enlarging the extents of an oriented box keeps every point it contained.", "quantifier": "all build configurations, all finite old and new sizes, all bit patterns of points and of the other shape", "why_tests_cant": "Each test compares rounded sums, squares and distances; that every rounding step is monotone up to and past overflow cannot be sampled", "anchors": ["src/collision.rs:BoundingSphere::Contains", "src/collision.rs:BoundingSphere::Intersects", "src/collision.rs:BoundingBox::Contains", "src/collision.rs:BoundingBox::Intersects", "src/collision.rs:BoundingOrientedBox::Contains", "src/collision.rs:BoundingOrientedBox::Intersects"]}
{"id": "C129", "title": "Curves pass through their control points exactly in single precision", "statement": "At parameter 0 and 1 a Hermite curve returns exactly its first and second point and a Catmull-Rom curve exactly its second and third point, in every build, for all finite points and tangents; the per-lane Catmull-Rom form does so for coordinates below 2^126 and overflows to infinity from 2^127 on. Barycentric interpolation with zero weights returns the first point, linear interpolation between equal points returns that point for every finite parameter. Linear interpolation between points whose difference overflows returns NaN even at parameter 0.", "quantifier": "all build configurations, all finite control points and tangents, both signs of a zero parameter", "why_tests_cant": "Each weight is a chain of rounded operations and each build sums them in a different order with or without fused operations; exactness for all points, including huge ones, cannot be sampled", "anchors": ["src/vector.rs:XMVectorHermite", "src/vector.rs:XMVectorHermiteV", "src/vector.rs:XMVectorCatmullRom", "src/vector.rs:XMVectorCatmullRomV", "src/vector.rs:XMVectorLerp", "src/vector.rs:XMVectorBaryCentric"]}
{"id": "C130", "title": "Vectors along a coordinate axis are measured and normalized exactly", "statement": "For a finite single-precision vector (2, 3 or 4 components) with exactly one nonzero component v, 2^-60 <= |v| <= 2^60, the length is exactly |v| in every lane and every build, although the square is rounded. Normalizing it should give exactly the unit vector of that axis, with the sign of v: builds with intrinsics do; builds without intrinsics turn (41,0,0) into (0.99999994,0,0).", "quantifier": "all build configurations, all finite vectors with one nonzero component of magnitude between 2^-60 and 2^60, all lanes", "why_tests_cant": "There are about a billion magnitudes, each with its own rounding of the square and of the root; tests with 1, 2 or 10 pass also where the claim is false", "anchors": ["src/vector.rs:XMVector2Length", "src/vector.rs:XMVector3Length", "src/vector.rs:XMVector4Length", "src/vector.rs:XMVector2Normalize", "src/vector.rs:XMVector3Normalize", "src/vector.rs:XMVector4Normalize"]}
{"id": "C131", "title": "Long chains of rotations drift by a bounded amount per step", "statement": "A program that applies any number n of rotations one after the other, in single precision, by XMQuaternionMultiply followed by XMQuaternionNormalize (inputs finite, of length between 1/2 and 2) always holds a finite quaternion whose length is one up to 1e-6 and which is within (n+1)*3e-6 of the exact product of the normalized inputs. Without renormalization, for up to 100000 quaternions of length one up to 1e-6, the length drifts by at most 3e-6 per product and the direction by at most 1e-6 per product. In every build.", "quantifier": "all build configurations, all finite lists of quaternions of any length (up to 100000 without renormalization), all finite components of the stated length", "why_tests_cant": "The claim is about every history of updates of every length; a test runs one history and cannot bound the worst accumulation of rounding errors", "anchors": ["src/misc.rs:XMQuaternionMultiply", "src/misc.rs:XMQuaternionNormalize"]}
{"id": "C132", "title": "Long chains of rotation matrices drift by a bounded amount per step", "statement": "A program that multiplies an orientation matrix by up to 100000 single-precision matrices, one after the other, each within 1e-6 (Frobenius distance) of an exact rotation or reflection, always holds a finite matrix that differs from the exact product of these rotations by at most 4e-6 per product, in the Frobenius distance and hence in every entry; in every build.", "quantifier": "all build configurations, all lists of up to 100000 matrices, all finite entries of the stated closeness", "why_tests_cant": "The claim bounds the worst accumulation of rounding errors over every history of products; a test runs a few histories", "anchors": ["src/matrix.rs:XMMatrixMultiply"]}
{"id": "C133", "title": "Accumulation loops over many vectors have a bounded error", "statement": "A program that adds up to about a million finite vectors one after the other with the vector addition, or accumulates weighted vectors with the multiply-add, obtains in every lane a finite number within n roundings (n + 1 for the weighted sum) of the sum of the magnitudes of the terms, unless that sum exceeds 2^127; a blend with nonnegative weights of sum at most 1 of n points of magnitude at most B is within 2(n+1)/2^24 times B plus n times the smallest normal number. It holds with and without fused operations.", "quantifier": "all build configurations, all lists of up to 2^20 vectors (and weights), all finite lane values, every lane", "why_tests_cant": "The bound is over every list of terms of every length and every build's rounding; a test adds a few lists", "anchors": ["src/vector.rs:XMVectorAdd", "src/vector.rs:XMVectorMultiplyAdd"]}
{"id": "C134", "title": "Points in oriented boxes and frustums in single precision", "statement": "For an oriented box or a frustum whose orientation is a unit quaternion up to one millionth, and a finite point: a point that lies inside every face by more than a stated margin is reported as contained, and a point reported as contained lies outside no face by more than that margin. The margin is 17 millionths of the largest coordinate distance to the center for the box; for the frustum 18 millionths of the distance to the apex times one plus the largest slope, plus 3e-7 of the larger depth. It holds in every build.", "quantifier": "all build configurations, all finite oriented boxes, frustums and points of moderate size, all unit quaternions close to the stored orientation", "why_tests_cant": "The test rotates and rounds differently in every build; only a bound over all shapes and points tells how close to a face its answer can be trusted", "anchors": ["src/collision.rs:BoundingOrientedBox::ContainsPoint", "src/collision.rs:BoundingFrustum::ContainsPoint"]}
{"id": "C135", "title": "Boxes against spheres in single precision", "statement": "For a finite axis-aligned box of nonnegative extents whose coordinates plus extents are at most M and a finite sphere of moderate size, in every build: if the ball with radius (1 - 2^-21) r - 2^-23 M meets the box, the intersection test answers true and the containment test does not answer DISJOINT; if the test answers true (or not DISJOINT), the ball with radius (1 + 2^-21) r + 2^-23 M meets the box.", "quantifier": "all build configurations, all finite boxes and spheres with M at most 2^59 and radius from 2^-50 to 2^60", "why_tests_cant": "The corners and the distance are rounded; only a bound over all boxes and spheres tells how close to contact the answer can be trusted", "anchors": ["src/collision.rs:BoundingBox::IntersectsSphere", "src/collision.rs:BoundingBox::ContainsSphere", "src/collision.rs:BoundingSphere::IntersectsBox"]}
{"id": "C136", "title": "Oriented boxes against spheres in single precision", "statement": "For a finite oriented box of nonnegative extents whose orientation is within 1e-6 of a unit quaternion u, and a finite sphere of moderate size whose center is at coordinate distance at most N from that of the box, in every build: if the ball with radius (1 - 2^-21) r - 2m meets the box rotated by u, where m = 17e-6 N + 1e-40, the intersection test answers true; if the test answers true, the ball with radius (1 + 2^-21) r + 2m meets that box.", "quantifier": "all build configurations, all finite oriented boxes and spheres with N at most 2^58, extents at most 2^60 and radius from 2^-50 to 2^60", "why_tests_cant": "The center is rotated into the frame of the box with rounded arithmetic and a slightly denormalized quaternion; only a bound over all boxes, orientations and spheres tells how close to contact the answer can be trusted", "anchors": ["src/collision.rs:BoundingOrientedBox::IntersectsSphere"]}
{"id": "C137", "title": "Containment of spheres in boxes in single precision", "statement": "In every build, for finite boxes and spheres of moderate size and radius r: a ball inside the axis-aligned box shrunk by 2^-22 (M + r), M being the largest coordinate plus extent of the box, is reported CONTAINS, and a ball reported CONTAINS is inside the box enlarged by that amount. For an oriented box whose orientation is within 1e-6 of a unit quaternion u and whose center is at coordinate distance at most N from that of the sphere: a ball inside the box rotated by u with extents (1 - 2^-23) e - m, m = 17e-6 N + 1e-40, is reported CONTAINS, a ball reported CONTAINS is inside the box with extents (1 + 2^-23) e + m, and the answer is DISJOINT only if the ball with radius (1 - 2^-21) r - 2m misses the box, and whenever the ball with radius (1 + 2^-21) r + 2m does.", "quantifier": "all build configurations, all finite boxes, oriented boxes and spheres with M at most 2^59, N at most 2^58, extents at most 2^60 and radius from 2^-50 to 2^60", "why_tests_cant": "Corner, local center, sums and differences are rounded; only a bound over all boxes and spheres tells how much a CONTAINS answer may be off", "anchors": ["src/collision.rs:BoundingBox::ContainsSphere", "src/collision.rs:BoundingOrientedBox::ContainsSphere"]}
{"id": "C138", "title": "Culling against six planes in single precision", "statement": "In every build, the six-plane tests ContainedBy of a sphere, a box and a triangle are right up to a margin in the plane values: if some plane has the whole volume in front of it by more than the margin the answer is DISJOINT, and an answer DISJOINT means some plane has every point of the volume in front of it up to the margin; if all planes have the volume behind them by more than the margin the answer is CONTAINS, and an answer CONTAINS means every point of the volume is behind every plane up to the margin. The margin of a plane is gam 4 (about 2.4e-7) times the sum of the absolute terms of the plane equation at the center or vertices, plus the same relative error of the box radius along the normal, plus eta r for a sphere and normals of length within eta of 1.", "quantifier": "all build configurations, all finite spheres of nonnegative radius, boxes of nonnegative extents and triangles, all six finite planes, with plane terms at most 2^127", "why_tests_cant": "Whether an object can be culled although it is visible is decided by rounded plane distances; only a bound over all volumes and planes excludes it", "anchors": ["src/collision.rs:BoundingSphere::ContainedBy", "src/collision.rs:BoundingBox::ContainedBy", "src/collision.rs:TriangleTests::ContainedBy"]}
{"id": "C139", "title": "Merging two spheres in single precision", "statement": "In every build, the sphere BoundingSphere::CreateMerged returns is finite, contains both spheres when its radius is enlarged by 2^-15 W, and its radius is at most 2^-15 W larger than the radius of any sphere containing both, where W bounds the coordinates of the centers and the radii.", "quantifier": "all build configurations and all pairs of finite spheres of nonnegative radius with coordinates and radii at most W <= 2^50 and centers at least 2^-40 apart", "why_tests_cant": "The center is found from a rounded unit vector and a rounded offset on three branches; only a bound over all pairs shows how far the result can miss a sphere it should enclose", "anchors": ["src/collision.rs:BoundingSphere::CreateMerged"]}
{"id": "C140", "title": "Distance of a point from a line in single precision", "statement": "In every build XMVector3Length of a vector v of length at most 2^60 is finite and within 6*2^-24 |v| + 2^-45 of |v|, with no lower limit on the vector. XMVector3LinePointDistance of a point x and the line through a and b is finite and, with m = 2^-16 |x - a| + 2^-40, is at most the distance of x to every point of the line plus m, and some point of the line is within the result plus m.", "quantifier": "all build configurations, all finite vectors, and all finite a, b, x with |x - a| <= 2^40 and 2^-40 <= |b - a| <= 2^40", "why_tests_cant": "The result is a difference of nearly equal vectors when the point is near the line, so relative errors are unbounded; only a bound over all inputs shows the absolute error stays a small part of the distance to the first point", "anchors": ["src/vector.rs:XMVector3LinePointDistance", "src/vector.rs:XMVector3Length"]}
{"id": "C141", "title": "Converting between bounding volumes in single precision", "statement": "In every build the sphere BoundingSphere::CreateFromBoundingBox or CreateFromBoundingOrientedBox returns is finite, keeps the center, contains the box when enlarged by m = 6*2^-24 h + 2^-45, and is at most m larger than any sphere containing the box, where h is the half diagonal. The box BoundingBox::CreateFromSphere returns is finite, contains the sphere when enlarged by m = 2^-19 W + 2^-100, and lies in every box containing the sphere once that box is enlarged by m, where W bounds the coordinates and the radius.", "quantifier": "all build configurations, all finite boxes and oriented boxes of nonnegative extents with half diagonal at most 2^60 and any unit orientation, and all finite spheres of nonnegative radius with W at most 2^120", "why_tests_cant": "A bounding volume that misses part of its source through rounding is wrong only for particular bit patterns; a margin for all inputs needs a proof", "anchors": ["src/collision.rs:BoundingSphere::CreateFromBoundingBox", "src/collision.rs:BoundingSphere::CreateFromBoundingOrientedBox", "src/collision.rs:BoundingBox::CreateFromSphere"]}
{"id": "C142", "title": "Moving a sphere by a matrix in single precision", "statement": "In every build BoundingSphere::TransformMatrix returns a finite sphere that, enlarged by m, contains the image of every point of the sphere, and its radius is at most m larger than any radius about the image of the center that holds all images. Here s is the length of the longest of the three upper rows, the rows are orthogonal up to eta s^2, W bounds the center and radius, T the translation, and m = eta r s + 2^-18 (W s + T) + 2^-100.", "quantifier": "all build configurations, all finite spheres of nonnegative radius with W <= 2^40, all finite matrices with 2^-40 <= s <= 2^40 and T <= 2^80, all eta >= 0", "why_tests_cant": "Rotation matrices have rounded rows that are only nearly orthogonal; whether the moved sphere still holds every moved point needs an estimate for all matrices and points", "anchors": ["src/collision.rs:BoundingSphere::TransformMatrix"]}
{"id": "C143", "title": "Moving a sphere by a scale, a rotation and a translation in single precision", "statement": "In every build BoundingSphere::TransformDecomposed returns a finite sphere such that every point of the sphere has its image in the result enlarged by m, and every point whose image is in the result shrunk by m is a point of the sphere. The image of p is rot(k p) + t with k the given scale, t the given translation and rot the rotation of a unit quaternion that agrees with the given quaternion up to one millionth in every component. W bounds the center and radius, T the translation, and m = 4 10^-5 W k + 2^-20 T + 10^-30.", "quantifier": "all build configurations, all finite spheres of nonnegative radius with W <= 2^40, all scales 0 < k <= 2^40, all finite quaternions that are unit up to one millionth, all finite translations with T <= 2^80", "why_tests_cant": "A stored rotation is never exactly a unit quaternion and every step rounds; whether the moved sphere still holds every moved point needs an estimate for all quaternions and points", "anchors": ["src/collision.rs:BoundingSphere::TransformDecomposed"]}
{"id": "C144", "title": "Moving an oriented box or a frustum by a scale, a rotation and a translation in single precision", "statement": "In every build BoundingOrientedBox::TransformDecomposed returns finite center and extents, and an orientation within 5 10^-6 of the product of the two rotations. With that product as its orientation, every point of the box has its image in the result with extents enlarged by m, and every point whose image is in the result with extents shrunk by m is a point of the box. BoundingFrustum::TransformDecomposed keeps the four slopes, and its origin, near and far plane are those of the exact image up to its m, with the same bound on the orientation. Rotations are unit quaternions that agree with the stored ones up to one millionth, k is the scale, W bounds center, extents, near and far plane, T the translation, and m = 4 10^-5 W k + 2^-20 T + 10^-30 (for the frustum 2 10^-5 W k + 2^-20 T + 10^-30).", "quantifier": "all build configurations, all finite oriented boxes and frusta with W <= 2^40, all scales 0 < k <= 2^40, all finite orientations and rotations that are unit up to one millionth, all finite translations with T <= 2^80", "why_tests_cant": "Stored rotations are never exactly unit quaternions and every step rounds; whether membership survives the move needs an estimate for all quaternions and points", "anchors": ["src/collision.rs:BoundingOrientedBox::TransformDecomposed", "src/collision.rs:BoundingFrustum::TransformDecomposed"]}
{"id": "C145", "title": "Moving an axis-aligned box in single precision", "statement": "In every build BoundingBox::TransformMatrix and BoundingBox::TransformDecomposed return a finite box that, enlarged by m on every side, contains the image of every point of the box, and that is contained in every box holding all images once that box is enlarged by m. For the matrix the image of p is p A + t with A the upper three rows and t the fourth, and m = 2^-17 (W s + T) + 10^-20 with s a bound on the entries of A; for scale k and a rotation that is a unit quaternion up to one millionth it is rot(k p) + t, and m = 4 10^-5 W k + 2^-20 T + 10^-20. W bounds center and extents, T the translation.", "quantifier": "all build configurations, all finite boxes with nonnegative extents and W <= 2^38, all finite matrices with s <= 2^40 and T <= 2^80, all scales 0 < k <= 2^40, all finite quaternions that are unit up to one millionth, all finite translations with T <= 2^80", "why_tests_cant": "Every corner is rounded several times and center and extents again; whether every interior point stays inside, and how much too large the box can be, needs an estimate for all boxes, transforms and points", "anchors": ["src/collision.rs:BoundingBox::TransformMatrix", "src/collision.rs:BoundingBox::TransformDecomposed"]}
{"id": "C146", "title": "Corners of bounding volumes in single precision", "statement": "In every build GetCorners returns eight finite points in the documented order, each within m of the exact corner in every coordinate. For a box m = 2^-21 W + 10^-35, for an oriented box m = 1.9 10^-5 W + 2^-22 B + 10^-34, for a frustum m = 1.9 10^-5 K W + 2^-22 B + 10^-34, where B bounds the center or origin, W the extents (for the box also the center) or the near and far distance, and K >= 1 the slopes. Orientations are unit quaternions up to one millionth.", "quantifier": "all build configurations, all finite boxes with W <= 2^120, all finite oriented boxes with W, B <= 2^80, all finite frusta with K, W <= 2^40 and B <= 2^80, all finite orientations that are unit up to one millionth", "why_tests_cant": "Corners are rounded products, rotations and sums; an error bound that holds for every volume and orientation cannot be sampled", "anchors": ["src/collision.rs:BoundingBox::GetCorners", "src/collision.rs:BoundingOrientedBox::GetCorners", "src/collision.rs:BoundingFrustum::GetCorners"]}
{"id": "C147", "title": "Containment of triangles in single precision", "statement": "For every bit pattern, BoundingSphere::ContainsTriangle and BoundingBox::ContainsTriangle answer CONTAINS exactly when IntersectsTriangle answers true and ContainsPoint answers CONTAINS for the three vertices. For finite inputs, a triangle with a point outside the sphere with radius enlarged by 2^-21 parts, or outside the box with extents enlarged by about 2^-24 parts, is never reported as contained. A triangle inside the sphere with radius reduced by 2^-21 parts, or inside the box, is never reported as merely intersecting.", "quantifier": "all build configurations; the first claim for all bit patterns, the others for all finite boxes and triangles, and all finite spheres with radius from 2^-50 to 2^60 and coordinates up to 2^60", "why_tests_cant": "A triangle has infinitely many points and the answer depends on rounded squared distances; only a proof covers every triangle, including those with special values", "anchors": ["src/collision.rs:BoundingSphere::ContainsTriangle", "src/collision.rs:BoundingBox::ContainsTriangle"]}
{"id": "C148", "title": "Containment of frustums in single precision", "statement": "For every bit pattern, BoundingBox::ContainsFrustum and BoundingOrientedBox::ContainsFrustum answer CONTAINS exactly when IntersectsFrustum answers true and ContainsPoint answers CONTAINS for each of the corners that GetCorners returns. For finite inputs and a nearly unit orientation, a frustum with a point outside the box, enlarged by about 2^-24 parts and by the error margin of the corners, is never reported as contained in the box.", "quantifier": "all build configurations; the first claim for all bit patterns, the second for all finite boxes and all finite valid frustums with slopes and distances up to 2^40 and an orientation within 10^-6 of a unit quaternion", "why_tests_cant": "A frustum has infinitely many points and its corners are rounded; only a proof covers every frustum, including those with special values", "anchors": ["src/collision.rs:BoundingBox::ContainsFrustum", "src/collision.rs:BoundingOrientedBox::ContainsFrustum"]}
