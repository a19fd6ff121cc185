{
 "claims": [
  {
   "property": "C01",
   "status": "proved",
   "theorems": [
    "DXM.Props.C01_swizzle",
    "DXM.Props.C01_swizzle_const",
    "DXM.Props.C01_permute",
    "DXM.Props.C01_permute_const"
   ],
   "note": "All lane types (all bit patterns), all builds, run-time and compile-time forms."
  },
  {
   "property": "C02",
   "status": "partial",
   "theorems": [
    "DXM.Props.C02_swizzle_safe_fails",
    "DXM.Props.C02_swizzle_partial",
    "DXM.Props.C02_swizzle_out_of_range_partial",
    "DXM.Props.C02_permute",
    "DXM.Props.C02_permute_out_of_range"
   ],
   "note": "The code violates the property: XMVectorSwizzle in the SSE2 (non-AVX) release build reads out of bounds for an index above 3 (negation proved: C02_swizzle_safe_fails). Everything else is proved: permute never reads out of bounds, swizzle is safe in debug, no-intrinsics and AVX builds."
  },
  {
   "property": "C03",
   "status": "proved",
   "theorems": [
    "DXM.Props.C03_select",
    "DXM.Props.C03_control",
    "DXM.Props.C03_control_outside"
   ],
   "note": "All bit patterns, all builds. Outside the documented control domain the builds disagree (C03_control_outside)."
  },
  {
   "property": "C04",
   "status": "proved",
   "theorems": [
    "DXM.Props.C04_splat",
    "DXM.Props.C04_merge",
    "DXM.Props.C04_merge_lossless",
    "DXM.Props.C04_shift",
    "DXM.Props.C04_shift_debug",
    "DXM.Props.C04_rotate",
    "DXM.Props.C04_rotate_inverse",
    "DXM.Props.C04_insert"
   ],
   "note": "All lane types, all builds."
  },
  {
   "property": "C05",
   "status": "proved",
   "theorems": [
    "DXM.Props.C05_get",
    "DXM.Props.C05_set",
    "DXM.Props.C05_history",
    "DXM.Props.C05_index_out_of_range"
   ],
   "note": "All lane types, all builds; histories of writes of any length by induction."
  },
  {
   "property": "C06",
   "status": "partial",
   "theorems": [
    "DXM.Props.C06_stores",
    "DXM.Props.C06_matrix_stores",
    "DXM.Props.C06_loads",
    "DXM.Props.C06_matrix_loads",
    "DXM.Props.C06_roundtrip",
    "DXM.Props.C06_matrix_roundtrip",
    "DXM.Props.C06_float3x3_partial",
    "DXM.Props.C06_float3x3_fails"
   ],
   "note": "All loads, stores and round trips proved on lanes of any type except the SSE XMLoadFloat3x3, whose row 1 is computed by an addition: equal up to signed zero (C06_float3x3_partial), bit-identity refuted (C06_float3x3_fails)."
  },
  {
   "property": "C07",
   "status": "proved",
   "theorems": [
    "DXM.Props.C07_logic",
    "DXM.Props.C07_laws"
   ],
   "note": "All bit patterns, all builds."
  },
  {
   "property": "C08",
   "status": "proved",
   "theorems": [
    "DXM.Props.C08_masks",
    "DXM.Props.C08_special",
    "DXM.Props.C08_preorder"
   ],
   "note": "All bit patterns incl. NaN, infinities, signed zeros; all builds; textbook IEEE value."
  },
  {
   "property": "C09",
   "status": "proved",
   "theorems": [
    "DXM.Props.C09_vector2",
    "DXM.Props.C09_vector3",
    "DXM.Props.C09_vector4",
    "DXM.Props.C09_garbage"
   ],
   "note": "All bit patterns incl. NaN; all builds; unused lanes shown irrelevant."
  },
  {
   "property": "C10",
   "status": "partial",
   "theorems": [
    "DXM.Props.C10_vector",
    "DXM.Props.C10_equal2",
    "DXM.Props.C10_greater2_partial",
    "DXM.Props.C10_greater2_fails",
    "DXM.Props.C10_equal3",
    "DXM.Props.C10_greater3_partial",
    "DXM.Props.C10_greater3_fails",
    "DXM.Props.C10_equal4",
    "DXM.Props.C10_greater4_partial",
    "DXM.Props.C10_greater4_fails",
    "DXM.Props.C10_inBounds_partial",
    "DXM.Props.C10_inBounds_fails",
    "DXM.Props.C10_inBoundsNoi_partial"
   ],
   "note": "Records proved for vector forms, and Vector2/3/4 equal records in all builds; greater records proved on SSE builds and for NaN-free inputs without intrinsics. The no-intrinsics code violates the property for NaN lanes (C10_greater2/3/4_fails). XMVectorInBoundsR: record proved on SSE builds and the bounds flag everywhere; without intrinsics CR6TRUE is set wrongly (C10_inBounds_fails)."
  },
  {
   "property": "C11",
   "status": "proved",
   "theorems": [
    "DXM.Props.C11_masks",
    "DXM.Props.C11_nan",
    "DXM.Props.C11_predicates",
    "DXM.Props.C11_symm"
   ],
   "note": "All bit patterns, every build."
  },
  {
   "property": "C12",
   "status": "proved",
   "theorems": [
    "DXM.Props.C12_masks",
    "DXM.Props.C12_predicates",
    "DXM.Props.C12_matrix",
    "DXM.Props.C12_bit_tests"
   ],
   "note": "All bit patterns, every build, including the integer bit tests used by the matrix predicates."
  },
  {
   "property": "C13",
   "status": "partial",
   "theorems": [
    "DXM.Props.C13_minmax",
    "DXM.Props.C13_clamp",
    "DXM.Props.C13_saturate_partial",
    "DXM.Props.C13_saturate_fails"
   ],
   "note": "Min/Max/Clamp proved on all bit patterns; Saturate proved except for NaN, where builds disagree (negation: C13_saturate_fails)."
  },
  {
   "property": "C14",
   "status": "partial",
   "theorems": [
    "DXM.Props.C14_floor",
    "DXM.Props.C14_ceiling",
    "DXM.Props.C14_truncate",
    "DXM.Props.C14_round_partial",
    "DXM.Props.C14_round_fails"
   ],
   "note": "The no-intrinsics XMVectorRound violates the property (every lane receives the rounded lane 0; negation: C14_round_fails). Everything else proved on all bit patterns, every build."
  },
  {
   "property": "C15",
   "status": "partial",
   "theorems": [
    "DXM.Props.C15_floatToInt",
    "DXM.Props.C15_floatToInt_nan",
    "DXM.Props.C15_floatToUInt",
    "DXM.Props.C15_intToFloat_partial",
    "DXM.Props.C15_intToFloat_fails",
    "DXM.Props.C15_uintToFloat_partial",
    "DXM.Props.C15_uintToFloat_error",
    "DXM.Props.C15_uintToFloat_fails",
    "DXM.Props.C15_roundtrip"
   ],
   "note": "All bit patterns. FloatToInt/FloatToUInt fully proved for every build (truncation with saturation). IntToFloat: correct in SSE builds, the no-intrinsics build computes something else (C15_intToFloat_fails). UIntToFloat: correct in the no-intrinsics build, SSE build rounds twice (C15_uintToFloat_fails, error bound C15_uintToFloat_error)."
  },
  {
   "property": "C16",
   "status": "proved",
   "theorems": [
    "DXM.Props.C16_floatToHalf",
    "DXM.Props.C16_builds_agree"
   ],
   "note": "All 2^32 patterns, all builds: correctly rounded, ties to even, overflow, infinities, NaN, sign. F16C instructions are specified from Intel's manual."
  },
  {
   "property": "C17",
   "status": "partial",
   "theorems": [
    "DXM.Props.C17_f16c",
    "DXM.Props.C17_halfToFloat_partial",
    "DXM.Props.C17_subnormal_fails",
    "DXM.Props.C17_roundtrip_partial"
   ],
   "note": "Exact for all halves in F16C builds and for all but nonzero subnormals elsewhere; every nonzero subnormal half is converted wrongly by the software path (C17_subnormal_fails). Round trip proved for the same halves."
  },
  {
   "property": "C18",
   "status": "proved",
   "theorems": [
    "DXM.Props.C18_rounded",
    "DXM.Props.C18_multiplyAdd",
    "DXM.Props.C18_scale",
    "DXM.Props.C18_reciprocalSqrt",
    "DXM.Props.C18_add_special",
    "DXM.Props.C18_multiply_special",
    "DXM.Props.C18_divide_special",
    "DXM.Props.C18_sqrt_special"
   ],
   "note": "Each lane operation is the correctly rounded exact operation; special values as IEEE-754 prescribes."
  },
  {
   "property": "C19",
   "status": "partial",
   "theorems": [
    "DXM.Props.C19_values_partial",
    "DXM.Props.C19_abs_laws",
    "DXM.Props.C19_bits_fails"
   ],
   "note": "Values proved; sign bit of zero and NaN differs between builds (negation: C19_bits_fails)."
  },
  {
   "property": "C20",
   "status": "partial",
   "theorems": [
    "DXM.Props.C20_splatConstant_partial",
    "DXM.Props.C20_splatConstant_fails",
    "DXM.Props.C20_splatConstantInt",
    "DXM.Props.C20_binaryConstant_partial",
    "DXM.Props.C20_binaryConstant_fails",
    "DXM.Props.C20_named"
   ],
   "note": "All bit patterns. Disagreements: XMVectorSplatConstant in the no-intrinsics build (C20_splatConstant_fails) and XMVectorSetBinaryConstant in SSE builds (C20_binaryConstant_fails); the rest proved."
  },
  {
   "property": "C21",
   "status": "partial",
   "theorems": [
    "DXM.Props.C21_scalar",
    "DXM.Props.C21_add_sub",
    "DXM.Props.C21_mod_partial",
    "DXM.Props.C21_mod_fails",
    "DXM.Props.C21_mod_noi_partial"
   ],
   "note": "The no-intrinsics build violates the property for XMVectorModAngles (XMVectorRound rounds lane x into every lane; negation proved: C21_mod_fails). SSE builds, AddAngles/SubtractAngles and the scalar function are proved."
  },
  {
   "property": "C22",
   "status": "proved",
   "theorems": [
    "DXM.Props.C22_sum"
   ],
   "note": "Exact-real lanes, all builds."
  },
  {
   "property": "C23",
   "status": "proved",
   "theorems": [
    "DXM.Props.C23_dot2",
    "DXM.Props.C23_dot3",
    "DXM.Props.C23_dot4",
    "DXM.Props.C23_dot3_bilinear",
    "DXM.Props.C23_dot2_bilinear",
    "DXM.Props.C23_dot4_bilinear"
   ],
   "note": "Exact-real lanes, all builds."
  },
  {
   "property": "C24",
   "status": "proved",
   "theorems": [
    "DXM.Props.C24_cross3",
    "DXM.Props.C24_cross3_laws",
    "DXM.Props.C24_cross2",
    "DXM.Props.C24_cross4",
    "DXM.Props.C24_cross4_orthogonal"
   ],
   "note": "Exact-real lanes, all builds."
  },
  {
   "property": "C25",
   "status": "proved",
   "theorems": [
    "DXM.Props.C25_lengthSq2",
    "DXM.Props.C25_lengthSq3",
    "DXM.Props.C25_lengthSq4",
    "DXM.Props.C25_length2",
    "DXM.Props.C25_length3",
    "DXM.Props.C25_length4",
    "DXM.Props.C25_reciprocalLength2",
    "DXM.Props.C25_reciprocalLength3",
    "DXM.Props.C25_reciprocalLength4"
   ],
   "note": "Exact-real lanes, all builds."
  },
  {
   "property": "C26",
   "status": "proved",
   "theorems": [
    "DXM.Props.C26_normalize2",
    "DXM.Props.C26_normalize3",
    "DXM.Props.C26_normalize4",
    "DXM.Props.C26_normalize_zero",
    "DXM.Props.C26_normalize_idempotent"
   ],
   "note": "Exact-real lanes, all builds."
  },
  {
   "property": "C27",
   "status": "proved",
   "theorems": [
    "DXM.Props.C27_clampLength2",
    "DXM.Props.C27_clampLength3",
    "DXM.Props.C27_clampLength4"
   ],
   "note": "Exact-real lanes, all builds."
  },
  {
   "property": "C28",
   "status": "proved",
   "theorems": [
    "DXM.Props.C28_reflect2",
    "DXM.Props.C28_reflect3",
    "DXM.Props.C28_reflect4",
    "DXM.Props.C28_reflect_laws",
    "DXM.Props.C28_reflect3_involution",
    "DXM.Props.C28_reflect2_involution",
    "DXM.Props.C28_reflect4_involution"
   ],
   "note": "Exact-real lanes, all builds."
  },
  {
   "property": "C29",
   "status": "partial",
   "theorems": [
    "DXM.Props.C29_refract3",
    "DXM.Props.C29_refract4",
    "DXM.Props.C29_refract2_agree_fails",
    "DXM.Props.C29_refract2_partial"
   ],
   "note": "Exact-real lanes. The 3-D refraction is proved for all builds; the 2-D refraction disagrees between builds at total internal reflection (R = 0), proved as C29_refract2_agree_fails."
  },
  {
   "property": "C30",
   "status": "proved",
   "theorems": [
    "DXM.Props.C30_orthogonal2",
    "DXM.Props.C30_orthogonal3",
    "DXM.Props.C30_orthogonal4"
   ],
   "note": "Exact-real lanes, all builds."
  },
  {
   "property": "C31",
   "status": "proved",
   "theorems": [
    "DXM.Props.C31_componentsFromNormal"
   ],
   "note": "Exact-real lanes, all builds."
  },
  {
   "property": "C32",
   "status": "proved",
   "theorems": [
    "DXM.Props.C32_linePointDistance3",
    "DXM.Props.C32_linePointDistance2"
   ],
   "note": "Exact-real lanes, all builds."
  },
  {
   "property": "C33",
   "status": "proved",
   "theorems": [
    "DXM.Props.C33_intersectLine"
   ],
   "note": "Exact-real lanes, all builds."
  },
  {
   "property": "C34",
   "status": "proved",
   "theorems": [
    "DXM.Props.C34_lerp",
    "DXM.Props.C34_lerpV",
    "DXM.Props.C34_lerp_ends",
    "DXM.Props.C34_hermite",
    "DXM.Props.C34_hermiteV",
    "DXM.Props.C34_hermite_ends",
    "DXM.Props.C34_hermite_tangents",
    "DXM.Props.C34_catmullRom",
    "DXM.Props.C34_catmullRomV",
    "DXM.Props.C34_catmullRom_ends",
    "DXM.Props.C34_baryCentric",
    "DXM.Props.C34_baryCentricV"
   ],
   "note": "Exact-real lanes, all builds."
  },
  {
   "property": "C35",
   "status": "proved",
   "theorems": [
    "DXM.Props.C35_rotate",
    "DXM.Props.C35_inverseRotate",
    "DXM.Props.C35_isometry",
    "DXM.Props.C35_inverse",
    "DXM.Props.C35_compose"
   ],
   "note": "Exact-real lanes, all builds."
  },
  {
   "property": "C36",
   "status": "proved",
   "theorems": [
    "DXM.Props.C36_compose4",
    "DXM.Props.C36_compose3",
    "DXM.Props.C36_compose_coord",
    "DXM.Props.C36_transform4",
    "DXM.Props.C36_transform3",
    "DXM.Props.C36_transform2",
    "DXM.Props.C36_transformNormal3",
    "DXM.Props.C36_transformNormal2",
    "DXM.Props.C36_transformCoord3",
    "DXM.Props.C36_transformCoord2"
   ],
   "note": "Exact-real lanes, all builds."
  },
  {
   "property": "C37",
   "status": "proved",
   "theorems": [
    "DXM.Props.C37_project",
    "DXM.Props.C37_unproject",
    "DXM.Props.C37_roundtrip",
    "DXM.Props.C37_roundtrip"
   ],
   "note": "Project = viewport map after divide; both round trips; exact-real lanes, every build"
  },
  {
   "property": "C38",
   "status": "proved",
   "theorems": [
    "DXM.Props.C38_multiply",
    "DXM.Props.C38_multiplyTranspose",
    "DXM.Props.C38_multiply_laws"
   ],
   "note": "Exact-real lanes, all builds."
  },
  {
   "property": "C39",
   "status": "proved",
   "theorems": [
    "DXM.Props.C39_transpose",
    "DXM.Props.C39_involution"
   ],
   "note": "Exact-real lanes, all builds."
  },
  {
   "property": "C40",
   "status": "proved",
   "theorems": [
    "DXM.Props.C40_determinant",
    "DXM.Props.C40_determinant_laws"
   ],
   "note": "Exact-real lanes, all builds."
  },
  {
   "property": "C41",
   "status": "proved",
   "theorems": [
    "DXM.Props.C41_inverse",
    "DXM.Props.C41_inverse_two_sided"
   ],
   "note": "Exact-real lanes, all builds."
  },
  {
   "property": "C42",
   "status": "proved",
   "theorems": [
    "DXM.Props.C42_tensor",
    "DXM.Props.C42_tensor_action"
   ],
   "note": "Exact-real lanes, all builds."
  },
  {
   "property": "C43",
   "status": "proved",
   "theorems": [
    "DXM.Props.C43_identity",
    "DXM.Props.C43_translation",
    "DXM.Props.C43_scaling",
    "DXM.Props.C43_translation_action",
    "DXM.Props.C43_scaling_action",
    "DXM.Props.C43_compose",
    "DXM.Props.C43_inverse",
    "DXM.Props.C43_isIdentity"
   ],
   "note": "Identity, translation and scaling over exact reals; IsIdentity over all bit patterns, every build."
  },
  {
   "property": "C44",
   "status": "proved",
   "theorems": [
    "DXM.Props.C44_spec",
    "DXM.Props.C44_rotationNormal",
    "DXM.Props.C44_rotationNormal_close",
    "DXM.Props.C44_rotationAxis",
    "DXM.Props.C44_xyz",
    "DXM.Props.C44_compose"
   ],
   "note": "Exact-real lanes, all builds; the error bound is that of the polynomial sine and cosine (C66, C67), rounding idealised."
  },
  {
   "property": "C45",
   "status": "proved",
   "theorems": [
    "DXM.Props.C45_matrix",
    "DXM.Props.C45_agrees",
    "DXM.Props.C45_product"
   ],
   "note": "Exact-real lanes, all builds."
  },
  {
   "property": "C46",
   "status": "proved",
   "theorems": [
    "DXM.Props.C46_matrix",
    "DXM.Props.C46_roundtrip"
   ],
   "note": "Exact-real lanes, all builds."
  },
  {
   "property": "C47",
   "status": "proved",
   "theorems": [
    "DXM.Props.C47_quaternion",
    "DXM.Props.C47_scalar",
    "DXM.Props.C47_matrix"
   ],
   "note": "Exact-real lanes, all builds; the error bound is that of the polynomial sine and cosine (C66, C67), rounding idealised."
  },
  {
   "property": "C48",
   "status": "proved",
   "theorems": [
    "DXM.Props.C48_transformation",
    "DXM.Props.C48_affineTransformation",
    "DXM.Props.C48_transformation_point",
    "DXM.Props.C48_affineTransformation_point",
    "DXM.Props.C48_transformation2D",
    "DXM.Props.C48_affineTransformation2D"
   ],
   "note": "documented products as matrices and as point maps; 2D forms relative to the computed sine/cosine, whose error is bounded; exact-real lanes, every build"
  },
  {
   "property": "C49",
   "status": "proved",
   "theorems": [
    "DXM.Props.C49_reflect",
    "DXM.Props.C49_shadow",
    "DXM.Props.C49_shadow_point"
   ],
   "note": "Reflect: mirror, involution; Shadow: projection onto the plane along the light, directional and point lights; exact-real lanes, every build"
  },
  {
   "property": "C50",
   "status": "proved",
   "theorems": [
    "DXM.Props.C50_lookToLH",
    "DXM.Props.C50_lookToRH",
    "DXM.Props.C50_lookAtLH",
    "DXM.Props.C50_lookAtRH"
   ],
   "note": "rigid, eye to origin, view direction to +Z/-Z, up into the upper YZ half plane; exact-real lanes, every build"
  },
  {
   "property": "C51",
   "status": "proved",
   "theorems": [
    "DXM.Props.C51_offCenterLH",
    "DXM.Props.C51_offCenterRH",
    "DXM.Props.C51_perspLH",
    "DXM.Props.C51_fovLH",
    "DXM.Props.C51_perspRH",
    "DXM.Props.C51_fovRH",
    "DXM.Props.C51_orthoLH",
    "DXM.Props.C51_orthoRH"
   ],
   "note": "inside iff inside and faces to faces, all six perspective functions (Fov relative to the computed sine/cosine of the half angle, for 0.001 <= angle <= 3.14) and both orthographic ones; also reversed depth; exact-real lanes, every build"
  },
  {
   "property": "C52",
   "status": "partial",
   "theorems": [
    "DXM.Props.C52_decompose_partial",
    "DXM.Props.C52_recompose_partial",
    "DXM.Props.C52_degenerate_fails"
   ],
   "note": "Decompose and recompose proved (all six axis rankings, exact arithmetic) whenever the three rows exceed the 1e-4 threshold; the degenerate branch is wrong in the code (canonical basis uses R0,R2,R3): C52_degenerate_fails shows Decompose of Scaling(1,0,0) reporting failure."
  },
  {
   "property": "C53",
   "status": "partial",
   "theorems": [
    "DXM.Props.C53_operators",
    "DXM.Props.C53_assign_fails",
    "DXM.Props.C53_assign_partial"
   ],
   "note": "The code violates the property: += and -= on matrices write row 0 four times (negation proved: C53_assign_fails). All other operators are proved."
  },
  {
   "property": "C54",
   "status": "proved",
   "theorems": [
    "DXM.Props.C54_lanewise",
    "DXM.Props.C54_assign",
    "DXM.Props.C54_real"
   ],
   "note": "Lane-wise and op= for every lane type; exact-real meaning incl. scaling, negation and == in every build."
  },
  {
   "property": "C55",
   "status": "proved",
   "theorems": [
    "DXM.Props.C55_hamilton",
    "DXM.Props.C55_identity",
    "DXM.Props.C55_assoc",
    "DXM.Props.C55_norm"
   ],
   "note": "Exact-real lanes, all builds."
  },
  {
   "property": "C56",
   "status": "proved",
   "theorems": [
    "DXM.Props.C56_conjugate",
    "DXM.Props.C56_inverse",
    "DXM.Props.C56_inverse_mul"
   ],
   "note": "Exact-real lanes, all builds."
  },
  {
   "property": "C57",
   "status": "proved",
   "theorems": [
    "DXM.Props.C57_slerp",
    "DXM.Props.C57_error"
   ],
   "note": "Within slerpErr (<= 4e-4) of the exact great-arc point for all unit pairs and t in [0,1]; arcQ_spec shows the specification has unit norm, angle t*Omega and the stated endpoints."
  },
  {
   "property": "C58",
   "status": "partial",
   "theorems": [
    "DXM.Props.C58_exp",
    "DXM.Props.C58_exp_unit",
    "DXM.Props.C58_ln_partial",
    "DXM.Props.C58_ln_fails",
    "DXM.Props.C58_ln_acute"
   ],
   "note": "Exponential proved (Mathlib's quaternion exp). Logarithm proved for cos(angle) >= -(1-1e-5); the claim on all of (0,pi) is false of the code next to pi (C58_ln_fails)."
  },
  {
   "property": "C59",
   "status": "proved",
   "theorems": [
    "DXM.Props.C59_spec",
    "DXM.Props.C59_rotationNormal",
    "DXM.Props.C59_matrix",
    "DXM.Props.C59_rotationAxis",
    "DXM.Props.C59_toAxisAngle",
    "DXM.Props.C59_toAxisAngle_axisQ"
   ],
   "note": "Exact-real lanes, all builds; the error bound is that of the polynomial sine and cosine (C66, C67), rounding idealised."
  },
  {
   "property": "C60",
   "status": "proved",
   "theorems": [
    "DXM.Props.C60_squad_start",
    "DXM.Props.C60_squad_end",
    "DXM.Props.C60_bary_origin",
    "DXM.Props.C60_bary_corners"
   ],
   "note": "Squad endpoints and scalar BaryCentric corners, every build, arbitrary quaternions."
  },
  {
   "property": "C61",
   "status": "proved",
   "theorems": [
    "DXM.Props.C61_dot",
    "DXM.Props.C61_dotCoord",
    "DXM.Props.C61_dotNormal",
    "DXM.Props.C61_normalize"
   ],
   "note": "dot forms, normalisation preserves zero set and sign; exact-real lanes, every build"
  },
  {
   "property": "C62",
   "status": "proved",
   "theorems": [
    "DXM.Props.C62_fromPointNormal",
    "DXM.Props.C62_fromPoints"
   ],
   "note": "exact-real lanes, every build"
  },
  {
   "property": "C63",
   "status": "proved",
   "theorems": [
    "DXM.Props.C63_line",
    "DXM.Props.C63_plane"
   ],
   "note": "exact-real lanes, every build"
  },
  {
   "property": "C64",
   "status": "proved",
   "theorems": [
    "DXM.Props.C64_transform",
    "DXM.Props.C64_invariant"
   ],
   "note": "exact-real lanes, every build"
  },
  {
   "property": "C65",
   "status": "proved",
   "theorems": [
    "DXM.Props.C65_fresnel",
    "DXM.Props.C65_physical"
   ],
   "note": "mean of the textbook s/p reflectances, clamped; clamp idle for physical inputs; exact-real lanes, every build"
  },
  {
   "property": "C66",
   "status": "proved",
   "theorems": [
    "DXM.Props.C66_sincos",
    "DXM.Props.C66_sincosEst",
    "DXM.Props.C66_sincos_agree",
    "DXM.Props.C66_arc"
   ],
   "note": "Exact-real reading with the literal f32 coefficients; agreement of SinCos with Sin and Cos for every lane type (all bit patterns)."
  },
  {
   "property": "C67",
   "status": "proved",
   "theorems": [
    "DXM.Props.C67_sincos",
    "DXM.Props.C67_sincosEst",
    "DXM.Props.C67_arc",
    "DXM.Props.C67_atan",
    "DXM.Props.C67_atan2"
   ],
   "note": "Exact-real reading with the literal f32 coefficients, every build."
  },
  {
   "property": "C68",
   "status": "proved",
   "theorems": [
    "DXM.Props.C68_near",
    "DXM.Props.C68_difference"
   ],
   "note": "All bit patterns; the compared difference is the correctly rounded one."
  },
  {
   "property": "C69",
   "status": "proved",
   "theorems": [
    "DXM.Props.C69_containsPoint"
   ],
   "note": "Exact-real lanes, all builds; point-set semantics in Spec/Geometry.lean."
  },
  {
   "property": "C70",
   "status": "proved",
   "theorems": [
    "DXM.Props.C70_intersects",
    "DXM.Props.C70_symm",
    "DXM.Props.C70_contains"
   ],
   "note": "Exact-real lanes, all builds; point-set semantics in Spec/Geometry.lean."
  },
  {
   "property": "C71",
   "status": "proved",
   "theorems": [
    "DXM.Props.C71_merged"
   ],
   "note": "Exact-real lanes, all builds; point-set semantics in Spec/Geometry.lean."
  },
  {
   "property": "C72",
   "status": "proved",
   "theorems": [
    "DXM.Props.C72_fromPoints"
   ],
   "note": "Exact-real lanes, all builds; point-set semantics in Spec/Geometry.lean."
  },
  {
   "property": "C73",
   "status": "proved",
   "theorems": [
    "DXM.Props.C73_fromPoints",
    "DXM.Props.C73_order"
   ],
   "note": "Exact-real lanes, all builds; point-set semantics in Spec/Geometry.lean."
  },
  {
   "property": "C74",
   "status": "proved",
   "theorems": [
    "DXM.Props.C74_merged",
    "DXM.Props.C74_comm"
   ],
   "note": "Exact-real lanes, all builds; point-set semantics in Spec/Geometry.lean."
  },
  {
   "property": "C75",
   "status": "proved",
   "theorems": [
    "DXM.Props.C75_containsPoint",
    "DXM.Props.C75_intersects",
    "DXM.Props.C75_symm",
    "DXM.Props.C75_containsBox"
   ],
   "note": "Exact-real lanes, all builds; point-set semantics in Spec/Geometry.lean."
  },
  {
   "property": "C76",
   "status": "proved",
   "theorems": [
    "DXM.Props.C76_intersects",
    "DXM.Props.C76_containsSphere",
    "DXM.Props.C76_containsBox"
   ],
   "note": "Exact-real lanes, all builds. CONTAINS of BoundingBox::ContainsSphere needs in addition diameter of the box > radius in every axis, stated exactly."
  },
  {
   "property": "C77",
   "status": "proved",
   "theorems": [
    "DXM.Props.C77_sphereFromBox",
    "DXM.Props.C77_boxFromSphere",
    "DXM.Props.C77_sphereFromOrientedBox"
   ],
   "note": "Exact-real lanes, all builds; spheres are the smallest containing ones."
  },
  {
   "property": "C78",
   "status": "proved",
   "theorems": [
    "DXM.Props.C78_ray"
   ],
   "note": "Exact-real lanes, all builds; point-set semantics in Spec/Geometry.lean."
  },
  {
   "property": "C79",
   "status": "proved",
   "theorems": [
    "DXM.Props.C79_box",
    "DXM.Props.C79_boxFirst",
    "DXM.Props.C79_orientedBox"
   ],
   "note": "Exact-real lanes, all builds, boxes and oriented boxes. Direction components (along the box axes) are zero or above the threshold 1e-20 and slab parameters lie in the range of binary32. The reported distance is the parameter at which the line enters the box: the first point of the ray from outside (C79_boxFirst), and a negative number when the origin is inside."
  },
  {
   "property": "C80",
   "status": "proved",
   "theorems": [
    "DXM.Props.C80_ray",
    "DXM.Props.C80_parallel",
    "DXM.Props.C80_sound"
   ],
   "note": "Exact-real lanes, all builds. Sound for every ray and triangle; exact, with the parameter of the unique common point, when the determinant is at or above the threshold; below the threshold every ray is reported to miss (C80_parallel)."
  },
  {
   "property": "C81",
   "status": "proved",
   "theorems": [
    "DXM.Props.C81_sphere",
    "DXM.Props.C81_box",
    "DXM.Props.C81_orientedBox",
    "DXM.Props.C81_frustum",
    "DXM.Props.C81_triangle"
   ],
   "note": "Exact-real lanes, all builds."
  },
  {
   "property": "C82",
   "status": "proved",
   "theorems": [
    "DXM.Props.C82_sphere",
    "DXM.Props.C82_box",
    "DXM.Props.C82_orientedBox",
    "DXM.Props.C82_frustum",
    "DXM.Props.C82_triangle"
   ],
   "note": "Exact-real lanes, all builds."
  },
  {
   "property": "C83",
   "status": "proved",
   "theorems": [
    "DXM.Props.C83_box",
    "DXM.Props.C83_boxContains",
    "DXM.Props.C83_orientedBox",
    "DXM.Props.C83_orientedBoxContains"
   ],
   "note": "Exact-real lanes, all builds. The thirteen-axis test is exact (true iff a shared point exists) for every triangle, degenerate ones included; extents >= 0; oriented boxes with unit orientation likewise; CONTAINS iff subset, DISJOINT iff no shared point."
  },
  {
   "property": "C84",
   "status": "proved",
   "theorems": [
    "DXM.Props.C84_intersectsOrientedBox",
    "DXM.Props.C84_symm",
    "DXM.Props.C84_intersectsBox",
    "DXM.Props.C84_boxIntersectsOrientedBox"
   ],
   "note": "Exact-real lanes, all builds: the fifteen-axis test is exact (true iff a shared point exists), hence symmetric. Extents >= 0, unit orientations."
  },
  {
   "property": "C85",
   "status": "proved",
   "theorems": [
    "DXM.Props.C85_containsPoint",
    "DXM.Props.C85_intersectsSphere",
    "DXM.Props.C85_containsSphere",
    "DXM.Props.C85_getCorners",
    "DXM.Props.C85_getCornersBox",
    "DXM.Props.C85_containsOrientedBox",
    "DXM.Props.C85_containsBox",
    "DXM.Props.C85_sphereContainsOrientedBox",
    "DXM.Props.C85_boxContainsOrientedBox"
   ],
   "note": "Exact-real lanes, all builds. CONTAINS iff subset and DISJOINT iff no shared point, for points, spheres, boxes and oriented boxes in oriented boxes, and oriented boxes in boxes and spheres."
  },
  {
   "property": "C86",
   "status": "partial",
   "theorems": [
    "DXM.Props.C86_fromPoints_partial",
    "DXM.Props.C86_fails"
   ],
   "note": "Exact-real lanes, all builds. C86_fails: the claim is false of the code (points after the first are not moved into the box frame, collision.rs:3274-3283), witness (±2,0,0),(0,±1,0),(0,0,±1). C86_fromPoints_partial: the orientation is always a unit quaternion, the first point is always contained, and all points are when the computed rotation is trivial (lists shorter than 2^23)."
  },
  {
   "property": "C87",
   "status": "proved",
   "theorems": [
    "DXM.Props.C87_box",
    "DXM.Props.C87_boxDecomposed",
    "DXM.Props.C87_sphereDecomposed",
    "DXM.Props.C87_sphere",
    "DXM.Props.C87_sphere_shear_fails",
    "DXM.Props.C87_orientedBoxDecomposed",
    "DXM.Props.C87_frustumDecomposed",
    "DXM.Props.C87_orientedBox",
    "DXM.Props.C87_orientedBoxAxes",
    "DXM.Props.C87_frustum"
   ],
   "note": "Exact-real lanes, all builds. Box: contains all images and is the smallest such box, for every affine matrix and every scale/rotation/translation. Sphere: exact for scale/rotation/translation; for matrices contains all images, tightly, when the rows are orthogonal; C87_sphere_shear_fails shows a shear for which the result misses an image. Oriented box and frustum: membership commutes with uniform scale, rotation and translation, as matrix or decomposed."
  },
  {
   "property": "C88",
   "status": "proved",
   "theorems": [
    "DXM.Props.C88_intersectsTriangle",
    "DXM.Props.C88_containsTriangle",
    "DXM.Props.C88_degenerate",
    "DXM.Props.C88_degenerate_fails"
   ],
   "note": "Exact-real lanes, all builds. Exact for non-degenerate triangles and radius >= 0; ContainsTriangle exact too. C88_degenerate_fails: on a degenerate triangle the code answers true although no point is within the radius."
  },
  {
   "property": "C89",
   "status": "partial",
   "theorems": [
    "DXM.Props.C89_triangles_partial",
    "DXM.Props.C89_sound_partial",
    "DXM.Props.C89_vertexInPlane_fails",
    "DXM.Props.C89_symmetry_fails",
    "DXM.Props.C89_falsePositive_fails",
    "DXM.Props.C89_coplanar_fails",
    "DXM.Props.C89_fails",
    "DXM.Props.C89_symmetric_partial"
   ],
   "note": "Exact-real lanes, all builds. C89_triangles_partial: exact in general position (no vertex of either triangle in the plane of the other; heights of the second over the first at least 1e-20); C89_sound_partial: no false positives when no vertex of the second is within the threshold of the plane of the first; C89_symmetric_partial. The full claim is false of the code (C89_fails): nested coplanar triangles are missed (C89_coplanar_fails), a vertex of the first in the plane of the second gives false negatives (C89_vertexInPlane_fails) and asymmetry (C89_symmetry_fails), a vertex of the second in the plane of the first gives false positives (C89_falsePositive_fails), because the zero mask of A is computed from B (collision.rs:5274)."
  },
  {
   "property": "C90",
   "status": "proved",
   "theorems": [
    "DXM.Props.C90_containsPoint",
    "DXM.Props.C90_getPlanes",
    "DXM.Props.C90_sound",
    "DXM.Props.C90_containsSphere",
    "DXM.Props.C90_containsBox",
    "DXM.Props.C90_containsOrientedBox",
    "DXM.Props.C90_containsFrustum",
    "DXM.Props.C90_containsTriangle",
    "DXM.Props.C90_getCorners",
    "DXM.Props.C90_fromOffCenterLH",
    "DXM.Props.C90_fromOffCenterRH",
    "DXM.Props.C90_fromPerspectiveLH",
    "DXM.Props.C90_fromPerspectiveRH",
    "DXM.Props.C90_clipLH",
    "DXM.Props.C90_clipRH"
   ],
   "note": "Exact-real lanes, all builds. Also: containment of spheres, boxes, oriented boxes, frusta and triangles in a frustum (CONTAINS iff every point passes, DISJOINT only if no shared point), and agreement with the clip volume of the projection matrices."
  },
  {
   "property": "C91",
   "status": "partial",
   "theorems": [
    "DXM.Props.C91_frustum_sound",
    "DXM.Props.C91_frustum",
    "DXM.Props.C91_box_sound",
    "DXM.Props.C91_box",
    "DXM.Props.C91_boxIntersectsFrustum",
    "DXM.Props.C91_orientedBoxIntersectsFrustum",
    "DXM.Props.C91_sphereIntersectsFrustum",
    "DXM.Props.C91_sphereContainsFrustum",
    "DXM.Props.C91_boxContainsFrustum",
    "DXM.Props.C91_orientedBoxContainsFrustum",
    "DXM.Props.C91_sphereFromFrustum",
    "DXM.Props.C91_orientedBox_sound",
    "DXM.Props.C91_orientedBox",
    "DXM.Props.C91_sphere",
    "DXM.Props.C91_triangle_partial",
    "DXM.Props.C91_triangleInside",
    "DXM.Props.C91_triangle_fails"
   ],
   "note": "Exact-real lanes, all builds. Spheres, oriented boxes, boxes and frusta: exact (true iff a shared point exists) for non-flat frusta (sphere: apex not included), never missed for every valid frustum; also the mirrored entry points, ContainsFrustum of the other volumes and the sphere created from a frustum. Triangles only for a frustum in its own frame (C91_triangle_partial): for other placements the code tests the untransformed vertices, and C91_triangle_fails exhibits a shared point that is missed."
  },
  {
   "property": "C92",
   "status": "proved",
   "theorems": [
    "DXM.Props.C92_ray",
    "DXM.Props.C92_slow_fails"
   ],
   "note": "Exact-real lanes, all builds. C92_ray: exact (hit iff the ray meets the frustum, Dist 0 from inside and otherwise the first parameter in it) for directions parallel to a face or approaching it faster than 1e-20, when the frustum is not met beyond FLT_MAX. C92_slow_fails shows the threshold is needed."
  },
  {
   "property": "C93",
   "status": "proved",
   "theorems": [
    "DXM.Props.C93_dot2",
    "DXM.Props.C93_dot3",
    "DXM.Props.C93_dot4",
    "DXM.Props.C93_lengthSq",
    "DXM.Props.C93_cross3",
    "DXM.Props.C93_cross2"
   ],
   "note": "Interpretation I (IEEE binary32, round to nearest even), any choice of NaN payloads; Near/gam in Spec/Rounding.lean."
  },
  {
   "property": "C94",
   "status": "proved",
   "theorems": [
    "DXM.Props.C94_transform4",
    "DXM.Props.C94_transform3",
    "DXM.Props.C94_transformNormal3",
    "DXM.Props.C94_transform2",
    "DXM.Props.C94_transformNormal2",
    "DXM.Props.C94_multiply",
    "DXM.Props.C94_quaternionMultiply"
   ],
   "note": "Interpretation I; error bound Near of Spec/Rounding.lean; depth 2..4 for the transforms, 4 for the matrix product, 4 for the quaternion product."
  },
  {
   "property": "C95",
   "status": "proved",
   "theorems": [
    "DXM.Props.C95_length2",
    "DXM.Props.C95_length3",
    "DXM.Props.C95_length4",
    "DXM.Props.C95_reciprocalLength2",
    "DXM.Props.C95_reciprocalLength3",
    "DXM.Props.C95_reciprocalLength4",
    "DXM.Props.C95_normalize2",
    "DXM.Props.C95_normalize3",
    "DXM.Props.C95_normalize4",
    "DXM.Props.C95_normalize_unit",
    "DXM.Props.C95_quaternionNormalize"
   ],
   "note": "Interpretation I; squared length in [2^-100, 2^126]."
  },
  {
   "property": "C96",
   "status": "proved",
   "theorems": [
    "DXM.Props.C96_boxContainsPoint",
    "DXM.Props.C96_boxIntersects",
    "DXM.Props.C96_boxContainsBox"
   ],
   "note": "Interpretation I. Forward directions hold with overflow; the converse enlarges by one rounding."
  },
  {
   "property": "C97",
   "status": "proved",
   "theorems": [
    "DXM.Props.C97_fromPoints",
    "DXM.Props.C97_merged",
    "DXM.Props.C97_fromPoints_fails"
   ],
   "note": "Interpretation I. Enclosure up to the stated margin is proved; exact enclosure is refuted by C97_fromPoints_fails."
  },
  {
   "property": "C98",
   "status": "proved",
   "theorems": [
    "DXM.Props.C98_containsPoint",
    "DXM.Props.C98_intersectsSphere",
    "DXM.Props.C98_spherePlane",
    "DXM.Props.C98_boxPlane"
   ],
   "note": "Interpretation I. Coordinates up to 2^60, radius between 2^-50 and 2^60 for the sphere tests; any finite data with planeSize at most 2^127 for the plane tests."
  },
  {
   "property": "C99",
   "status": "proved",
   "theorems": [
    "DXM.Props.C99_exp2",
    "DXM.Props.C99_exp2_special",
    "DXM.Props.C99_exp",
    "DXM.Props.C99_exp2_negative_error"
   ],
   "note": ""
  },
  {
   "property": "C100",
   "status": "proved",
   "theorems": [
    "DXM.Props.C100_cosh",
    "DXM.Props.C100_sinh",
    "DXM.Props.C100_large",
    "DXM.Props.C100_tanh",
    "DXM.Props.C100_tanh_special",
    "DXM.Props.C100_sinh_cancels"
   ],
   "note": ""
  },
  {
   "property": "C101",
   "status": "proved",
   "theorems": [
    "DXM.Props.C101_normals2",
    "DXM.Props.C101_clamped2",
    "DXM.Props.C101_vectors2",
    "DXM.Props.C101_normals3",
    "DXM.Props.C101_clamped3",
    "DXM.Props.C101_vectors3",
    "DXM.Props.C101_normals4",
    "DXM.Props.C101_clamped4",
    "DXM.Props.C101_vectors4"
   ],
   "note": ""
  },
  {
   "property": "C102",
   "status": "proved",
   "theorems": [
    "DXM.Props.C102_reciprocal",
    "DXM.Props.C102_lengthEst",
    "DXM.Props.C102_reciprocalLength2",
    "DXM.Props.C102_reciprocalLength3",
    "DXM.Props.C102_reciprocalLength4",
    "DXM.Props.C102_normalize2",
    "DXM.Props.C102_normalize3",
    "DXM.Props.C102_normalize4",
    "DXM.Props.C102_planeNormalize"
   ],
   "note": ""
  },
  {
   "property": "C103",
   "status": "proved",
   "theorems": [
    "DXM.Props.C103_equal",
    "DXM.Props.C103_identity",
    "DXM.Props.C103_refl",
    "DXM.Props.C103_planeNear",
    "DXM.Props.C103_planeNear_scale"
   ],
   "note": ""
  },
  {
   "property": "C104",
   "status": "proved",
   "theorems": [
    "DXM.Props.C104_unit",
    "DXM.Props.C104_normalized",
    "DXM.Props.C104_planeNormalize",
    "DXM.Props.C104_planeUnit"
   ],
   "note": ""
  },
  {
   "property": "C105",
   "status": "proved",
   "theorems": [
    "DXM.Props.C105_mod",
    "DXM.Props.C105_sign_fails",
    "DXM.Props.C105_convert"
   ],
   "note": ""
  },
  {
   "property": "C106",
   "status": "proved",
   "theorems": [
    "DXM.Props.C106_fromBox"
   ],
   "note": ""
  },
  {
   "property": "C107",
   "status": "proved",
   "theorems": [
    "DXM.Props.C107_tan",
    "DXM.Props.C107_tan_forward"
   ],
   "note": ""
  },
  {
   "property": "C108",
   "status": "partial",
   "theorems": [
    "DXM.Props.C108_squadSetup_partial",
    "DXM.Props.C108_squadSetup_fails"
   ],
   "note": "Proved for builds with intrinsics; refuted without (C108_squadSetup_fails): the constant -1/4 is infinite there."
  },
  {
   "property": "C109",
   "status": "partial",
   "theorems": [
    "DXM.Props.C109_baryV_partial",
    "DXM.Props.C109_baryV_fails"
   ],
   "note": "Proved for builds with intrinsics; refuted without (C109_baryV_fails): the threshold constant is infinite there."
  },
  {
   "property": "C110",
   "status": "proved",
   "theorems": [
    "DXM.Props.C110_scalar",
    "DXM.Props.C110_scalarEst",
    "DXM.Props.C110_vector",
    "DXM.Props.C110_vectorEst",
    "DXM.Props.C110_scalar_large_fails"
   ],
   "note": "binary32; XMScalarSin(2^36) is shown not to be finite"
  },
  {
   "property": "C111",
   "status": "proved",
   "theorems": [
    "DXM.Props.C111_scalar",
    "DXM.Props.C111_vector"
   ],
   "note": "binary32"
  },
  {
   "property": "C112",
   "status": "proved",
   "theorems": [
    "DXM.Props.C112_atan",
    "DXM.Props.C112_atan2"
   ],
   "note": "binary32"
  },
  {
   "property": "C113",
   "status": "partial",
   "theorems": [
    "DXM.Props.C113_scalar",
    "DXM.Props.C113_vector",
    "DXM.Props.C113_atan2_partial",
    "DXM.Props.C113_atan2_fails"
   ],
   "note": "ATan2 drops a NaN when the other argument is zero, or y infinite; negation proved, all other combinations proved"
  },
  {
   "property": "C114",
   "status": "proved",
   "theorems": [
    "DXM.Props.C114_get",
    "DXM.Props.C114_set",
    "DXM.Props.C114_history",
    "DXM.Props.C114_index_out_of_range",
    "DXM.Props.C114_construct",
    "DXM.Props.C114_pow",
    "DXM.Props.C114_minmax_linear",
    "DXM.Props.C114_minmax_f32",
    "DXM.Props.C114_quaternion"
   ],
   "note": "any lane type; exact reals for the quaternion measures"
  },
  {
   "property": "C115",
   "status": "proved",
   "theorems": [
    "DXM.Props.C115_vectors2",
    "DXM.Props.C115_vectors3",
    "DXM.Props.C115_vectors4",
    "DXM.Props.C115_normals"
   ],
   "note": "builds with intrinsics; the scalar build calls the platform's acos through the same clamp (C101)"
  },
  {
   "property": "C116",
   "status": "proved",
   "theorems": [
    "DXM.Props.C116_atan2Est",
    "DXM.Props.C116_tanEst"
   ],
   "note": "builds with intrinsics; the scalar build calls the platform's tan and atan2"
  },
  {
   "property": "C117",
   "status": "proved",
   "theorems": [
    "DXM.Props.C117_rotationNormal",
    "DXM.Props.C117_xyz",
    "DXM.Props.C117_rotationAxis",
    "DXM.Props.C117_quaternionRotationNormal",
    "DXM.Props.C117_quaternionRotationAxis",
    "DXM.Props.C117_rotationQuaternion",
    "DXM.Props.C117_quaternionRollPitchYaw",
    "DXM.Props.C117_rotationRollPitchYaw",
    "DXM.Props.C117_rotate",
    "DXM.Props.C117_inverseRotate"
   ],
   "note": "roll-pitch-yaw in builds with intrinsics only: the scalar build calls the platform's sin and cos per lane"
  },
  {
   "property": "C118",
   "status": "proved",
   "theorems": [
    "DXM.Props.C118_determinant",
    "DXM.Props.C118_inverse"
   ],
   "note": "a forward bound; nearly singular matrices (|det| < B^4/20000) are outside it"
  },
  {
   "property": "C119",
   "status": "proved",
   "theorems": [
    "DXM.Props.C119_lerp",
    "DXM.Props.C119_lerpV",
    "DXM.Props.C119_baryCentric",
    "DXM.Props.C119_baryCentricV",
    "DXM.Props.C119_lerp_mono",
    "DXM.Props.C119_lerp_zero",
    "DXM.Props.C119_lerp_above",
    "DXM.Props.C119_lerp_one",
    "DXM.Props.C119_hermite",
    "DXM.Props.C119_hermiteV",
    "DXM.Props.C119_catmullRom",
    "DXM.Props.C119_catmullRomV"
   ],
   "note": "the endpoint at t = 1 is not exact: witness C119_lerp_one"
  },
  {
   "property": "C120",
   "status": "proved",
   "theorems": [
    "DXM.Props.C120_reflect2",
    "DXM.Props.C120_reflect3",
    "DXM.Props.C120_reflect4",
    "DXM.Props.C120_planeDot",
    "DXM.Props.C120_planeFromPointNormal",
    "DXM.Props.C120_planeTransform",
    "DXM.Props.C120_transformCoord3",
    "DXM.Props.C120_transformCoord2",
    "DXM.Props.C120_componentsFromNormal",
    "DXM.Props.C120_cross4",
    "DXM.Props.C120_planeIntersectLine"
   ],
   "note": "forward bounds; nearly parallel lines and vanishing w are outside them"
  },
  {
   "property": "C121",
   "status": "proved",
   "theorems": [
    "DXM.Props.C121_perspectiveLH",
    "DXM.Props.C121_perspectiveRH",
    "DXM.Props.C121_perspectiveOffCenterLH",
    "DXM.Props.C121_perspectiveOffCenterRH",
    "DXM.Props.C121_orthographicLH",
    "DXM.Props.C121_orthographicRH",
    "DXM.Props.C121_perspectiveFovLH",
    "DXM.Props.C121_perspectiveFovRH"
   ],
   "note": ""
  },
  {
   "property": "C122",
   "status": "proved",
   "theorems": [
    "DXM.Props.C122_lookToLH",
    "DXM.Props.C122_lookToRH",
    "DXM.Props.C122_lookAtLH",
    "DXM.Props.C122_lookAtRH"
   ],
   "note": ""
  },
  {
   "property": "C123",
   "status": "proved",
   "theorems": [
    "DXM.Props.C123_same_without_fma",
    "DXM.Props.C123_same_number",
    "DXM.Props.C123_reflect3_same_number",
    "DXM.Props.C123_projections_identical",
    "DXM.Props.C123_fma_differs",
    "DXM.Props.C123_sum_differs",
    "DXM.Props.C123_dot4_differs",
    "DXM.Props.C123_length3_differs",
    "DXM.Props.C123_multiply_differs"
   ],
   "note": ""
  },
  {
   "property": "C124",
   "status": "proved",
   "theorems": [
    "DXM.Props.C124_identity_transform",
    "DXM.Props.C124_identity_multiply",
    "DXM.Props.C124_translate",
    "DXM.Props.C124_scale",
    "DXM.Props.C124_translate_compose",
    "DXM.Props.C124_scale_compose",
    "DXM.Props.C124_translate_inverse",
    "DXM.Props.C124_identity_quaternion",
    "DXM.Props.C124_zero_rotation"
   ],
   "note": ""
  },
  {
   "property": "C125",
   "status": "proved",
   "theorems": [
    "DXM.Props.C125_dot_symmetric",
    "DXM.Props.C125_distance_symmetric",
    "DXM.Props.C125_length_negate",
    "DXM.Props.C125_subtract_antisymmetric",
    "DXM.Props.C125_cross_antisymmetric",
    "DXM.Props.C125_cross_self",
    "DXM.Props.C125_cross_self_fma"
   ],
   "note": ""
  },
  {
   "property": "C126",
   "status": "proved",
   "theorems": [
    "DXM.Props.C126_contains_intersects",
    "DXM.Props.C126_box_box",
    "DXM.Props.C126_box_transitive",
    "DXM.Props.C126_box_self",
    "DXM.Props.C126_sphere_symmetric",
    "DXM.Props.C126_box_sphere",
    "DXM.Props.C126_box_sphere_nan",
    "DXM.Props.C126_orientedBox_sphere",
    "DXM.Props.C126_sphere_self",
    "DXM.Props.C126_sphere_sphere_overflow"
   ],
   "note": ""
  },
  {
   "property": "C127",
   "status": "partial",
   "theorems": [
    "DXM.Props.C127_propagates",
    "DXM.Props.C127_containsPoint_partial",
    "DXM.Props.C127_frustum_fails",
    "DXM.Props.C127_sphere_sphere",
    "DXM.Props.C127_box_box_contains",
    "DXM.Props.C127_box_box_fails",
    "DXM.Props.C127_ray_sphere_fails"
   ],
   "note": "Holds for points in spheres, boxes and oriented boxes, sphere against sphere and box containment; false for frusta, box-box intersection and ray-sphere (C127_frustum_fails, C127_box_box_fails, C127_ray_sphere_fails)."
  },
  {
   "property": "C128",
   "status": "proved",
   "theorems": [
    "DXM.Props.C128_sphere",
    "DXM.Props.C128_sphere_sphere",
    "DXM.Props.C128_box",
    "DXM.Props.C128_orientedBox"
   ],
   "note": "Points and other shapes may hold any bits; the sizes are finite and radii not negative."
  },
  {
   "property": "C129",
   "status": "proved",
   "theorems": [
    "DXM.Props.C129_hermite",
    "DXM.Props.C129_hermiteV",
    "DXM.Props.C129_catmullRom",
    "DXM.Props.C129_catmullRomV",
    "DXM.Props.C129_lerp_overflow",
    "DXM.Props.C129_lerp_constant",
    "DXM.Props.C129_baryCentric",
    "DXM.Props.C129_catmullRomV_overflow"
   ],
   "note": "Exact end points; the overflow cases of the per-lane Catmull-Rom form and of linear interpolation are characterised by C129_catmullRomV_overflow and C129_lerp_overflow. Equality up to the sign of a zero."
  },
  {
   "property": "C130",
   "status": "partial",
   "theorems": [
    "DXM.Props.C130_length2",
    "DXM.Props.C130_normalize2_partial",
    "DXM.Props.C130_length3",
    "DXM.Props.C130_normalize3_partial",
    "DXM.Props.C130_length4",
    "DXM.Props.C130_normalize4_partial",
    "DXM.Props.C130_normalize_noi"
   ],
   "note": "Lengths are exact in every build. Normalization is exact only in builds with intrinsics; C130_normalize_noi proves the failure without them."
  },
  {
   "property": "C131",
   "status": "proved",
   "theorems": [
    "DXM.Props.C131_renormalizedChain",
    "DXM.Props.C131_rawChain"
   ],
   "note": "computedChain and rawChain are loops a user writes around the modelled functions; exactChain is the product of real quaternions."
  },
  {
   "property": "C132",
   "status": "proved",
   "theorems": [
    "DXM.Props.C132_matrixChain"
   ],
   "note": "matrixChain is the loop a user writes around XMMatrixMultiply; the exact product is a product of real matrices."
  },
  {
   "property": "C133",
   "status": "proved",
   "theorems": [
    "DXM.Props.C133_sum",
    "DXM.Props.C133_blend",
    "DXM.Props.C133_convex"
   ],
   "note": "The loops sumLoop and blendLoop are the user's loops around the library calls."
  },
  {
   "property": "C134",
   "status": "proved",
   "theorems": [
    "DXM.Props.C134_orientedBox",
    "DXM.Props.C134_frustum"
   ],
   "note": "The frustum margin is stated per face with frustumFace of Spec/Geometry."
  },
  {
   "property": "C135",
   "status": "proved",
   "theorems": [
    "DXM.Props.C135_boxIntersectsSphere",
    "DXM.Props.C135_boxSphereDisjoint"
   ],
   "note": "ball, boxSet and len are the real geometry of Spec/Geometry."
  },
  {
   "property": "C136",
   "status": "proved",
   "theorems": [
    "DXM.Props.C136_orientedBoxSphere"
   ],
   "note": "ball, obox and len are the real geometry of Spec/Geometry."
  },
  {
   "property": "C137",
   "status": "proved",
   "theorems": [
    "DXM.Props.C137_orientedBox",
    "DXM.Props.C137_orientedBoxDisjoint",
    "DXM.Props.C137_box"
   ],
   "note": "inflate B d is the box with every extent changed by d; ball and obox are the real geometry of Spec/Geometry."
  },
  {
   "property": "C138",
   "status": "proved",
   "theorems": [
    "DXM.Props.C138_sphere",
    "DXM.Props.C138_box",
    "DXM.Props.C138_triangle"
   ],
   "note": "ball, boxSet, tri and planeAt are the real geometry of Spec/Geometry; the oriented box and the frustum as the volume tested are proved in the exact interpretation (C82)."
  },
  {
   "property": "C139",
   "status": "proved",
   "theorems": [
    "DXM.Props.C139_sphereMerged"
   ],
   "note": "ball is the real geometry of Spec/Geometry; minimality is stated against every real ball containing both. Centers closer than 2^-40 are not covered: squares of differences may underflow there."
  },
  {
   "property": "C140",
   "status": "proved",
   "theorems": [
    "DXM.Props.C140_length3",
    "DXM.Props.C140_linePointDistance3"
   ],
   "note": "The statement is that of C32 (exact interpretation) up to a margin; len is the real length of Spec/Real."
  },
  {
   "property": "C141",
   "status": "proved",
   "theorems": [
    "DXM.Props.C141_sphereFromBox",
    "DXM.Props.C141_sphereFromOrientedBox",
    "DXM.Props.C141_boxFromSphere"
   ],
   "note": "ball, box and obox are the real geometry of Spec/Geometry. The orientation of the oriented box plays no part in the sphere, so the theorem holds for every unit quaternion."
  },
  {
   "property": "C142",
   "status": "proved",
   "theorems": [
    "DXM.Props.C142_sphereTransform"
   ],
   "note": "With eta = 0 this is C87_sphere up to the rounding margin. Without near orthogonality the code can miss images (C87_sphere_shear_fails)."
  },
  {
   "property": "C143",
   "status": "proved",
   "theorems": [
    "DXM.Props.C143_sphereDecomposed"
   ],
   "note": "The rounded form of C87_sphereDecomposed, in both directions."
  },
  {
   "property": "C144",
   "status": "proved",
   "theorems": [
    "DXM.Props.C144_orientedBoxDecomposed",
    "DXM.Props.C144_frustumDecomposed"
   ],
   "note": "The rounded form of C87_orientedBoxDecomposed (both directions) and, by components, of C87_frustumDecomposed."
  },
  {
   "property": "C145",
   "status": "proved",
   "theorems": [
    "DXM.Props.C145_boxDecomposed",
    "DXM.Props.C145_boxTransform"
   ],
   "note": "The rounded form of C87_box and C87_boxDecomposed: enclosure and minimality up to the margin."
  },
  {
   "property": "C146",
   "status": "proved",
   "theorems": [
    "DXM.Props.C146_boxCorners",
    "DXM.Props.C146_orientedBoxCorners",
    "DXM.Props.C146_frustumCorners"
   ],
   "note": "The rounded form of the exact corner theorems (C90_getCorners for the frustum)."
  },
  {
   "property": "C147",
   "status": "proved",
   "theorems": [
    "DXM.Props.C147_sphereTriangle_iff",
    "DXM.Props.C147_boxTriangle_iff",
    "DXM.Props.C147_sphereTriangle",
    "DXM.Props.C147_boxTriangle"
   ],
   "note": "Nothing is claimed here about IntersectsTriangle itself in single precision."
  },
  {
   "property": "C148",
   "status": "proved",
   "theorems": [
    "DXM.Props.C148_boxFrustum_iff",
    "DXM.Props.C148_orientedBoxFrustum_iff",
    "DXM.Props.C148_boxFrustum"
   ],
   "note": "Nothing is claimed here about IntersectsFrustum itself in single precision; the metric claim is for axis-aligned boxes."
  }
 ]
}