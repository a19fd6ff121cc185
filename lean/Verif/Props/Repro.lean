import Verif.Props.FloatProj
import Verif.Lemmas.FEval

/-
C123: which results are the same in every build, and which are not.
`Same`: identical bits, or both NaN.  `SameNum`: equal numbers (+0 = -0), or both NaN (Spec/Same.lean).
-/

set_option linter.all false

namespace DXM.Props
open DXM.Spec
variable {P : Env}

/-- The build without intrinsics. -/
def noi : Cfg := ⟨false, false, false, false, false, false, false, false, false⟩

theorem trV {a b d : V4 (F32 P)} (h : SameV a d) (g : SameV b d) : SameV a b :=
  ⟨h.1.trans g.1.symm, h.2.1.trans g.2.1.symm, h.2.2.1.trans g.2.2.1.symm, h.2.2.2.trans g.2.2.2.symm⟩
theorem trM {a b d : M4 (F32 P)} (h : SameM a d) (g : SameM b d) : SameM a b :=
  ⟨trV h.1 g.1, trV h.2.1 g.2.1, trV h.2.2.1 g.2.2.1, trV h.2.2.2 g.2.2.2⟩
theorem trNV {a b d : V4 (F32 P)} (h : SameNumV a d) (g : SameNumV b d) : SameNumV a b :=
  ⟨h.1.trans g.1.symm, h.2.1.trans g.2.1.symm, h.2.2.1.trans g.2.2.1.symm, h.2.2.2.trans g.2.2.2.symm⟩
theorem trNM {a b d : M4 (F32 P)} (h : SameNumM a d) (g : SameNumM b d) : SameNumM a b :=
  ⟨trNV h.1 g.1, trNV h.2.1 g.2.1, trNV h.2.2.1 g.2.2.1, trNV h.2.2.2 g.2.2.2⟩

theorem XMVectorMultiplyAdd_noi (c : Cfg) (hf : c.fma = false) (V1 V2 V3 : V4 (F32 P)) : SameV (XMVectorMultiplyAdd c V1 V2 V3) (XMVectorMultiplyAdd noi V1 V2 V3) := by
  simp [XMVectorMultiplyAdd, noi, SSE.fmadd, SSE.fnmadd, hf, SameM, SameV, SameNumM, SameNumV, V4.splat, V4.map, V4.map2, V4.map3, V4.lane, XMVectorScale, XMVectorMultiplyAdd, XMVectorNegativeMultiplySubtract, XMVector2Dot, XMVector3Dot, sum3ss, sum3h, sum3ss', XMVectorSqrt, XMVector2LengthSq, XMVector3LengthSq, g_XMMask3, g_XMIdentityR0, g_XMIdentityR1, g_XMIdentityR2, g_XMIdentityR3, g_XMNegateX, g_XMNegateY, g_XMNegateZ, LawfulLane.band_ones_right, LawfulLane.band_zero_right, XMVectorMultiply, XMVectorAdd, XMVectorSubtract, XMVectorSplatX, XMVectorSplatY, XMVectorSplatZ, XMVectorSplatW, XMVectorReplicate, XMVectorSwizzleC, XMVectorSwizzle, Outcome.getD, gather4, V4.lane?]
  all_goals (try split_ifs)
  all_goals ((try simp) <;> (repeat' with_reducible apply And.intro) <;> same)
theorem XMVectorNegativeMultiplySubtract_noi (c : Cfg) (hf : c.fma = false) (V1 V2 V3 : V4 (F32 P)) : SameV (XMVectorNegativeMultiplySubtract c V1 V2 V3) (XMVectorNegativeMultiplySubtract noi V1 V2 V3) := by
  simp [XMVectorNegativeMultiplySubtract, noi, SSE.fmadd, SSE.fnmadd, hf, SameM, SameV, SameNumM, SameNumV, V4.splat, V4.map, V4.map2, V4.map3, V4.lane, XMVectorScale, XMVectorMultiplyAdd, XMVectorNegativeMultiplySubtract, XMVector2Dot, XMVector3Dot, sum3ss, sum3h, sum3ss', XMVectorSqrt, XMVector2LengthSq, XMVector3LengthSq, g_XMMask3, g_XMIdentityR0, g_XMIdentityR1, g_XMIdentityR2, g_XMIdentityR3, g_XMNegateX, g_XMNegateY, g_XMNegateZ, LawfulLane.band_ones_right, LawfulLane.band_zero_right, XMVectorMultiply, XMVectorAdd, XMVectorSubtract, XMVectorSplatX, XMVectorSplatY, XMVectorSplatZ, XMVectorSplatW, XMVectorReplicate, XMVectorSwizzleC, XMVectorSwizzle, Outcome.getD, gather4, V4.lane?]
  all_goals (try split_ifs)
  all_goals ((try simp) <;> (repeat' with_reducible apply And.intro) <;> same)
theorem XMVectorScale_noi (c : Cfg) (hf : c.fma = false) (V : V4 (F32 P)) (s : F32 P) : SameV (XMVectorScale c V s) (XMVectorScale noi V s) := by
  simp [XMVectorScale, noi, SSE.fmadd, SSE.fnmadd, hf, SameM, SameV, SameNumM, SameNumV, V4.splat, V4.map, V4.map2, V4.map3, V4.lane, XMVectorScale, XMVectorMultiplyAdd, XMVectorNegativeMultiplySubtract, XMVector2Dot, XMVector3Dot, sum3ss, sum3h, sum3ss', XMVectorSqrt, XMVector2LengthSq, XMVector3LengthSq, g_XMMask3, g_XMIdentityR0, g_XMIdentityR1, g_XMIdentityR2, g_XMIdentityR3, g_XMNegateX, g_XMNegateY, g_XMNegateZ, LawfulLane.band_ones_right, LawfulLane.band_zero_right, XMVectorMultiply, XMVectorAdd, XMVectorSubtract, XMVectorSplatX, XMVectorSplatY, XMVectorSplatZ, XMVectorSplatW, XMVectorReplicate, XMVectorSwizzleC, XMVectorSwizzle, Outcome.getD, gather4, V4.lane?]
  all_goals (try split_ifs)
  all_goals ((try simp) <;> (repeat' with_reducible apply And.intro) <;> same)
theorem XMVector2Cross_noi (c : Cfg) (hf : c.fma = false) (V1 V2 : V4 (F32 P)) : SameV (XMVector2Cross c V1 V2) (XMVector2Cross noi V1 V2) := by
  simp [XMVector2Cross, noi, SSE.fmadd, SSE.fnmadd, hf, SameM, SameV, SameNumM, SameNumV, V4.splat, V4.map, V4.map2, V4.map3, V4.lane, XMVectorScale, XMVectorMultiplyAdd, XMVectorNegativeMultiplySubtract, XMVector2Dot, XMVector3Dot, sum3ss, sum3h, sum3ss', XMVectorSqrt, XMVector2LengthSq, XMVector3LengthSq, g_XMMask3, g_XMIdentityR0, g_XMIdentityR1, g_XMIdentityR2, g_XMIdentityR3, g_XMNegateX, g_XMNegateY, g_XMNegateZ, LawfulLane.band_ones_right, LawfulLane.band_zero_right, XMVectorMultiply, XMVectorAdd, XMVectorSubtract, XMVectorSplatX, XMVectorSplatY, XMVectorSplatZ, XMVectorSplatW, XMVectorReplicate, XMVectorSwizzleC, XMVectorSwizzle, Outcome.getD, gather4, V4.lane?]
  all_goals (try split_ifs)
  all_goals ((try simp) <;> (repeat' with_reducible apply And.intro) <;> same)
theorem XMVector2LengthSq_noi (c : Cfg) (hf : c.fma = false) (V : V4 (F32 P)) : SameV (XMVector2LengthSq c V) (XMVector2LengthSq noi V) := by
  simp [XMVector2LengthSq, noi, SSE.fmadd, SSE.fnmadd, hf, SameM, SameV, SameNumM, SameNumV, V4.splat, V4.map, V4.map2, V4.map3, V4.lane, XMVectorScale, XMVectorMultiplyAdd, XMVectorNegativeMultiplySubtract, XMVector2Dot, XMVector3Dot, sum3ss, sum3h, sum3ss', XMVectorSqrt, XMVector2LengthSq, XMVector3LengthSq, g_XMMask3, g_XMIdentityR0, g_XMIdentityR1, g_XMIdentityR2, g_XMIdentityR3, g_XMNegateX, g_XMNegateY, g_XMNegateZ, LawfulLane.band_ones_right, LawfulLane.band_zero_right, XMVectorMultiply, XMVectorAdd, XMVectorSubtract, XMVectorSplatX, XMVectorSplatY, XMVectorSplatZ, XMVectorSplatW, XMVectorReplicate, XMVectorSwizzleC, XMVectorSwizzle, Outcome.getD, gather4, V4.lane?]
  all_goals (try split_ifs)
  all_goals ((try simp) <;> (repeat' with_reducible apply And.intro) <;> same)
theorem XMVector2Reflect_noi (c : Cfg) (hf : c.fma = false) (Incident Normal : V4 (F32 P)) : SameV (XMVector2Reflect c Incident Normal) (XMVector2Reflect noi Incident Normal) := by
  simp [XMVector2Reflect, noi, SSE.fmadd, SSE.fnmadd, hf, SameM, SameV, SameNumM, SameNumV, V4.splat, V4.map, V4.map2, V4.map3, V4.lane, XMVectorScale, XMVectorMultiplyAdd, XMVectorNegativeMultiplySubtract, XMVector2Dot, XMVector3Dot, sum3ss, sum3h, sum3ss', XMVectorSqrt, XMVector2LengthSq, XMVector3LengthSq, g_XMMask3, g_XMIdentityR0, g_XMIdentityR1, g_XMIdentityR2, g_XMIdentityR3, g_XMNegateX, g_XMNegateY, g_XMNegateZ, LawfulLane.band_ones_right, LawfulLane.band_zero_right, XMVectorMultiply, XMVectorAdd, XMVectorSubtract, XMVectorSplatX, XMVectorSplatY, XMVectorSplatZ, XMVectorSplatW, XMVectorReplicate, XMVectorSwizzleC, XMVectorSwizzle, Outcome.getD, gather4, V4.lane?]
  all_goals (try split_ifs)
  all_goals ((try simp) <;> (repeat' with_reducible apply And.intro) <;> same)
theorem XMVector2Transform_noi (c : Cfg) (hf : c.fma = false) (V : V4 (F32 P)) (M : M4 (F32 P)) : SameV (XMVector2Transform c V M) (XMVector2Transform noi V M) := by
  simp [XMVector2Transform, noi, SSE.fmadd, SSE.fnmadd, hf, SameM, SameV, SameNumM, SameNumV, V4.splat, V4.map, V4.map2, V4.map3, V4.lane, XMVectorScale, XMVectorMultiplyAdd, XMVectorNegativeMultiplySubtract, XMVector2Dot, XMVector3Dot, sum3ss, sum3h, sum3ss', XMVectorSqrt, XMVector2LengthSq, XMVector3LengthSq, g_XMMask3, g_XMIdentityR0, g_XMIdentityR1, g_XMIdentityR2, g_XMIdentityR3, g_XMNegateX, g_XMNegateY, g_XMNegateZ, LawfulLane.band_ones_right, LawfulLane.band_zero_right, XMVectorMultiply, XMVectorAdd, XMVectorSubtract, XMVectorSplatX, XMVectorSplatY, XMVectorSplatZ, XMVectorSplatW, XMVectorReplicate, XMVectorSwizzleC, XMVectorSwizzle, Outcome.getD, gather4, V4.lane?]
  all_goals (try split_ifs)
  all_goals ((try simp) <;> (repeat' with_reducible apply And.intro) <;> same)
theorem XMVector2TransformCoord_noi (c : Cfg) (hf : c.fma = false) (V : V4 (F32 P)) (M : M4 (F32 P)) : SameV (XMVector2TransformCoord c V M) (XMVector2TransformCoord noi V M) := by
  simp [XMVector2TransformCoord, noi, SSE.fmadd, SSE.fnmadd, hf, SameM, SameV, SameNumM, SameNumV, V4.splat, V4.map, V4.map2, V4.map3, V4.lane, XMVectorScale, XMVectorMultiplyAdd, XMVectorNegativeMultiplySubtract, XMVector2Dot, XMVector3Dot, sum3ss, sum3h, sum3ss', XMVectorSqrt, XMVector2LengthSq, XMVector3LengthSq, g_XMMask3, g_XMIdentityR0, g_XMIdentityR1, g_XMIdentityR2, g_XMIdentityR3, g_XMNegateX, g_XMNegateY, g_XMNegateZ, LawfulLane.band_ones_right, LawfulLane.band_zero_right, XMVectorMultiply, XMVectorAdd, XMVectorSubtract, XMVectorSplatX, XMVectorSplatY, XMVectorSplatZ, XMVectorSplatW, XMVectorReplicate, XMVectorSwizzleC, XMVectorSwizzle, Outcome.getD, gather4, V4.lane?]
  all_goals (try split_ifs)
  all_goals ((try simp) <;> (repeat' with_reducible apply And.intro) <;> same)
theorem XMVector2TransformNormal_noi (c : Cfg) (hf : c.fma = false) (V : V4 (F32 P)) (M : M4 (F32 P)) : SameV (XMVector2TransformNormal c V M) (XMVector2TransformNormal noi V M) := by
  simp [XMVector2TransformNormal, noi, SSE.fmadd, SSE.fnmadd, hf, SameM, SameV, SameNumM, SameNumV, V4.splat, V4.map, V4.map2, V4.map3, V4.lane, XMVectorScale, XMVectorMultiplyAdd, XMVectorNegativeMultiplySubtract, XMVector2Dot, XMVector3Dot, sum3ss, sum3h, sum3ss', XMVectorSqrt, XMVector2LengthSq, XMVector3LengthSq, g_XMMask3, g_XMIdentityR0, g_XMIdentityR1, g_XMIdentityR2, g_XMIdentityR3, g_XMNegateX, g_XMNegateY, g_XMNegateZ, LawfulLane.band_ones_right, LawfulLane.band_zero_right, XMVectorMultiply, XMVectorAdd, XMVectorSubtract, XMVectorSplatX, XMVectorSplatY, XMVectorSplatZ, XMVectorSplatW, XMVectorReplicate, XMVectorSwizzleC, XMVectorSwizzle, Outcome.getD, gather4, V4.lane?]
  all_goals (try split_ifs)
  all_goals ((try simp) <;> (repeat' with_reducible apply And.intro) <;> same)
theorem XMVector3Cross_noi (c : Cfg) (hf : c.fma = false) (V1 V2 : V4 (F32 P)) : SameV (XMVector3Cross c V1 V2) (XMVector3Cross noi V1 V2) := by
  simp [XMVector3Cross, noi, SSE.fmadd, SSE.fnmadd, hf, SameM, SameV, SameNumM, SameNumV, V4.splat, V4.map, V4.map2, V4.map3, V4.lane, XMVectorScale, XMVectorMultiplyAdd, XMVectorNegativeMultiplySubtract, XMVector2Dot, XMVector3Dot, sum3ss, sum3h, sum3ss', XMVectorSqrt, XMVector2LengthSq, XMVector3LengthSq, g_XMMask3, g_XMIdentityR0, g_XMIdentityR1, g_XMIdentityR2, g_XMIdentityR3, g_XMNegateX, g_XMNegateY, g_XMNegateZ, LawfulLane.band_ones_right, LawfulLane.band_zero_right, XMVectorMultiply, XMVectorAdd, XMVectorSubtract, XMVectorSplatX, XMVectorSplatY, XMVectorSplatZ, XMVectorSplatW, XMVectorReplicate, XMVectorSwizzleC, XMVectorSwizzle, Outcome.getD, gather4, V4.lane?]
  all_goals (try split_ifs)
  all_goals ((try simp) <;> (repeat' with_reducible apply And.intro) <;> same)
theorem XMVector3Transform_noi (c : Cfg) (hf : c.fma = false) (V : V4 (F32 P)) (M : M4 (F32 P)) : SameV (XMVector3Transform c V M) (XMVector3Transform noi V M) := by
  simp [XMVector3Transform, noi, SSE.fmadd, SSE.fnmadd, hf, SameM, SameV, SameNumM, SameNumV, V4.splat, V4.map, V4.map2, V4.map3, V4.lane, XMVectorScale, XMVectorMultiplyAdd, XMVectorNegativeMultiplySubtract, XMVector2Dot, XMVector3Dot, sum3ss, sum3h, sum3ss', XMVectorSqrt, XMVector2LengthSq, XMVector3LengthSq, g_XMMask3, g_XMIdentityR0, g_XMIdentityR1, g_XMIdentityR2, g_XMIdentityR3, g_XMNegateX, g_XMNegateY, g_XMNegateZ, LawfulLane.band_ones_right, LawfulLane.band_zero_right, XMVectorMultiply, XMVectorAdd, XMVectorSubtract, XMVectorSplatX, XMVectorSplatY, XMVectorSplatZ, XMVectorSplatW, XMVectorReplicate, XMVectorSwizzleC, XMVectorSwizzle, Outcome.getD, gather4, V4.lane?]
  all_goals (try split_ifs)
  all_goals ((try simp) <;> (repeat' with_reducible apply And.intro) <;> same)
theorem XMVector3TransformCoord_noi (c : Cfg) (hf : c.fma = false) (V : V4 (F32 P)) (M : M4 (F32 P)) : SameV (XMVector3TransformCoord c V M) (XMVector3TransformCoord noi V M) := by
  simp [XMVector3TransformCoord, noi, SSE.fmadd, SSE.fnmadd, hf, SameM, SameV, SameNumM, SameNumV, V4.splat, V4.map, V4.map2, V4.map3, V4.lane, XMVectorScale, XMVectorMultiplyAdd, XMVectorNegativeMultiplySubtract, XMVector2Dot, XMVector3Dot, sum3ss, sum3h, sum3ss', XMVectorSqrt, XMVector2LengthSq, XMVector3LengthSq, g_XMMask3, g_XMIdentityR0, g_XMIdentityR1, g_XMIdentityR2, g_XMIdentityR3, g_XMNegateX, g_XMNegateY, g_XMNegateZ, LawfulLane.band_ones_right, LawfulLane.band_zero_right, XMVectorMultiply, XMVectorAdd, XMVectorSubtract, XMVectorSplatX, XMVectorSplatY, XMVectorSplatZ, XMVectorSplatW, XMVectorReplicate, XMVectorSwizzleC, XMVectorSwizzle, Outcome.getD, gather4, V4.lane?]
  all_goals (try split_ifs)
  all_goals ((try simp) <;> (repeat' with_reducible apply And.intro) <;> same)
theorem XMVector3TransformNormal_noi (c : Cfg) (hf : c.fma = false) (V : V4 (F32 P)) (M : M4 (F32 P)) : SameV (XMVector3TransformNormal c V M) (XMVector3TransformNormal noi V M) := by
  simp [XMVector3TransformNormal, noi, SSE.fmadd, SSE.fnmadd, hf, SameM, SameV, SameNumM, SameNumV, V4.splat, V4.map, V4.map2, V4.map3, V4.lane, XMVectorScale, XMVectorMultiplyAdd, XMVectorNegativeMultiplySubtract, XMVector2Dot, XMVector3Dot, sum3ss, sum3h, sum3ss', XMVectorSqrt, XMVector2LengthSq, XMVector3LengthSq, g_XMMask3, g_XMIdentityR0, g_XMIdentityR1, g_XMIdentityR2, g_XMIdentityR3, g_XMNegateX, g_XMNegateY, g_XMNegateZ, LawfulLane.band_ones_right, LawfulLane.band_zero_right, XMVectorMultiply, XMVectorAdd, XMVectorSubtract, XMVectorSplatX, XMVectorSplatY, XMVectorSplatZ, XMVectorSplatW, XMVectorReplicate, XMVectorSwizzleC, XMVectorSwizzle, Outcome.getD, gather4, V4.lane?]
  all_goals (try split_ifs)
  all_goals ((try simp) <;> (repeat' with_reducible apply And.intro) <;> same)
theorem XMVectorLerp_noi (c : Cfg) (hf : c.fma = false) (V0 V1 : V4 (F32 P)) (t : F32 P) : SameV (XMVectorLerp c V0 V1 t) (XMVectorLerp noi V0 V1 t) := by
  simp [XMVectorLerp, noi, SSE.fmadd, SSE.fnmadd, hf, SameM, SameV, SameNumM, SameNumV, V4.splat, V4.map, V4.map2, V4.map3, V4.lane, XMVectorScale, XMVectorMultiplyAdd, XMVectorNegativeMultiplySubtract, XMVector2Dot, XMVector3Dot, sum3ss, sum3h, sum3ss', XMVectorSqrt, XMVector2LengthSq, XMVector3LengthSq, g_XMMask3, g_XMIdentityR0, g_XMIdentityR1, g_XMIdentityR2, g_XMIdentityR3, g_XMNegateX, g_XMNegateY, g_XMNegateZ, LawfulLane.band_ones_right, LawfulLane.band_zero_right, XMVectorMultiply, XMVectorAdd, XMVectorSubtract, XMVectorSplatX, XMVectorSplatY, XMVectorSplatZ, XMVectorSplatW, XMVectorReplicate, XMVectorSwizzleC, XMVectorSwizzle, Outcome.getD, gather4, V4.lane?]
  all_goals (try split_ifs)
  all_goals ((try simp) <;> (repeat' with_reducible apply And.intro) <;> same)
theorem XMVectorLerpV_noi (c : Cfg) (hf : c.fma = false) (V0 V1 T : V4 (F32 P)) : SameV (XMVectorLerpV c V0 V1 T) (XMVectorLerpV noi V0 V1 T) := by
  simp [XMVectorLerpV, noi, SSE.fmadd, SSE.fnmadd, hf, SameM, SameV, SameNumM, SameNumV, V4.splat, V4.map, V4.map2, V4.map3, V4.lane, XMVectorScale, XMVectorMultiplyAdd, XMVectorNegativeMultiplySubtract, XMVector2Dot, XMVector3Dot, sum3ss, sum3h, sum3ss', XMVectorSqrt, XMVector2LengthSq, XMVector3LengthSq, g_XMMask3, g_XMIdentityR0, g_XMIdentityR1, g_XMIdentityR2, g_XMIdentityR3, g_XMNegateX, g_XMNegateY, g_XMNegateZ, LawfulLane.band_ones_right, LawfulLane.band_zero_right, XMVectorMultiply, XMVectorAdd, XMVectorSubtract, XMVectorSplatX, XMVectorSplatY, XMVectorSplatZ, XMVectorSplatW, XMVectorReplicate, XMVectorSwizzleC, XMVectorSwizzle, Outcome.getD, gather4, V4.lane?]
  all_goals (try split_ifs)
  all_goals ((try simp) <;> (repeat' with_reducible apply And.intro) <;> same)
theorem XMVectorHermite_noi (c : Cfg) (hf : c.fma = false) (Position0 Tangent0 Position1 Tangent1 : V4 (F32 P)) (t : F32 P) : SameV (XMVectorHermite c Position0 Tangent0 Position1 Tangent1 t) (XMVectorHermite noi Position0 Tangent0 Position1 Tangent1 t) := by
  simp [XMVectorHermite, noi, SSE.fmadd, SSE.fnmadd, hf, SameM, SameV, SameNumM, SameNumV, V4.splat, V4.map, V4.map2, V4.map3, V4.lane, XMVectorScale, XMVectorMultiplyAdd, XMVectorNegativeMultiplySubtract, XMVector2Dot, XMVector3Dot, sum3ss, sum3h, sum3ss', XMVectorSqrt, XMVector2LengthSq, XMVector3LengthSq, g_XMMask3, g_XMIdentityR0, g_XMIdentityR1, g_XMIdentityR2, g_XMIdentityR3, g_XMNegateX, g_XMNegateY, g_XMNegateZ, LawfulLane.band_ones_right, LawfulLane.band_zero_right, XMVectorMultiply, XMVectorAdd, XMVectorSubtract, XMVectorSplatX, XMVectorSplatY, XMVectorSplatZ, XMVectorSplatW, XMVectorReplicate, XMVectorSwizzleC, XMVectorSwizzle, Outcome.getD, gather4, V4.lane?]
  all_goals (try split_ifs)
  all_goals ((try simp) <;> (repeat' with_reducible apply And.intro) <;> same)
theorem XMVectorBaryCentric_noi (c : Cfg) (hf : c.fma = false) (Position0 Position1 Position2 : V4 (F32 P)) (f g : F32 P) : SameV (XMVectorBaryCentric c Position0 Position1 Position2 f g) (XMVectorBaryCentric noi Position0 Position1 Position2 f g) := by
  simp [XMVectorBaryCentric, noi, SSE.fmadd, SSE.fnmadd, hf, SameM, SameV, SameNumM, SameNumV, V4.splat, V4.map, V4.map2, V4.map3, V4.lane, XMVectorScale, XMVectorMultiplyAdd, XMVectorNegativeMultiplySubtract, XMVector2Dot, XMVector3Dot, sum3ss, sum3h, sum3ss', XMVectorSqrt, XMVector2LengthSq, XMVector3LengthSq, g_XMMask3, g_XMIdentityR0, g_XMIdentityR1, g_XMIdentityR2, g_XMIdentityR3, g_XMNegateX, g_XMNegateY, g_XMNegateZ, LawfulLane.band_ones_right, LawfulLane.band_zero_right, XMVectorMultiply, XMVectorAdd, XMVectorSubtract, XMVectorSplatX, XMVectorSplatY, XMVectorSplatZ, XMVectorSplatW, XMVectorReplicate, XMVectorSwizzleC, XMVectorSwizzle, Outcome.getD, gather4, V4.lane?]
  all_goals (try split_ifs)
  all_goals ((try simp) <;> (repeat' with_reducible apply And.intro) <;> same)
theorem XMVectorBaryCentricV_noi (c : Cfg) (hf : c.fma = false) (Position0 Position1 Position2 F G : V4 (F32 P)) : SameV (XMVectorBaryCentricV c Position0 Position1 Position2 F G) (XMVectorBaryCentricV noi Position0 Position1 Position2 F G) := by
  simp [XMVectorBaryCentricV, noi, SSE.fmadd, SSE.fnmadd, hf, SameM, SameV, SameNumM, SameNumV, V4.splat, V4.map, V4.map2, V4.map3, V4.lane, XMVectorScale, XMVectorMultiplyAdd, XMVectorNegativeMultiplySubtract, XMVector2Dot, XMVector3Dot, sum3ss, sum3h, sum3ss', XMVectorSqrt, XMVector2LengthSq, XMVector3LengthSq, g_XMMask3, g_XMIdentityR0, g_XMIdentityR1, g_XMIdentityR2, g_XMIdentityR3, g_XMNegateX, g_XMNegateY, g_XMNegateZ, LawfulLane.band_ones_right, LawfulLane.band_zero_right, XMVectorMultiply, XMVectorAdd, XMVectorSubtract, XMVectorSplatX, XMVectorSplatY, XMVectorSplatZ, XMVectorSplatW, XMVectorReplicate, XMVectorSwizzleC, XMVectorSwizzle, Outcome.getD, gather4, V4.lane?]
  all_goals (try split_ifs)
  all_goals ((try simp) <;> (repeat' with_reducible apply And.intro) <;> same)
theorem XMMatrixVectorTensorProduct_noi (c : Cfg) (hf : c.fma = false) (V1 V2 : V4 (F32 P)) : SameM (XMMatrixVectorTensorProduct c V1 V2) (XMMatrixVectorTensorProduct noi V1 V2) := by
  simp [XMMatrixVectorTensorProduct, noi, SSE.fmadd, SSE.fnmadd, hf, SameM, SameV, SameNumM, SameNumV, V4.splat, V4.map, V4.map2, V4.map3, V4.lane, XMVectorScale, XMVectorMultiplyAdd, XMVectorNegativeMultiplySubtract, XMVector2Dot, XMVector3Dot, sum3ss, sum3h, sum3ss', XMVectorSqrt, XMVector2LengthSq, XMVector3LengthSq, g_XMMask3, g_XMIdentityR0, g_XMIdentityR1, g_XMIdentityR2, g_XMIdentityR3, g_XMNegateX, g_XMNegateY, g_XMNegateZ, LawfulLane.band_ones_right, LawfulLane.band_zero_right, XMVectorMultiply, XMVectorAdd, XMVectorSubtract, XMVectorSplatX, XMVectorSplatY, XMVectorSplatZ, XMVectorSplatW, XMVectorReplicate, XMVectorSwizzleC, XMVectorSwizzle, Outcome.getD, gather4, V4.lane?]
  all_goals (try split_ifs)
  all_goals ((try simp) <;> (repeat' with_reducible apply And.intro) <;> same)

theorem dp7 (p q r : F32 P) : SameNum (Lane.add (Lane.add p q) (Lane.add r Lane.c0)) (Lane.add (Lane.add p q) r) := SameNum.add_left (SameNum.add_zero r)
theorem dp3 (p q : F32 P) : SameNum (Lane.add (Lane.add p q) (Lane.add Lane.c0 Lane.c0)) (Lane.add p q) := SameNum.add_zeros _
theorem sumV {a b : F32 P} (h : SameNum a b) : SameNumV (.splat a) (.splat b) := ⟨h, h, h, h⟩
theorem XMVector3Dot_noi (c : Cfg) (V1 V2 : V4 (F32 P)) : SameNumV (XMVector3Dot c V1 V2) (XMVector3Dot noi V1 V2) := by
  unfold XMVector3Dot
  rw [if_neg (show ¬ noi.sse = true by decide)]
  split_ifs
  · exact sumV (dp7 _ _ _)
  · exact sumV SameNum.rfl'
  · exact sumV SameNum.rfl'
theorem XMVector3LengthSq_noi (c : Cfg) (V : V4 (F32 P)) : SameNumV (XMVector3LengthSq c V) (XMVector3LengthSq noi V) := XMVector3Dot_noi c V V
theorem XMVector2Length_noi (c : Cfg) (V : V4 (F32 P)) : SameNumV (XMVector2Length c V) (XMVector2Length noi V) := by
  have e : XMVector2Length noi V = .splat (Lane.sqrt (Lane.add (Lane.mul V.x V.x) (Lane.mul V.y V.y))) := rfl
  rw [e]
  unfold XMVector2Length
  split_ifs
  · exact sumV (SameNum.sqrt (dp3 _ _))
  · exact sumV SameNum.rfl'
  · exact sumV SameNum.rfl'
  · have e : XMVector2LengthSq c V = .splat (Lane.add (Lane.mul V.x V.x) (Lane.mul V.y V.y)) := by
      unfold XMVector2LengthSq XMVector2Dot; rw [if_neg (by assumption)]
    rw [e]; exact sumV SameNum.rfl'
theorem nmsV (c : Cfg) (hf : c.fma = false) (A B C : V4 (F32 P)) : XMVectorNegativeMultiplySubtract c A B C = .map2 Lane.sub C (.map2 Lane.mul A B) := by
  simp [XMVectorNegativeMultiplySubtract, SSE.fnmadd, hf, V4.map2, V4.map3]
theorem XMVector3Reflect_noi (c : Cfg) (hf : c.fma = false) (I N : V4 (F32 P)) : SameNumV (XMVector3Reflect c I N) (XMVector3Reflect noi I N) := by
  obtain ⟨h1, h2, h3, h4⟩ := XMVector3Dot_noi c I N
  unfold XMVector3Reflect
  simp only []
  rw [nmsV c hf, nmsV noi rfl]
  exact ⟨SameNum.sub SameNum.rfl' (SameNum.mul (SameNum.add h1 h1) SameNum.rfl'), SameNum.sub SameNum.rfl' (SameNum.mul (SameNum.add h2 h2) SameNum.rfl'),
    SameNum.sub SameNum.rfl' (SameNum.mul (SameNum.add h3 h3) SameNum.rfl'), SameNum.sub SameNum.rfl' (SameNum.mul (SameNum.add h4 h4) SameNum.rfl')⟩
theorem XMQuaternionConjugate_noi (c : Cfg) (Q : V4 (F32 P)) : SameNumV (XMQuaternionConjugate c Q) (XMQuaternionConjugate noi Q) := by
  unfold XMQuaternionConjugate
  rw [if_neg (show ¬ noi.sse = true by decide)]
  split_ifs
  · exact ⟨SameNum.mul_neg_one _, SameNum.mul_neg_one _, SameNum.mul_neg_one _, SameNum.mul_one _⟩
  · exact ⟨SameNum.rfl', SameNum.rfl', SameNum.rfl', SameNum.rfl'⟩
theorem rflV (v : V4 (F32 P)) : SameNumV v v := ⟨SameNum.rfl', SameNum.rfl', SameNum.rfl', SameNum.rfl'⟩
theorem XMMatrixRotationX_noi (c : Cfg) (a : F32 P) : SameNumM (XMMatrixRotationX c a) (XMMatrixRotationX noi a) := by
  unfold XMMatrixRotationX
  generalize XMScalarSinCos a = sc
  simp only []
  rw [if_neg (show ¬ noi.sse = true by decide)]
  split_ifs
  · exact ⟨rflV _, rflV _, ⟨SameNum.mul_one _, SameNum.mul_neg_one _, SameNum.mul_one _, SameNum.mul_one _⟩, rflV _⟩
  · exact ⟨rflV _, rflV _, rflV _, rflV _⟩
theorem XMMatrixRotationY_noi (c : Cfg) (a : F32 P) : SameNumM (XMMatrixRotationY c a) (XMMatrixRotationY noi a) := by
  unfold XMMatrixRotationY
  generalize XMScalarSinCos a = sc
  simp only []
  rw [if_neg (show ¬ noi.sse = true by decide)]
  split_ifs
  · exact ⟨⟨SameNum.mul_one _, SameNum.mul_one _, SameNum.mul_neg_one _, SameNum.mul_one _⟩, rflV _, rflV _, rflV _⟩
  · exact ⟨rflV _, rflV _, rflV _, rflV _⟩
theorem XMMatrixRotationZ_noi (c : Cfg) (a : F32 P) : SameNumM (XMMatrixRotationZ c a) (XMMatrixRotationZ noi a) := by
  unfold XMMatrixRotationZ
  generalize XMScalarSinCos a = sc
  simp only []
  rw [if_neg (show ¬ noi.sse = true by decide)]
  split_ifs
  · exact ⟨rflV _, ⟨SameNum.mul_neg_one _, SameNum.mul_one _, SameNum.mul_one _, SameNum.mul_one _⟩, rflV _, rflV _⟩
  · exact ⟨rflV _, rflV _, rflV _, rflV _⟩

/-- C123: any two builds without fused multiply-add return the same floats from the functions listed. -/
theorem C123_same_without_fma (c c' : Cfg) (h : c.fma = false) (h' : c'.fma = false) :
    (∀ (V1 V2 V3 : V4 (F32 P)), SameV (XMVectorMultiplyAdd c V1 V2 V3) (XMVectorMultiplyAdd c' V1 V2 V3)) ∧
    (∀ (V1 V2 V3 : V4 (F32 P)), SameV (XMVectorNegativeMultiplySubtract c V1 V2 V3) (XMVectorNegativeMultiplySubtract c' V1 V2 V3)) ∧
    (∀ (V : V4 (F32 P)) (s : F32 P), SameV (XMVectorScale c V s) (XMVectorScale c' V s)) ∧
    (∀ (V1 V2 : V4 (F32 P)), SameV (XMVector2Cross c V1 V2) (XMVector2Cross c' V1 V2)) ∧
    (∀ (V : V4 (F32 P)), SameV (XMVector2LengthSq c V) (XMVector2LengthSq c' V)) ∧
    (∀ (Incident Normal : V4 (F32 P)), SameV (XMVector2Reflect c Incident Normal) (XMVector2Reflect c' Incident Normal)) ∧
    (∀ (V : V4 (F32 P)) (M : M4 (F32 P)), SameV (XMVector2Transform c V M) (XMVector2Transform c' V M)) ∧
    (∀ (V : V4 (F32 P)) (M : M4 (F32 P)), SameV (XMVector2TransformCoord c V M) (XMVector2TransformCoord c' V M)) ∧
    (∀ (V : V4 (F32 P)) (M : M4 (F32 P)), SameV (XMVector2TransformNormal c V M) (XMVector2TransformNormal c' V M)) ∧
    (∀ (V1 V2 : V4 (F32 P)), SameV (XMVector3Cross c V1 V2) (XMVector3Cross c' V1 V2)) ∧
    (∀ (V : V4 (F32 P)) (M : M4 (F32 P)), SameV (XMVector3Transform c V M) (XMVector3Transform c' V M)) ∧
    (∀ (V : V4 (F32 P)) (M : M4 (F32 P)), SameV (XMVector3TransformCoord c V M) (XMVector3TransformCoord c' V M)) ∧
    (∀ (V : V4 (F32 P)) (M : M4 (F32 P)), SameV (XMVector3TransformNormal c V M) (XMVector3TransformNormal c' V M)) ∧
    (∀ (V0 V1 : V4 (F32 P)) (t : F32 P), SameV (XMVectorLerp c V0 V1 t) (XMVectorLerp c' V0 V1 t)) ∧
    (∀ (V0 V1 T : V4 (F32 P)), SameV (XMVectorLerpV c V0 V1 T) (XMVectorLerpV c' V0 V1 T)) ∧
    (∀ (Position0 Tangent0 Position1 Tangent1 : V4 (F32 P)) (t : F32 P), SameV (XMVectorHermite c Position0 Tangent0 Position1 Tangent1 t) (XMVectorHermite c' Position0 Tangent0 Position1 Tangent1 t)) ∧
    (∀ (Position0 Position1 Position2 : V4 (F32 P)) (f g : F32 P), SameV (XMVectorBaryCentric c Position0 Position1 Position2 f g) (XMVectorBaryCentric c' Position0 Position1 Position2 f g)) ∧
    (∀ (Position0 Position1 Position2 F G : V4 (F32 P)), SameV (XMVectorBaryCentricV c Position0 Position1 Position2 F G) (XMVectorBaryCentricV c' Position0 Position1 Position2 F G)) ∧
    (∀ (V1 V2 : V4 (F32 P)), SameM (XMMatrixVectorTensorProduct c V1 V2) (XMMatrixVectorTensorProduct c' V1 V2)) :=
  ⟨fun V1 V2 V3 => trV (XMVectorMultiplyAdd_noi c h V1 V2 V3) (XMVectorMultiplyAdd_noi c' h' V1 V2 V3),
   fun V1 V2 V3 => trV (XMVectorNegativeMultiplySubtract_noi c h V1 V2 V3) (XMVectorNegativeMultiplySubtract_noi c' h' V1 V2 V3),
   fun V s => trV (XMVectorScale_noi c h V s) (XMVectorScale_noi c' h' V s),
   fun V1 V2 => trV (XMVector2Cross_noi c h V1 V2) (XMVector2Cross_noi c' h' V1 V2),
   fun V => trV (XMVector2LengthSq_noi c h V) (XMVector2LengthSq_noi c' h' V),
   fun Incident Normal => trV (XMVector2Reflect_noi c h Incident Normal) (XMVector2Reflect_noi c' h' Incident Normal),
   fun V M => trV (XMVector2Transform_noi c h V M) (XMVector2Transform_noi c' h' V M),
   fun V M => trV (XMVector2TransformCoord_noi c h V M) (XMVector2TransformCoord_noi c' h' V M),
   fun V M => trV (XMVector2TransformNormal_noi c h V M) (XMVector2TransformNormal_noi c' h' V M),
   fun V1 V2 => trV (XMVector3Cross_noi c h V1 V2) (XMVector3Cross_noi c' h' V1 V2),
   fun V M => trV (XMVector3Transform_noi c h V M) (XMVector3Transform_noi c' h' V M),
   fun V M => trV (XMVector3TransformCoord_noi c h V M) (XMVector3TransformCoord_noi c' h' V M),
   fun V M => trV (XMVector3TransformNormal_noi c h V M) (XMVector3TransformNormal_noi c' h' V M),
   fun V0 V1 t => trV (XMVectorLerp_noi c h V0 V1 t) (XMVectorLerp_noi c' h' V0 V1 t),
   fun V0 V1 T => trV (XMVectorLerpV_noi c h V0 V1 T) (XMVectorLerpV_noi c' h' V0 V1 T),
   fun Position0 Tangent0 Position1 Tangent1 t => trV (XMVectorHermite_noi c h Position0 Tangent0 Position1 Tangent1 t) (XMVectorHermite_noi c' h' Position0 Tangent0 Position1 Tangent1 t),
   fun Position0 Position1 Position2 f g => trV (XMVectorBaryCentric_noi c h Position0 Position1 Position2 f g) (XMVectorBaryCentric_noi c' h' Position0 Position1 Position2 f g),
   fun Position0 Position1 Position2 F G => trV (XMVectorBaryCentricV_noi c h Position0 Position1 Position2 F G) (XMVectorBaryCentricV_noi c' h' Position0 Position1 Position2 F G),
   fun V1 V2 => trM (XMMatrixVectorTensorProduct_noi c h V1 V2) (XMMatrixVectorTensorProduct_noi c' h' V1 V2)⟩

/-- C123: any two builds return the same numbers (zeros may differ in sign) from the functions listed. -/
theorem C123_same_number (c c' : Cfg) :
    (∀ (V1 V2 : V4 (F32 P)), SameNumV (XMVector3Dot c V1 V2) (XMVector3Dot c' V1 V2)) ∧
    (∀ (V : V4 (F32 P)), SameNumV (XMVector3LengthSq c V) (XMVector3LengthSq c' V)) ∧
    (∀ (V : V4 (F32 P)), SameNumV (XMVector2Length c V) (XMVector2Length c' V)) ∧
    (∀ (Q : V4 (F32 P)), SameNumV (XMQuaternionConjugate c Q) (XMQuaternionConjugate c' Q)) ∧
    (∀ (a : F32 P), SameNumM (XMMatrixRotationX c a) (XMMatrixRotationX c' a)) ∧
    (∀ (a : F32 P), SameNumM (XMMatrixRotationY c a) (XMMatrixRotationY c' a)) ∧
    (∀ (a : F32 P), SameNumM (XMMatrixRotationZ c a) (XMMatrixRotationZ c' a)) :=
  ⟨fun V1 V2 => trNV (XMVector3Dot_noi c V1 V2) (XMVector3Dot_noi c' V1 V2),
   fun V => trNV (XMVector3LengthSq_noi c V) (XMVector3LengthSq_noi c' V),
   fun V => trNV (XMVector2Length_noi c V) (XMVector2Length_noi c' V),
   fun Q => trNV (XMQuaternionConjugate_noi c Q) (XMQuaternionConjugate_noi c' Q),
   fun a => trNM (XMMatrixRotationX_noi c a) (XMMatrixRotationX_noi c' a),
   fun a => trNM (XMMatrixRotationY_noi c a) (XMMatrixRotationY_noi c' a),
   fun a => trNM (XMMatrixRotationZ_noi c a) (XMMatrixRotationZ_noi c' a)⟩
/-- C123: and, without fused multiply-add, from reflection. -/
theorem C123_reflect3_same_number (c c' : Cfg) (h : c.fma = false) (h' : c'.fma = false) (I N : V4 (F32 P)) :
    SameNumV (XMVector3Reflect c I N) (XMVector3Reflect c' I N) := trNV (XMVector3Reflect_noi c h I N) (XMVector3Reflect_noi c' h' I N)

/-- C123: any two builds return bit-identical projection matrices, NaN payloads included. -/
theorem C123_projections_identical (c c' : Cfg) :
    (∀ p q r s : F32 P, XMMatrixPerspectiveLH c p q r s = XMMatrixPerspectiveLH c' p q r s) ∧
    (∀ p q r s : F32 P, XMMatrixPerspectiveRH c p q r s = XMMatrixPerspectiveRH c' p q r s) ∧
    (∀ p q r s : F32 P, XMMatrixPerspectiveFovLH c p q r s = XMMatrixPerspectiveFovLH c' p q r s) ∧
    (∀ p q r s : F32 P, XMMatrixPerspectiveFovRH c p q r s = XMMatrixPerspectiveFovRH c' p q r s) ∧
    (∀ p q r s t u : F32 P, XMMatrixPerspectiveOffCenterLH c p q r s t u = XMMatrixPerspectiveOffCenterLH c' p q r s t u) ∧
    (∀ p q r s t u : F32 P, XMMatrixPerspectiveOffCenterRH c p q r s t u = XMMatrixPerspectiveOffCenterRH c' p q r s t u) ∧
    (∀ p q r s : F32 P, XMMatrixOrthographicLH c p q r s = XMMatrixOrthographicLH c' p q r s) ∧
    (∀ p q r s : F32 P, XMMatrixOrthographicRH c p q r s = XMMatrixOrthographicRH c' p q r s) :=
  ⟨fun p q r s => (perspLH_eq c p q r s).trans (perspLH_eq c' p q r s).symm,
   fun p q r s => (perspRH_eq c p q r s).trans (perspRH_eq c' p q r s).symm,
   fun p q r s => (fovLH_eq c p q r s).trans (fovLH_eq c' p q r s).symm,
   fun p q r s => (fovRH_eq c p q r s).trans (fovRH_eq c' p q r s).symm,
   fun p q r s t u => (offLH_eq c p q r s t u).trans (offLH_eq c' p q r s t u).symm,
   fun p q r s t u => (offRH_eq c p q r s t u).trans (offRH_eq c' p q r s t u).symm,
   fun p q r s => (orthoLH_eq c p q r s).trans (orthoLH_eq c' p q r s).symm,
   fun p q r s => (orthoRH_eq c p q r s).trans (orthoRH_eq c' p q r s).symm⟩


/-! ### What does differ -/

/-- The SSE2 build. -/
def sse2 : Cfg := { noi with sse := true }
/-- The SSE2 build with fused multiply-add. -/
def sse2fma : Cfg := { noi with sse := true, fma := true }
/-- `(1 + 2^-23) * (1 - 2^-23) - 1` -/
theorem C123_fma_differs : ∃ U V W : V4 (F32 P), ¬ SameNumV (XMVectorMultiplyAdd sse2 U V W) (XMVectorMultiplyAdd sse2fma U V W) := by
  refine ⟨.splat (Lane.ofBits 0x3F800001#32), .splat (Lane.ofBits 0x3F7FFFFE#32), .splat (Lane.ofBits 0xBF800000#32), fun h => ?_⟩
  have h := h.1.symm
  change SameNum (Lane.fma (Lane.ofBits 0x3F800001#32) (Lane.ofBits 0x3F7FFFFE#32) (Lane.ofBits 0xBF800000#32) : F32 P)
    (Lane.add (Lane.mul (Lane.ofBits 0x3F800001#32) (Lane.ofBits 0x3F7FFFFE#32)) (Lane.ofBits 0xBF800000#32)) at h
  rw [ev_fma _ _ _ 0xA8800000#32 (by decide +kernel) (by decide +kernel), ev_mul _ _ 0x3F800000#32 (by decide +kernel) (by decide +kernel),
    ev_add _ _ 0x00000000#32 (by decide +kernel) (by decide +kernel)] at h
  exact differ _ _ (by decide +kernel) h

/-- `2^24 + 0 + 1 + 1` -/
theorem C123_sum_differs : ∃ V : V4 (F32 P), ¬ SameNumV (XMVectorSum sse2 V) (XMVectorSum noi V) := by
  refine ⟨⟨Lane.ofBits 0x4B800000#32, Lane.ofBits 0#32, Lane.ofBits 0x3F800000#32, Lane.ofBits 0x3F800000#32⟩, fun h => ?_⟩
  have h := h.1
  change SameNum (Lane.add (Lane.add (Lane.ofBits 0x3F800000#32) (Lane.ofBits 0x3F800000#32)) (Lane.add (Lane.ofBits 0x4B800000#32) (Lane.ofBits 0#32)) : F32 P)
    (Lane.add (Lane.add (Lane.add (Lane.ofBits 0x4B800000#32) (Lane.ofBits 0#32)) (Lane.ofBits 0x3F800000#32)) (Lane.ofBits 0x3F800000#32)) at h
  rw [ev_add 0x4B800000#32 0#32 0x4B800000#32 (by decide +kernel) (by decide +kernel), ev_add 0x3F800000#32 0x3F800000#32 0x40000000#32 (by decide +kernel) (by decide +kernel),
    ev_add 0x40000000#32 0x4B800000#32 0x4B800001#32 (by decide +kernel) (by decide +kernel), ev_add 0x4B800000#32 0x3F800000#32 0x4B800000#32 (by decide +kernel) (by decide +kernel),
    ev_add 0x4B800000#32 0x3F800000#32 0x4B800000#32 (by decide +kernel) (by decide +kernel)] at h
  exact differ _ _ (by decide +kernel) h

/-- The SSE4 build. -/
def sse4 : Cfg := { noi with sse := true, sse3 := true, sse4 := true }
/-- `(2^24, 0, 1, 1) · (1, 1, 1, 1)` -/
theorem C123_dot4_differs : ∃ U V : V4 (F32 P), ¬ SameNumV (XMVector4Dot sse4 U V) (XMVector4Dot noi U V) := by
  refine ⟨⟨Lane.ofBits 0x4B800000#32, Lane.ofBits 0#32, Lane.ofBits 0x3F800000#32, Lane.ofBits 0x3F800000#32⟩, .splat (Lane.ofBits 0x3F800000#32), fun h => ?_⟩
  have h := h.1
  change SameNum (Lane.add (Lane.add (Lane.mul (Lane.ofBits 0x4B800000#32) (Lane.ofBits 0x3F800000#32)) (Lane.mul (Lane.ofBits 0#32) (Lane.ofBits 0x3F800000#32)))
      (Lane.add (Lane.mul (Lane.ofBits 0x3F800000#32) (Lane.ofBits 0x3F800000#32)) (Lane.mul (Lane.ofBits 0x3F800000#32) (Lane.ofBits 0x3F800000#32))) : F32 P)
    (Lane.add (Lane.add (Lane.add (Lane.mul (Lane.ofBits 0x4B800000#32) (Lane.ofBits 0x3F800000#32)) (Lane.mul (Lane.ofBits 0#32) (Lane.ofBits 0x3F800000#32)))
      (Lane.mul (Lane.ofBits 0x3F800000#32) (Lane.ofBits 0x3F800000#32))) (Lane.mul (Lane.ofBits 0x3F800000#32) (Lane.ofBits 0x3F800000#32))) at h
  rw [ev_mul 0x4B800000#32 0x3F800000#32 0x4B800000#32 (by decide +kernel) (by decide +kernel), ev_mul 0x3F800000#32 0x3F800000#32 0x3F800000#32 (by decide +kernel) (by decide +kernel),
    ev_mul 0#32 0x3F800000#32 0#32 (by decide +kernel) (by decide +kernel),
    ev_add 0x4B800000#32 0#32 0x4B800000#32 (by decide +kernel) (by decide +kernel), ev_add 0x3F800000#32 0x3F800000#32 0x40000000#32 (by decide +kernel) (by decide +kernel),
    ev_add 0x4B800000#32 0x40000000#32 0x4B800001#32 (by decide +kernel) (by decide +kernel), ev_add 0x4B800000#32 0x3F800000#32 0x4B800000#32 (by decide +kernel) (by decide +kernel),
    ev_add 0x4B800000#32 0x3F800000#32 0x4B800000#32 (by decide +kernel) (by decide +kernel)] at h
  exact differ _ _ (by decide +kernel) h

theorem len3_sse2 (V : V4 (F32 P)) : (XMVector3Length sse2 V).x =
    Lane.sqrt (Lane.add (Lane.add (Lane.mul V.x V.x) (Lane.mul V.z V.z)) (Lane.mul V.y V.y)) := rfl
theorem len3_noi (V : V4 (F32 P)) : (XMVector3Length noi V).x =
    Lane.sqrt (Lane.add (Lane.add (Lane.mul V.x V.x) (Lane.mul V.y V.y)) (Lane.mul V.z V.z)) := rfl
/-- Squares summed x, z, y in the SSE2 build and x, y, z in the build without intrinsics. -/
theorem C123_length3_differs : ∃ V : V4 (F32 P), ¬ SameNumV (XMVector3Length sse2 V) (XMVector3Length noi V) := by
  refine ⟨⟨Lane.ofBits 0x40B9999A#32, Lane.ofBits 0x42180000#32, Lane.ofBits 0x40F6DB6E#32, Lane.ofBits 0#32⟩, fun h => ?_⟩
  have h := h.1
  rw [len3_sse2, len3_noi] at h
  simp only [] at h
  rw [ev_mul 0x40B9999A#32 0x40B9999A#32 0x42068F5D#32 (by decide +kernel) (by decide +kernel), ev_mul 0x42180000#32 0x42180000#32 0x44B48000#32 (by decide +kernel) (by decide +kernel),
    ev_mul 0x40F6DB6E#32 0x40F6DB6E#32 0x426E0A73#32 (by decide +kernel) (by decide +kernel),
    ev_add 0x42068F5D#32 0x44B48000#32 0x44B8B47B#32 (by decide +kernel) (by decide +kernel), ev_add 0x44B8B47B#32 0x426E0A73#32 0x44C024CF#32 (by decide +kernel) (by decide +kernel),
    ev_add 0x42068F5D#32 0x426E0A73#32 0x42BA4CE8#32 (by decide +kernel) (by decide +kernel), ev_add 0x42BA4CE8#32 0x44B48000#32 0x44C024CE#32 (by decide +kernel) (by decide +kernel),
    ev_sqrt 0x44C024CE#32 27978697920992039677876072923937478030382943372 0x421CD376#32 (by decide +kernel) (by decide +kernel) (by decide +kernel), ev_sqrt 0x44C024CF#32 27978699031933719175942553562029027659585725479 0x421CD377#32 (by decide +kernel) (by decide +kernel) (by decide +kernel)] at h
  exact differ _ _ (by decide +kernel) h

/-- The first row of the product sums `(x + z) + (y + w)` in the SSE2 build and `((x + y) + z) + w` in the build without intrinsics. -/
theorem C123_multiply_differs : ∃ M N : M4 (F32 P), ¬ SameNumM (XMMatrixMultiply sse2 M N) (XMMatrixMultiply noi M N) := by
  refine ⟨⟨⟨Lane.ofBits 0x4B800000#32, Lane.ofBits 0x3F800000#32, Lane.ofBits 0#32, Lane.ofBits 0x3F800000#32⟩, .splat (Lane.ofBits 0#32), .splat (Lane.ofBits 0#32), .splat (Lane.ofBits 0#32)⟩,
    ⟨.splat (Lane.ofBits 0x3F800000#32), .splat (Lane.ofBits 0x3F800000#32), .splat (Lane.ofBits 0x3F800000#32), .splat (Lane.ofBits 0x3F800000#32)⟩, fun h => ?_⟩
  have h := h.1.1
  change SameNum (Lane.add (Lane.add (Lane.mul (Lane.ofBits 0x4B800000#32) (Lane.ofBits 0x3F800000#32)) (Lane.mul (Lane.ofBits 0#32) (Lane.ofBits 0x3F800000#32)))
      (Lane.add (Lane.mul (Lane.ofBits 0x3F800000#32) (Lane.ofBits 0x3F800000#32)) (Lane.mul (Lane.ofBits 0x3F800000#32) (Lane.ofBits 0x3F800000#32))) : F32 P)
    (Lane.add (Lane.add (Lane.add (Lane.mul (Lane.ofBits 0x3F800000#32) (Lane.ofBits 0x4B800000#32)) (Lane.mul (Lane.ofBits 0x3F800000#32) (Lane.ofBits 0x3F800000#32)))
      (Lane.mul (Lane.ofBits 0x3F800000#32) (Lane.ofBits 0#32))) (Lane.mul (Lane.ofBits 0x3F800000#32) (Lane.ofBits 0x3F800000#32))) at h
  rw [ev_mul 0x4B800000#32 0x3F800000#32 0x4B800000#32 (by decide +kernel) (by decide +kernel), ev_mul 0x3F800000#32 0x3F800000#32 0x3F800000#32 (by decide +kernel) (by decide +kernel),
    ev_mul 0#32 0x3F800000#32 0#32 (by decide +kernel) (by decide +kernel), ev_mul 0x3F800000#32 0x4B800000#32 0x4B800000#32 (by decide +kernel) (by decide +kernel),
    ev_mul 0x3F800000#32 0#32 0#32 (by decide +kernel) (by decide +kernel),
    ev_add 0x4B800000#32 0#32 0x4B800000#32 (by decide +kernel) (by decide +kernel), ev_add 0x3F800000#32 0x3F800000#32 0x40000000#32 (by decide +kernel) (by decide +kernel),
    ev_add 0x4B800000#32 0x40000000#32 0x4B800001#32 (by decide +kernel) (by decide +kernel), ev_add 0x4B800000#32 0x3F800000#32 0x4B800000#32 (by decide +kernel) (by decide +kernel),
    ev_add 0x4B800000#32 0#32 0x4B800000#32 (by decide +kernel) (by decide +kernel), ev_add 0x4B800000#32 0x3F800000#32 0x4B800000#32 (by decide +kernel) (by decide +kernel)] at h
  exact differ _ _ (by decide +kernel) h

/-- `SameV` is not trivial: distinct vectors are not the same, and the hypotheses of `C123_same_without_fma` hold of two builds with different code. -/
example : ¬ SameNumV (.splat (Lane.ofBits 0x3F800000#32) : V4 (F32 P)) (.splat (Lane.ofBits 0x40000000#32)) := fun h => differ _ _ (by decide +kernel) h.1
example : sse4.fma = false ∧ noi.fma = false ∧ sse4.sse ≠ noi.sse := by decide

end DXM.Props
