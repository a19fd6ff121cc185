import Verif.Lemmas.FExactV
import Verif.Lemmas.Mat
import Verif.Lemmas.FEval
import Verif.Lemmas.RotForm
import Verif.Spec.Same
import Verif.Model.Space

/-
Identity, translation and scaling on binary32 lanes, lane by lane: the helper lemmas of C124.
-/

set_option linter.all false

namespace DXM.FEx
open DXM.Props DXM.Spec DXM.FErr DXM.IEEE
variable {P : Env}

theorem lanesV {A B : V4 (F32 P)} {v0 v1 v2 v3 : ℝ} (h : Ex A.x v0 ∧ Ex A.y v1 ∧ Ex A.z v2 ∧ Ex A.w v3)
    (g : Ex B.x v0 ∧ Ex B.y v1 ∧ Ex B.z v2 ∧ Ex B.w v3) : SameNumV A B :=
  ⟨h.1.sameNum g.1, h.2.1.sameNum g.2.1, h.2.2.1.sameNum g.2.2.1, h.2.2.2.sameNum g.2.2.2⟩

/-- Unfold to lanes. -/
macro "tolanes" "[" f:Lean.Parser.Tactic.simpLemma,* "]" : tactic => `(tactic| (
  simp only [$f,*, SSE.fmadd, SSE.fnmadd, XMVectorMultiplyAdd, XMVectorNegativeMultiplySubtract, XMVectorMultiply, XMVectorDivide, XMVectorSplatX, XMVectorSplatY, XMVectorSplatZ, XMVectorSplatW,
    XMMatrixIdentity, g_XMIdentityR0, g_XMIdentityR1, g_XMIdentityR2, g_XMIdentityR3, Lane.c0, Lane.c1, Lane.cNeg1]
  split_ifs <;>
  simp only [SSE.perm, SSE.shuffle, SSE.add_ss, SSE.sub_ss, SSE.add, SSE.sub, SSE.mul, SSE.div, V4.splat, V4.map2, V4.map3, V4.lane]))

theorem id_4T (c : Cfg) (V : V4 (F32 P)) (hV : Fins 4 V) : SameNumV (XMVector4Transform c V XMMatrixIdentity) V := by
  obtain ⟨h1, h2, h3, h4⟩ := fins4 hV
  have e1 := ex_leaf h1; have f1 := isF_val h1
  have e2 := ex_leaf h2; have f2 := isF_val h2
  have e3 := ex_leaf h3; have f3 := isF_val h3
  have e4 := ex_leaf h4; have f4 := isF_val h4
  refine lanesV ?_ ⟨e1, e2, e3, e4⟩
  tolanes [XMVector4Transform]
  all_goals (refine ⟨?_, ?_, ?_, ?_⟩ <;> exv)
theorem id_3T (c : Cfg) (V : V4 (F32 P)) (hV : Fins 3 V) : SameNumV (XMVector3Transform c V XMMatrixIdentity) ⟨V.x, V.y, V.z, Lane.c1⟩ := by
  obtain ⟨h1, h2, h3⟩ := fins3 hV
  have e1 := ex_leaf h1; have f1 := isF_val h1
  have e2 := ex_leaf h2; have f2 := isF_val h2
  have e3 := ex_leaf h3; have f3 := isF_val h3
  refine lanesV ?_ ⟨e1, e2, e3, ex_one⟩
  tolanes [XMVector3Transform]
  all_goals (refine ⟨?_, ?_, ?_, ?_⟩ <;> exv)
theorem id_3C (c : Cfg) (V : V4 (F32 P)) (hV : Fins 3 V) : SameNumV (XMVector3TransformCoord c V XMMatrixIdentity) ⟨V.x, V.y, V.z, Lane.c1⟩ := by
  obtain ⟨h1, h2, h3⟩ := fins3 hV
  have e1 := ex_leaf h1; have f1 := isF_val h1
  have e2 := ex_leaf h2; have f2 := isF_val h2
  have e3 := ex_leaf h3; have f3 := isF_val h3
  refine lanesV ?_ ⟨e1, e2, e3, ex_one⟩
  tolanes [XMVector3TransformCoord]
  all_goals (refine ⟨?_, ?_, ?_, ?_⟩ <;> exv)
theorem id_3N (c : Cfg) (V : V4 (F32 P)) (hV : Fins 3 V) : SameNumV (XMVector3TransformNormal c V XMMatrixIdentity) ⟨V.x, V.y, V.z, Lane.c0⟩ := by
  obtain ⟨h1, h2, h3⟩ := fins3 hV
  have e1 := ex_leaf h1; have f1 := isF_val h1
  have e2 := ex_leaf h2; have f2 := isF_val h2
  have e3 := ex_leaf h3; have f3 := isF_val h3
  refine lanesV ?_ ⟨e1, e2, e3, ex_zero⟩
  tolanes [XMVector3TransformNormal]
  all_goals (refine ⟨?_, ?_, ?_, ?_⟩ <;> exv)
theorem id_2T (c : Cfg) (V : V4 (F32 P)) (hV : Fins 2 V) : SameNumV (XMVector2Transform c V XMMatrixIdentity) ⟨V.x, V.y, Lane.c0, Lane.c1⟩ := by
  obtain ⟨h1, h2⟩ := fins2 hV
  have e1 := ex_leaf h1; have f1 := isF_val h1
  have e2 := ex_leaf h2; have f2 := isF_val h2
  refine lanesV ?_ ⟨e1, e2, ex_zero, ex_one⟩
  tolanes [XMVector2Transform]
  all_goals (refine ⟨?_, ?_, ?_, ?_⟩ <;> exv)
theorem id_2C (c : Cfg) (V : V4 (F32 P)) (hV : Fins 2 V) : SameNumV (XMVector2TransformCoord c V XMMatrixIdentity) ⟨V.x, V.y, Lane.c0, Lane.c1⟩ := by
  obtain ⟨h1, h2⟩ := fins2 hV
  have e1 := ex_leaf h1; have f1 := isF_val h1
  have e2 := ex_leaf h2; have f2 := isF_val h2
  refine lanesV ?_ ⟨e1, e2, ex_zero, ex_one⟩
  tolanes [XMVector2TransformCoord]
  all_goals (refine ⟨?_, ?_, ?_, ?_⟩ <;> exv)
theorem id_2N (c : Cfg) (V : V4 (F32 P)) (hV : Fins 2 V) : SameNumV (XMVector2TransformNormal c V XMMatrixIdentity) ⟨V.x, V.y, Lane.c0, Lane.c0⟩ := by
  obtain ⟨h1, h2⟩ := fins2 hV
  have e1 := ex_leaf h1; have f1 := isF_val h1
  have e2 := ex_leaf h2; have f2 := isF_val h2
  refine lanesV ?_ ⟨e1, e2, ex_zero, ex_zero⟩
  tolanes [XMVector2TransformNormal]
  all_goals (refine ⟨?_, ?_, ?_, ?_⟩ <;> exv)

theorem T_eq (c : Cfg) (x y z : F32 P) : XMMatrixTranslation c x y z = ⟨⟨Lane.ofBits 0x3F800000#32, Lane.ofBits 0#32, Lane.ofBits 0#32, Lane.ofBits 0#32⟩,
    ⟨Lane.ofBits 0#32, Lane.ofBits 0x3F800000#32, Lane.ofBits 0#32, Lane.ofBits 0#32⟩, ⟨Lane.ofBits 0#32, Lane.ofBits 0#32, Lane.ofBits 0x3F800000#32, Lane.ofBits 0#32⟩, ⟨x, y, z, Lane.ofBits 0x3F800000#32⟩⟩ := by
  unfold XMMatrixTranslation; split_ifs <;> rfl
theorem tr_3T (c : Cfg) (V O : V4 (F32 P)) (hV : Fins 3 V) (hO : Fins 3 O) : let r := XMVector3Transform c V (XMMatrixTranslation c O.x O.y O.z)
    Ro r.x (vals V 0 + vals O 0) ∧ Ro r.y (vals V 1 + vals O 1) ∧ Ro r.z (vals V 2 + vals O 2) ∧ Ex r.w 1 := by
  obtain ⟨h1, h2, h3⟩ := fins3 hV; obtain ⟨g1, g2, g3⟩ := fins3 hO
  have e1 := ex_leaf h1; have f1 := isF_val h1; have d1 := ex_leaf g1; have k1 := isF_val g1
  have e2 := ex_leaf h2; have f2 := isF_val h2; have d2 := ex_leaf g2; have k2 := isF_val g2
  have e3 := ex_leaf h3; have f3 := isF_val h3; have d3 := ex_leaf g3; have k3 := isF_val g3
  beta_reduce; extract_lets r; simp only [r, vals_0, vals_1, vals_2]; clear r
  tolanes [XMVector3Transform, T_eq]
  all_goals (refine ⟨?_, ?_, ?_, ?_⟩ <;> first | exv | ro)
theorem tr_3C (c : Cfg) (V O : V4 (F32 P)) (hV : Fins 3 V) (hO : Fins 3 O) : let r := XMVector3TransformCoord c V (XMMatrixTranslation c O.x O.y O.z)
    Ro r.x (vals V 0 + vals O 0) ∧ Ro r.y (vals V 1 + vals O 1) ∧ Ro r.z (vals V 2 + vals O 2) ∧ Ex r.w 1 := by
  obtain ⟨h1, h2, h3⟩ := fins3 hV; obtain ⟨g1, g2, g3⟩ := fins3 hO
  have e1 := ex_leaf h1; have f1 := isF_val h1; have d1 := ex_leaf g1; have k1 := isF_val g1
  have e2 := ex_leaf h2; have f2 := isF_val h2; have d2 := ex_leaf g2; have k2 := isF_val g2
  have e3 := ex_leaf h3; have f3 := isF_val h3; have d3 := ex_leaf g3; have k3 := isF_val g3
  beta_reduce; extract_lets r; simp only [r, vals_0, vals_1, vals_2]; clear r
  tolanes [XMVector3TransformCoord, T_eq]
  all_goals (refine ⟨?_, ?_, ?_, ?_⟩ <;> first | exv | ro)
theorem tr_3N (c : Cfg) (V O : V4 (F32 P)) (hV : Fins 3 V) (hO : Fins 3 O) : let r := XMVector3TransformNormal c V (XMMatrixTranslation c O.x O.y O.z)
    Ex r.x (vals V 0) ∧ Ex r.y (vals V 1) ∧ Ex r.z (vals V 2) ∧ Ex r.w 0 := by
  obtain ⟨h1, h2, h3⟩ := fins3 hV; obtain ⟨g1, g2, g3⟩ := fins3 hO
  have e1 := ex_leaf h1; have f1 := isF_val h1; have d1 := ex_leaf g1; have k1 := isF_val g1
  have e2 := ex_leaf h2; have f2 := isF_val h2; have d2 := ex_leaf g2; have k2 := isF_val g2
  have e3 := ex_leaf h3; have f3 := isF_val h3; have d3 := ex_leaf g3; have k3 := isF_val g3
  beta_reduce; extract_lets r; simp only [r, vals_0, vals_1, vals_2]; clear r
  tolanes [XMVector3TransformNormal, T_eq]
  all_goals (refine ⟨?_, ?_, ?_, ?_⟩ <;> exv)
theorem sc_3T (c : Cfg) (V O : V4 (F32 P)) (hV : Fins 3 V) (hO : Fins 3 O) : let r := XMVector3Transform c V (XMMatrixScaling O.x O.y O.z)
    Ro r.x (vals V 0 * vals O 0) ∧ Ro r.y (vals V 1 * vals O 1) ∧ Ro r.z (vals V 2 * vals O 2) ∧ Ex r.w 1 := by
  obtain ⟨h1, h2, h3⟩ := fins3 hV; obtain ⟨g1, g2, g3⟩ := fins3 hO
  have e1 := ex_leaf h1; have f1 := isF_val h1; have d1 := ex_leaf g1; have k1 := isF_val g1
  have e2 := ex_leaf h2; have f2 := isF_val h2; have d2 := ex_leaf g2; have k2 := isF_val g2
  have e3 := ex_leaf h3; have f3 := isF_val h3; have d3 := ex_leaf g3; have k3 := isF_val g3
  beta_reduce; extract_lets r; simp only [r, vals_0, vals_1, vals_2]; clear r
  tolanes [XMVector3Transform, XMMatrixScaling]
  all_goals (refine ⟨?_, ?_, ?_, ?_⟩ <;> first | exv | ro)
theorem sc_3C (c : Cfg) (V O : V4 (F32 P)) (hV : Fins 3 V) (hO : Fins 3 O) : let r := XMVector3TransformCoord c V (XMMatrixScaling O.x O.y O.z)
    Ro r.x (vals V 0 * vals O 0) ∧ Ro r.y (vals V 1 * vals O 1) ∧ Ro r.z (vals V 2 * vals O 2) ∧ Ex r.w 1 := by
  obtain ⟨h1, h2, h3⟩ := fins3 hV; obtain ⟨g1, g2, g3⟩ := fins3 hO
  have e1 := ex_leaf h1; have f1 := isF_val h1; have d1 := ex_leaf g1; have k1 := isF_val g1
  have e2 := ex_leaf h2; have f2 := isF_val h2; have d2 := ex_leaf g2; have k2 := isF_val g2
  have e3 := ex_leaf h3; have f3 := isF_val h3; have d3 := ex_leaf g3; have k3 := isF_val g3
  beta_reduce; extract_lets r; simp only [r, vals_0, vals_1, vals_2]; clear r
  tolanes [XMVector3TransformCoord, XMMatrixScaling]
  all_goals (refine ⟨?_, ?_, ?_, ?_⟩ <;> first | exv | ro)
theorem sc_3N (c : Cfg) (V O : V4 (F32 P)) (hV : Fins 3 V) (hO : Fins 3 O) : let r := XMVector3TransformNormal c V (XMMatrixScaling O.x O.y O.z)
    Ro r.x (vals V 0 * vals O 0) ∧ Ro r.y (vals V 1 * vals O 1) ∧ Ro r.z (vals V 2 * vals O 2) ∧ Ex r.w 0 := by
  obtain ⟨h1, h2, h3⟩ := fins3 hV; obtain ⟨g1, g2, g3⟩ := fins3 hO
  have e1 := ex_leaf h1; have f1 := isF_val h1; have d1 := ex_leaf g1; have k1 := isF_val g1
  have e2 := ex_leaf h2; have f2 := isF_val h2; have d2 := ex_leaf g2; have k2 := isF_val g2
  have e3 := ex_leaf h3; have f3 := isF_val h3; have d3 := ex_leaf g3; have k3 := isF_val g3
  beta_reduce; extract_lets r; simp only [r, vals_0, vals_1, vals_2]; clear r
  tolanes [XMVector3TransformNormal, XMMatrixScaling]
  all_goals (refine ⟨?_, ?_, ?_, ?_⟩ <;> first | exv | ro)

theorem sel1110X (A B : V4 (F32 P)) : XMVectorSelect A B g_XMSelect1110 = ⟨B.x, B.y, B.z, A.w⟩ := by
  simp only [XMVectorSelect, SSE.or, SSE.and, SSE.andnot, V4.map2, g_XMSelect1110, LawfulLane.band_ones_right, LawfulLane.band_zero_right, LawfulLane.bandn_ones_left, LawfulLane.bandn_zero_left,
    LawfulLane.bor_zero_left, LawfulLane.bor_zero_right]
theorem qmul_idR (c : Cfg) (Q : V4 (F32 P)) (hQ : Fins 4 Q) : Ex (XMQuaternionMultiply c Q XMQuaternionIdentity).x (val Q.x) ∧ Ex (XMQuaternionMultiply c Q XMQuaternionIdentity).y (val Q.y)
     ∧ Ex (XMQuaternionMultiply c Q XMQuaternionIdentity).z (val Q.z) ∧ Ex (XMQuaternionMultiply c Q XMQuaternionIdentity).w (val Q.w) := by
  obtain ⟨h1, h2, h3, h4⟩ := fins4 hQ
  have e1 := ex_leaf h1; have e2 := ex_leaf h2; have e3 := ex_leaf h3; have e4 := ex_leaf h4
  have f1 := isF_val h1; have f2 := isF_val h2; have f3 := isF_val h3; have f4 := isF_val h4
  tolanes [XMQuaternionMultiply, XMQuaternionIdentity]
  all_goals (refine ⟨?_, ?_, ?_, ?_⟩ <;> exv)
/-- The left factor is any quaternion whose numbers are 0, 0, 0, 1. -/
theorem qmul_idL (c : Cfg) (I Q : V4 (F32 P)) (hI : Ex I.x 0 ∧ Ex I.y 0 ∧ Ex I.z 0 ∧ Ex I.w 1) (hQ : Fins 4 Q) : Ex (XMQuaternionMultiply c I Q).x (val Q.x) ∧ Ex (XMQuaternionMultiply c I Q).y (val Q.y)
     ∧ Ex (XMQuaternionMultiply c I Q).z (val Q.z) ∧ Ex (XMQuaternionMultiply c I Q).w (val Q.w) := by
  obtain ⟨h1, h2, h3, h4⟩ := fins4 hQ
  have e1 := ex_leaf h1; have e2 := ex_leaf h2; have e3 := ex_leaf h3; have e4 := ex_leaf h4
  have f1 := isF_val h1; have f2 := isF_val h2; have f3 := isF_val h3; have f4 := isF_val h4
  obtain ⟨i1, i2, i3, i4⟩ := hI
  tolanes [XMQuaternionMultiply]
  all_goals (refine ⟨?_, ?_, ?_, ?_⟩ <;> exv)
theorem tr_mul (c : Cfg) (A B : V4 (F32 P)) (hA : Fins 3 A) (hB : Fins 3 B) :
    let r := XMMatrixMultiply c (XMMatrixTranslation c A.x A.y A.z) (XMMatrixTranslation c B.x B.y B.z); (Ex r.r0.x (1) ∧ Ex r.r0.y (0) ∧ Ex r.r0.z (0) ∧ Ex r.r0.w (0)) ∧ (Ex r.r1.x (0) ∧ Ex r.r1.y (1) ∧ Ex r.r1.z (0) ∧ Ex r.r1.w (0)) ∧ (Ex r.r2.x (0) ∧ Ex r.r2.y (0) ∧ Ex r.r2.z (1) ∧ Ex r.r2.w (0)) ∧ (Ro r.r3.x (vals A 0 + vals B 0) ∧ Ro r.r3.y (vals A 1 + vals B 1) ∧ Ro r.r3.z (vals A 2 + vals B 2) ∧ Ex r.r3.w (1)) := by
  obtain ⟨h1, h2, h3⟩ := fins3 hA; obtain ⟨g1, g2, g3⟩ := fins3 hB
  have e1 := ex_leaf h1; have f1 := isF_val h1; have d1 := ex_leaf g1; have k1 := isF_val g1
  have e2 := ex_leaf h2; have f2 := isF_val h2; have d2 := ex_leaf g2; have k2 := isF_val g2
  have e3 := ex_leaf h3; have f3 := isF_val h3; have d3 := ex_leaf g3; have k3 := isF_val g3
  beta_reduce; extract_lets r; simp only [r, vals_0, vals_1, vals_2]; clear r
  tolanes [XMMatrixMultiply, mulRow, T_eq]
  all_goals (refine ⟨⟨?_, ?_, ?_, ?_⟩, ⟨?_, ?_, ?_, ?_⟩, ⟨?_, ?_, ?_, ?_⟩, ⟨?_, ?_, ?_, ?_⟩⟩ <;> first | exv | ro)
theorem sc_mul (c : Cfg) (A B : V4 (F32 P)) (hA : Fins 3 A) (hB : Fins 3 B) :
    let r := XMMatrixMultiply c (XMMatrixScaling A.x A.y A.z) (XMMatrixScaling B.x B.y B.z); (Ro r.r0.x (vals A 0 * vals B 0) ∧ Ex r.r0.y (0) ∧ Ex r.r0.z (0) ∧ Ex r.r0.w (0)) ∧ (Ex r.r1.x (0) ∧ Ro r.r1.y (vals A 1 * vals B 1) ∧ Ex r.r1.z (0) ∧ Ex r.r1.w (0)) ∧ (Ex r.r2.x (0) ∧ Ex r.r2.y (0) ∧ Ro r.r2.z (vals A 2 * vals B 2) ∧ Ex r.r2.w (0)) ∧ (Ex r.r3.x (0) ∧ Ex r.r3.y (0) ∧ Ex r.r3.z (0) ∧ Ex r.r3.w (1)) := by
  obtain ⟨h1, h2, h3⟩ := fins3 hA; obtain ⟨g1, g2, g3⟩ := fins3 hB
  have e1 := ex_leaf h1; have f1 := isF_val h1; have d1 := ex_leaf g1; have k1 := isF_val g1
  have e2 := ex_leaf h2; have f2 := isF_val h2; have d2 := ex_leaf g2; have k2 := isF_val g2
  have e3 := ex_leaf h3; have f3 := isF_val h3; have d3 := ex_leaf g3; have k3 := isF_val g3
  beta_reduce; extract_lets r; simp only [r, vals_0, vals_1, vals_2]; clear r
  tolanes [XMMatrixMultiply, mulRow, XMMatrixScaling]
  all_goals (refine ⟨⟨?_, ?_, ?_, ?_⟩, ⟨?_, ?_, ?_, ?_⟩, ⟨?_, ?_, ?_, ?_⟩, ⟨?_, ?_, ?_, ?_⟩⟩ <;> first | exv | ro)

theorem id_mulR (c : Cfg) (r : V4 (F32 P)) (hr : Fins 4 r) : SameNumV (mulRow c r XMMatrixIdentity) r := by
  obtain ⟨h1, h2, h3, h4⟩ := fins4 hr
  have e1 := ex_leaf h1; have e2 := ex_leaf h2; have e3 := ex_leaf h3; have e4 := ex_leaf h4
  have f1 := isF_val h1; have f2 := isF_val h2; have f3 := isF_val h3; have f4 := isF_val h4
  refine lanesV ?_ ⟨e1, e2, e3, e4⟩
  tolanes [mulRow]
  all_goals (refine ⟨?_, ?_, ?_, ?_⟩ <;> exv)
theorem id_mulL0 (c : Cfg) (A B C D : V4 (F32 P)) (hA : Fins 4 A) (hB : Fins 4 B) (hC : Fins 4 C) (hD : Fins 4 D) : SameNumV (mulRow c g_XMIdentityR0 ⟨A, B, C, D⟩) A := by
  obtain ⟨a1, a2, a3, a4⟩ := fins4 hA; obtain ⟨b1, b2, b3, b4⟩ := fins4 hB; obtain ⟨c1, c2, c3, c4⟩ := fins4 hC; obtain ⟨d1, d2, d3, d4⟩ := fins4 hD
  have a1' := ex_leaf a1; have a2' := ex_leaf a2; have a3' := ex_leaf a3; have a4' := ex_leaf a4
  have b1' := ex_leaf b1; have b2' := ex_leaf b2; have b3' := ex_leaf b3; have b4' := ex_leaf b4
  have c1' := ex_leaf c1; have c2' := ex_leaf c2; have c3' := ex_leaf c3; have c4' := ex_leaf c4
  have d1' := ex_leaf d1; have d2' := ex_leaf d2; have d3' := ex_leaf d3; have d4' := ex_leaf d4
  have f1 := isF_val a1; have f2 := isF_val a2; have f3 := isF_val a3; have f4 := isF_val a4
  refine lanesV ?_ ⟨a1', a2', a3', a4'⟩
  tolanes [mulRow]
  all_goals (refine ⟨?_, ?_, ?_, ?_⟩ <;> exv)
theorem id_mulL1 (c : Cfg) (A B C D : V4 (F32 P)) (hA : Fins 4 A) (hB : Fins 4 B) (hC : Fins 4 C) (hD : Fins 4 D) : SameNumV (mulRow c g_XMIdentityR1 ⟨A, B, C, D⟩) B := by
  obtain ⟨a1, a2, a3, a4⟩ := fins4 hA; obtain ⟨b1, b2, b3, b4⟩ := fins4 hB; obtain ⟨c1, c2, c3, c4⟩ := fins4 hC; obtain ⟨d1, d2, d3, d4⟩ := fins4 hD
  have a1' := ex_leaf a1; have a2' := ex_leaf a2; have a3' := ex_leaf a3; have a4' := ex_leaf a4
  have b1' := ex_leaf b1; have b2' := ex_leaf b2; have b3' := ex_leaf b3; have b4' := ex_leaf b4
  have c1' := ex_leaf c1; have c2' := ex_leaf c2; have c3' := ex_leaf c3; have c4' := ex_leaf c4
  have d1' := ex_leaf d1; have d2' := ex_leaf d2; have d3' := ex_leaf d3; have d4' := ex_leaf d4
  have f1 := isF_val b1; have f2 := isF_val b2; have f3 := isF_val b3; have f4 := isF_val b4
  refine lanesV ?_ ⟨b1', b2', b3', b4'⟩
  tolanes [mulRow]
  all_goals (refine ⟨?_, ?_, ?_, ?_⟩ <;> exv)
theorem id_mulL2 (c : Cfg) (A B C D : V4 (F32 P)) (hA : Fins 4 A) (hB : Fins 4 B) (hC : Fins 4 C) (hD : Fins 4 D) : SameNumV (mulRow c g_XMIdentityR2 ⟨A, B, C, D⟩) C := by
  obtain ⟨a1, a2, a3, a4⟩ := fins4 hA; obtain ⟨b1, b2, b3, b4⟩ := fins4 hB; obtain ⟨c1, c2, c3, c4⟩ := fins4 hC; obtain ⟨d1, d2, d3, d4⟩ := fins4 hD
  have a1' := ex_leaf a1; have a2' := ex_leaf a2; have a3' := ex_leaf a3; have a4' := ex_leaf a4
  have b1' := ex_leaf b1; have b2' := ex_leaf b2; have b3' := ex_leaf b3; have b4' := ex_leaf b4
  have c1' := ex_leaf c1; have c2' := ex_leaf c2; have c3' := ex_leaf c3; have c4' := ex_leaf c4
  have d1' := ex_leaf d1; have d2' := ex_leaf d2; have d3' := ex_leaf d3; have d4' := ex_leaf d4
  have f1 := isF_val c1; have f2 := isF_val c2; have f3 := isF_val c3; have f4 := isF_val c4
  refine lanesV ?_ ⟨c1', c2', c3', c4'⟩
  tolanes [mulRow]
  all_goals (refine ⟨?_, ?_, ?_, ?_⟩ <;> exv)
theorem id_mulL3 (c : Cfg) (A B C D : V4 (F32 P)) (hA : Fins 4 A) (hB : Fins 4 B) (hC : Fins 4 C) (hD : Fins 4 D) : SameNumV (mulRow c g_XMIdentityR3 ⟨A, B, C, D⟩) D := by
  obtain ⟨a1, a2, a3, a4⟩ := fins4 hA; obtain ⟨b1, b2, b3, b4⟩ := fins4 hB; obtain ⟨c1, c2, c3, c4⟩ := fins4 hC; obtain ⟨d1, d2, d3, d4⟩ := fins4 hD
  have a1' := ex_leaf a1; have a2' := ex_leaf a2; have a3' := ex_leaf a3; have a4' := ex_leaf a4
  have b1' := ex_leaf b1; have b2' := ex_leaf b2; have b3' := ex_leaf b3; have b4' := ex_leaf b4
  have c1' := ex_leaf c1; have c2' := ex_leaf c2; have c3' := ex_leaf c3; have c4' := ex_leaf c4
  have d1' := ex_leaf d1; have d2' := ex_leaf d2; have d3' := ex_leaf d3; have d4' := ex_leaf d4
  have f1 := isF_val d1; have f2 := isF_val d2; have f3 := isF_val d3; have f4 := isF_val d4
  refine lanesV ?_ ⟨d1', d2', d3', d4'⟩
  tolanes [mulRow]
  all_goals (refine ⟨?_, ?_, ?_, ?_⟩ <;> exv)

theorem inv_tr (c : Cfg) (x y z : F32 P) (hx : Fin' x) (hy : Fin' y) (hz : Fin' z) :
    (XV (XMMatrixInverse c (XMMatrixTranslation c x y z)).1.r0 ![1, 0, 0, 0] ∧ XV (XMMatrixInverse c (XMMatrixTranslation c x y z)).1.r1 ![0, 1, 0, 0] ∧
      XV (XMMatrixInverse c (XMMatrixTranslation c x y z)).1.r2 ![0, 0, 1, 0] ∧ XV (XMMatrixInverse c (XMMatrixTranslation c x y z)).1.r3 ![-val x, -val y, -val z, 1]) ∧
      XV (XMMatrixInverse c (XMMatrixTranslation c x y z)).2 ![1, 1, 1, 1] := by
  have f1 := isF_val hx; have f2 := isF_val hy; have f3 := isF_val hz
  have e1 := ex_leaf hx; have e2 := ex_leaf hy; have e3 := ex_leaf hz
  rw [T_eq]
  have key : ∀ (R : M4 (F32 P) × V4 (F32 P)) (Q : V4 (F32 P)), ((XV R.1.r0 ![1, 0, 0, 0] ∧ XV R.1.r1 ![0, 1, 0, 0] ∧ XV R.1.r2 ![0, 0, 1, 0] ∧
      XV R.1.r3 ![-val x, -val y, -val z, 1]) ∧ XV R.2 ![1, 1, 1, 1]) → Q = SSE.div (.splat (Lane.ofBits 0x3F800000#32)) R.2 →
      (XV (SSE.mul R.1.r0 Q) ![1, 0, 0, 0] ∧ XV (SSE.mul R.1.r1 Q) ![0, 1, 0, 0] ∧ XV (SSE.mul R.1.r2 Q) ![0, 0, 1, 0] ∧ XV (SSE.mul R.1.r3 Q) ![-val x, -val y, -val z, 1]) := by
    rintro R Q ⟨⟨h0, h1, h2, h3⟩, h4⟩ hQ
    have hQ' : XV Q ![1, 1, 1, 1] := by
      have d : ∀ b : F32 P, Ex b 1 → Ex (Lane.div (Lane.ofBits 0x3F800000#32) b) 1 := fun b hb =>
        (ex_div ex_one hb one_ne_zero (by rw [div_one]; exact isF_one)).eq (by norm_num)
      rw [hQ]
      exact XV.mk (d _ (h4 0)) (d _ (h4 1)) (d _ (h4 2)) (d _ (h4 3))
    exact ⟨XV.eq (XV.mul h0 hQ' (by isfv)) (by xveq), XV.eq (XV.mul h1 hQ' (by isfv)) (by xveq), XV.eq (XV.mul h2 hQ' (by isfv)) (by xveq), XV.eq (XV.mul h3 hQ' (by isfv)) (by xveq)⟩
  unfold XMMatrixInverse
  cases hs : c.sse
  · simp only [Bool.false_eq_true, if_false]
    have h := invNOI c (M := ⟨⟨Lane.ofBits 0x3F800000#32, Lane.ofBits 0#32, Lane.ofBits 0#32, Lane.ofBits 0#32⟩,
      ⟨Lane.ofBits 0#32, Lane.ofBits 0x3F800000#32, Lane.ofBits 0#32, Lane.ofBits 0#32⟩, ⟨Lane.ofBits 0#32, Lane.ofBits 0#32, Lane.ofBits 0x3F800000#32, Lane.ofBits 0#32⟩, ⟨x, y, z, Lane.ofBits 0x3F800000#32⟩⟩)
      hx hy hz (by rw [XMMatrixTranspose_eq]; exact XV.mk ex_one ex_zero ex_zero e1) (by rw [XMMatrixTranspose_eq]; exact XV.mk ex_zero ex_one ex_zero e2)
      (by rw [XMMatrixTranspose_eq]; exact XV.mk ex_zero ex_zero ex_one e3) (by rw [XMMatrixTranspose_eq]; exact XV.mk ex_zero ex_zero ex_zero ex_one)
    exact ⟨key _ _ h rfl, h.2⟩
  · simp only [if_true]
    have h := invSSE c (M := ⟨⟨Lane.ofBits 0x3F800000#32, Lane.ofBits 0#32, Lane.ofBits 0#32, Lane.ofBits 0#32⟩,
      ⟨Lane.ofBits 0#32, Lane.ofBits 0x3F800000#32, Lane.ofBits 0#32, Lane.ofBits 0#32⟩, ⟨Lane.ofBits 0#32, Lane.ofBits 0#32, Lane.ofBits 0x3F800000#32, Lane.ofBits 0#32⟩, ⟨x, y, z, Lane.ofBits 0x3F800000#32⟩⟩)
      hx hy hz (XV.mk ex_one ex_zero ex_zero e1) (XV.mk ex_zero ex_one ex_zero e2) (XV.mk ex_zero ex_zero ex_one e3) (XV.mk ex_zero ex_zero ex_zero ex_one)
    exact ⟨key _ _ h rfl, h.2⟩
theorem conj_id (c : Cfg) : Ex (XMQuaternionConjugate c (XMQuaternionIdentity : V4 (F32 P))).x 0 ∧ Ex (XMQuaternionConjugate c (XMQuaternionIdentity : V4 (F32 P))).y 0 ∧
    Ex (XMQuaternionConjugate c (XMQuaternionIdentity : V4 (F32 P))).z 0 ∧ Ex (XMQuaternionConjugate c (XMQuaternionIdentity : V4 (F32 P))).w 1 := by
  tolanes [XMQuaternionConjugate, XMQuaternionIdentity]
  all_goals (refine ⟨?_, ?_, ?_, ?_⟩ <;> exv)
theorem sel_fin (V : V4 (F32 P)) (hV : Fins 3 V) : Fins 4 (XMVectorSelect g_XMSelect1110 V g_XMSelect1110) := by
  rw [sel1110X]; obtain ⟨h1, h2, h3⟩ := fins3 hV
  intro i _; fin_cases i
  · exact h1
  · exact h2
  · exact h3
  · exact ex_zero.1
theorem fins_of_ex {A : V4 (F32 P)} {a b c d : ℝ} (h : Ex A.x a ∧ Ex A.y b ∧ Ex A.z c ∧ Ex A.w d) : Fins 4 A := by
  intro i _; fin_cases i
  · exact h.1.1
  · exact h.2.1.1
  · exact h.2.2.1.1
  · exact h.2.2.2.1

/-- The right factor is any quaternion whose numbers are 0, 0, 0, 1. -/
theorem qmul_anyR (c : Cfg) (I Q : V4 (F32 P)) (hI : Ex I.x 0 ∧ Ex I.y 0 ∧ Ex I.z 0 ∧ Ex I.w 1) (hQ : Fins 4 Q) : Ex (XMQuaternionMultiply c Q I).x (val Q.x) ∧ Ex (XMQuaternionMultiply c Q I).y (val Q.y)
     ∧ Ex (XMQuaternionMultiply c Q I).z (val Q.z) ∧ Ex (XMQuaternionMultiply c Q I).w (val Q.w) := by
  obtain ⟨h1, h2, h3, h4⟩ := fins4 hQ
  obtain ⟨i1, i2, i3, i4⟩ := hI
  have e1 := ex_leaf h1; have e2 := ex_leaf h2; have e3 := ex_leaf h3; have e4 := ex_leaf h4
  have f1 := isF_val h1; have f2 := isF_val h2; have f3 := isF_val h3; have f4 := isF_val h4
  tolanes [XMQuaternionMultiply]
  all_goals (refine ⟨?_, ?_, ?_, ?_⟩ <;> exv)
theorem qmul_idR' (c : Cfg) (A B : V4 (F32 P)) (hA : Fins 4 A) (h : Ex B.x (val A.x) ∧ Ex B.y (val A.y) ∧ Ex B.z (val A.z) ∧ Ex B.w (val A.w)) :
    SameNumV (XMQuaternionMultiply c B XMQuaternionIdentity) A := by
  have h1 := qmul_idR c B (fins_of_ex h)
  obtain ⟨a1, a2, a3, a4⟩ := fins4 hA
  refine lanesV h1 ⟨(ex_leaf a1).eq h.1.2.symm, (ex_leaf a2).eq h.2.1.2.symm, (ex_leaf a3).eq h.2.2.1.2.symm, (ex_leaf a4).eq h.2.2.2.2.symm⟩
theorem ex_ident : Ex (XMQuaternionIdentity : V4 (F32 P)).x 0 ∧ Ex (XMQuaternionIdentity : V4 (F32 P)).y 0 ∧ Ex (XMQuaternionIdentity : V4 (F32 P)).z 0 ∧ Ex (XMQuaternionIdentity : V4 (F32 P)).w 1 :=
  ⟨ex_zero, ex_zero, ex_zero, ex_one⟩
theorem sel_eq (V : V4 (F32 P)) : XMVectorSelect g_XMSelect1110 V g_XMSelect1110 = (⟨V.x, V.y, V.z, Lane.c0⟩ : V4 (F32 P)) := sel1110X _ _
theorem rot_id (c : Cfg) (V : V4 (F32 P)) (hV : Fins 3 V) : SameNumV (XMVector3Rotate c V XMQuaternionIdentity) ⟨V.x, V.y, V.z, Lane.c0⟩ := by
  unfold XMVector3Rotate
  have hf := sel_fin V hV
  rw [sel_eq] at *
  exact qmul_idR' c _ _ hf (qmul_idL c _ _ (conj_id c) hf)
theorem irot_id (c : Cfg) (V : V4 (F32 P)) (hV : Fins 3 V) : SameNumV (XMVector3InverseRotate c V XMQuaternionIdentity) ⟨V.x, V.y, V.z, Lane.c0⟩ := by
  unfold XMVector3InverseRotate
  have hf := sel_fin V hV
  rw [sel_eq] at *
  have h1 := qmul_idL c _ _ ex_ident hf
  have h2 := conj_id (P := P) c
  obtain ⟨a1, a2, a3, a4⟩ := fins4 hf
  have h3 := qmul_anyR c _ _ h2 (fins_of_ex h1)
  exact lanesV h3 ⟨(ex_leaf a1).eq h1.1.2.symm, (ex_leaf a2).eq h1.2.1.2.symm, (ex_leaf a3).eq h1.2.2.1.2.symm, (ex_leaf a4).eq h1.2.2.2.2.symm⟩
theorem rotq_id (c : Cfg) : XMMatrixRotationQuaternion c (XMQuaternionIdentity : V4 (F32 P)) = XMMatrixIdentity := by
  have z := ex_zero (P := P); have o := ex_one (P := P)
  have a1 := ev_add (P := P) 0#32 0#32 0#32 (by decide +kernel) (by decide +kernel)
  have a2 := ev_add (P := P) 0x3F800000#32 0x3F800000#32 0x40000000#32 (by decide +kernel) (by decide +kernel)
  have a3 := ev_mul (P := P) 0#32 0#32 0#32 (by decide +kernel) (by decide +kernel)
  have a4 := ev_mul (P := P) 0x3F800000#32 0#32 0#32 (by decide +kernel) (by decide +kernel)
  have a5 := ev_sub (P := P) 0#32 0#32 0#32 (by decide +kernel) (by decide +kernel)
  have a6 := ev_sub (P := P) 0x3F800000#32 0#32 0x3F800000#32 (by decide +kernel) (by decide +kernel)
  have e : XMMatrixRotationQuaternion c (XMQuaternionIdentity : V4 (F32 P)) = XMMatrixIdentity := by
    by_cases hs : c.sse = true
    · rw [XMMatrixRotationQuaternion_sse c hs]
      simp only [XMQuaternionIdentity, g_XMIdentityR0, g_XMIdentityR1, g_XMIdentityR2, g_XMIdentityR3, XMMatrixIdentity, Lane.c0, Lane.c1, a1, a2, a3, a4, a5, a6, LawfulLane.band_ones_right, LawfulLane.band_zero_right]
    · rw [XMMatrixRotationQuaternion_noi c hs]
      simp only [XMQuaternionIdentity, g_XMIdentityR0, g_XMIdentityR1, g_XMIdentityR2, g_XMIdentityR3, XMMatrixIdentity, Lane.c0, Lane.c1, a1, a2, a3, a4, a5, a6]
  exact e
theorem le_bits (a b : BitVec 32) : Lane.le (Lane.ofBits a : F32 P) (Lane.ofBits b) = IEEE.le a b := rfl
theorem lt_bits (a b : BitVec 32) : Lane.lt (Lane.ofBits a : F32 P) (Lane.ofBits b) = IEEE.lt a b := rfl
theorem neg_bits (a : BitVec 32) : Lane.neg (Lane.ofBits a : F32 P) = Lane.ofBits (IEEE.neg a) := rfl
theorem cast_bits (a : BitVec 32) : Lane.castI (Lane.ofBits a : F32 P) = Lane.ofBits (IEEE.ofI32 (IEEE.castI32 a)) := rfl
theorem sincos0 : XMScalarSinCos (Lane.ofBits 0#32 : F32 P) = (Lane.ofBits 0#32, Lane.ofBits 0x3F800000#32) := by
  have hr : scalarReduce (Lane.ofBits 0#32 : F32 P) = (Lane.ofBits 0#32, Lane.ofBits 0x3F800000#32) := by
    unfold scalarReduce
    have g : Lane.ge (Lane.ofBits 0#32 : F32 P) Lane.c0 = true := by unfold Lane.ge; rw [le_bits]; decide +kernel
    have k : (Lane.castI (Lane.ofBits 0x3F000000#32) : F32 P) = Lane.ofBits 0#32 := by rw [cast_bits, show IEEE.ofI32 (IEEE.castI32 0x3F000000#32) = 0#32 by decide +kernel]
    simp only [g, if_true]
    simp only [XM_1DIV2PI, XM_2PI]
    simp only [ev_mul 0x3E22F983#32 0#32 0#32 (by decide +kernel) (by decide +kernel), ev_add 0#32 0x3F000000#32 0x3F000000#32 (by decide +kernel) (by decide +kernel), k,
      ev_mul 0x40C90FDB#32 0#32 0#32 (by decide +kernel) (by decide +kernel), ev_sub 0#32 0#32 0#32 (by decide +kernel) (by decide +kernel)]
    have g2 : Lane.gt (Lane.ofBits 0#32 : F32 P) XM_PIDIV2 = false := by unfold Lane.gt XM_PIDIV2; rw [lt_bits]; decide +kernel
    have g3 : Lane.lt (Lane.ofBits 0#32 : F32 P) (Lane.neg XM_PIDIV2) = false := by unfold XM_PIDIV2; rw [neg_bits, lt_bits]; decide +kernel
    simp only [g2, g3, Bool.false_eq_true, if_false]
  unfold XMScalarSinCos
  simp only [hr]
  unfold scalarSinPoly scalarCosPoly
  simp only [Lane.cHalf, Lane.c1]
  refine Prod.ext ?_ ?_
  · rw [ev_mul 0#32 0#32 0#32 (by decide +kernel) (by decide +kernel),
      ev_mul 0xB2CD365B#32 0#32 0x80000000#32 (by decide +kernel) (by decide +kernel),
      ev_add 0x80000000#32 0x3638B88E#32 0x3638B88E#32 (by decide +kernel) (by decide +kernel),
      ev_mul 0x3638B88E#32 0#32 0#32 (by decide +kernel) (by decide +kernel),
      ev_sub 0#32 0x39500BF1#32 0xB9500BF1#32 (by decide +kernel) (by decide +kernel),
      ev_mul 0xB9500BF1#32 0#32 0x80000000#32 (by decide +kernel) (by decide +kernel),
      ev_add 0x80000000#32 0x3C088886#32 0x3C088886#32 (by decide +kernel) (by decide +kernel),
      ev_mul 0x3C088886#32 0#32 0#32 (by decide +kernel) (by decide +kernel),
      ev_sub 0#32 0x3E2AAAAB#32 0xBE2AAAAB#32 (by decide +kernel) (by decide +kernel),
      ev_mul 0xBE2AAAAB#32 0#32 0x80000000#32 (by decide +kernel) (by decide +kernel),
      ev_add 0x80000000#32 0x3F800000#32 0x3F800000#32 (by decide +kernel) (by decide +kernel),
      ev_mul 0x3F800000#32 0#32 0#32 (by decide +kernel) (by decide +kernel)]
  · rw [ev_mul 0#32 0#32 0#32 (by decide +kernel) (by decide +kernel),
      ev_mul 0xB48BDD11#32 0#32 0x80000000#32 (by decide +kernel) (by decide +kernel),
      ev_add 0x80000000#32 0x37CFB4C2#32 0x37CFB4C2#32 (by decide +kernel) (by decide +kernel),
      ev_mul 0x37CFB4C2#32 0#32 0#32 (by decide +kernel) (by decide +kernel),
      ev_sub 0#32 0x3AB609AA#32 0xBAB609AA#32 (by decide +kernel) (by decide +kernel),
      ev_mul 0xBAB609AA#32 0#32 0x80000000#32 (by decide +kernel) (by decide +kernel),
      ev_add 0x80000000#32 0x3D2AAAA3#32 0x3D2AAAA3#32 (by decide +kernel) (by decide +kernel),
      ev_mul 0x3D2AAAA3#32 0#32 0#32 (by decide +kernel) (by decide +kernel),
      ev_sub 0#32 0x3F000000#32 0xBF000000#32 (by decide +kernel) (by decide +kernel),
      ev_mul 0xBF000000#32 0#32 0x80000000#32 (by decide +kernel) (by decide +kernel),
      ev_add 0x80000000#32 0x3F800000#32 0x3F800000#32 (by decide +kernel) (by decide +kernel),
      ev_mul 0x3F800000#32 0x3F800000#32 0x3F800000#32 (by decide +kernel) (by decide +kernel)]

theorem same_self (a : F32 P) {v : ℝ} (h : Ro a v) : SameNum a a := by
  by_cases hn : IsNaN a.bits
  · exact Or.inr ⟨hn, hn⟩
  · exact Or.inl (feq_refl hn)
theorem rotX0 (c : Cfg) : SameNumM (XMMatrixRotationX c (Lane.ofBits 0#32 : F32 P)) XMMatrixIdentity := by
  have z := ex_zero (P := P); have o := ex_one (P := P)
  unfold XMMatrixRotationX; rw [sincos0]
  refine ⟨lanesV ?_ ⟨o, z, z, z⟩, lanesV ?_ ⟨z, o, z, z⟩, lanesV ?_ ⟨z, z, o, z⟩, lanesV ?_ ⟨z, z, z, o⟩⟩
  all_goals
    tolanes [SSE.set_ss, g_XMNegateY]
    all_goals (refine ⟨?_, ?_, ?_, ?_⟩ <;> exv)
theorem rotY0 (c : Cfg) : SameNumM (XMMatrixRotationY c (Lane.ofBits 0#32 : F32 P)) XMMatrixIdentity := by
  have z := ex_zero (P := P); have o := ex_one (P := P)
  unfold XMMatrixRotationY; rw [sincos0]
  refine ⟨lanesV ?_ ⟨o, z, z, z⟩, lanesV ?_ ⟨z, o, z, z⟩, lanesV ?_ ⟨z, z, o, z⟩, lanesV ?_ ⟨z, z, z, o⟩⟩
  all_goals
    tolanes [SSE.set_ss, g_XMNegateZ]
    all_goals (refine ⟨?_, ?_, ?_, ?_⟩ <;> exv)
theorem rotZ0 (c : Cfg) : SameNumM (XMMatrixRotationZ c (Lane.ofBits 0#32 : F32 P)) XMMatrixIdentity := by
  have z := ex_zero (P := P); have o := ex_one (P := P)
  unfold XMMatrixRotationZ; rw [sincos0]
  refine ⟨lanesV ?_ ⟨o, z, z, z⟩, lanesV ?_ ⟨z, o, z, z⟩, lanesV ?_ ⟨z, z, o, z⟩, lanesV ?_ ⟨z, z, z, o⟩⟩
  all_goals
    tolanes [SSE.set_ss, SSE.unpacklo, g_XMNegateX]
    all_goals (refine ⟨?_, ?_, ?_, ?_⟩ <;> exv)

end DXM.FEx
