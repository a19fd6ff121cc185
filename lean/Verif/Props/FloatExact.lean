import Verif.Lemmas.FExactM

/-
C124: identity, translation and scaling on binary32 lanes, in every build: what is not rounded at all, and what is rounded once.
-/

set_option linter.all false

namespace DXM.Props
open DXM.FEx DXM.Spec DXM.FErr DXM.IEEE
variable {P : Env}

/-- C124: transforming by the identity matrix changes no coordinate, in any build: the result holds the same numbers (a zero may lose its sign), with the lanes the function fills in. -/
theorem C124_identity_transform (c : Cfg) (V : V4 (F32 P)) :
    (Fins 4 V → SameNumV (XMVector4Transform c V XMMatrixIdentity) V) ∧
    (Fins 3 V → SameNumV (XMVector3Transform c V XMMatrixIdentity) ⟨V.x, V.y, V.z, Lane.c1⟩ ∧
      SameNumV (XMVector3TransformCoord c V XMMatrixIdentity) ⟨V.x, V.y, V.z, Lane.c1⟩ ∧ SameNumV (XMVector3TransformNormal c V XMMatrixIdentity) ⟨V.x, V.y, V.z, Lane.c0⟩) ∧
    (Fins 2 V → SameNumV (XMVector2Transform c V XMMatrixIdentity) ⟨V.x, V.y, Lane.c0, Lane.c1⟩ ∧
      SameNumV (XMVector2TransformCoord c V XMMatrixIdentity) ⟨V.x, V.y, Lane.c0, Lane.c1⟩ ∧ SameNumV (XMVector2TransformNormal c V XMMatrixIdentity) ⟨V.x, V.y, Lane.c0, Lane.c0⟩) :=
  ⟨id_4T c V, fun h => ⟨id_3T c V h, id_3C c V h, id_3N c V h⟩, fun h => ⟨id_2T c V h, id_2C c V h, id_2N c V h⟩⟩
example : Fins 2 (exV : V4 (F32 P)) ∧ Fins 3 (exV : V4 (F32 P)) ∧ Fins 4 (exV : V4 (F32 P)) := ⟨exV_fin 2, exV_fin 3, exV_fin 4⟩

/-- C124: multiplying a finite matrix by the identity, on either side, changes no entry. -/
theorem C124_identity_multiply (c : Cfg) (M : M4 (F32 P)) (hM : ∀ i, Fins 4 (M.row i)) :
    SameNumM (XMMatrixMultiply c M XMMatrixIdentity) M ∧ SameNumM (XMMatrixMultiply c XMMatrixIdentity M) M := by
  have h0 := hM 0; have h1 := hM 1; have h2 := hM 2; have h3 := hM 3
  obtain ⟨A, B, C, D⟩ := M
  exact ⟨⟨id_mulR c _ h0, id_mulR c _ h1, id_mulR c _ h2, id_mulR c _ h3⟩,
    ⟨id_mulL0 c A B C D h0 h1 h2 h3, id_mulL1 c A B C D h0 h1 h2 h3, id_mulL2 c A B C D h0 h1 h2 h3, id_mulL3 c A B C D h0 h1 h2 h3⟩⟩
example (i : Fin 4) : Fins 4 ((exM : M4 (F32 P)).row i) := exM_fin i

/-- C124: transforming a point by a translation matrix rounds once: each coordinate is the float nearest to the exact sum of the coordinate and the offset; the last lane is one,
and a direction is not changed at all. -/
theorem C124_translate (c : Cfg) (V O : V4 (F32 P)) (hV : Fins 3 V) (hO : Fins 3 O) :
    (∀ f ∈ [XMVector3Transform (α := F32 P) c, XMVector3TransformCoord c], let r := f V (XMMatrixTranslation c O.x O.y O.z)
      Rounds (vals V 0 + vals O 0) r.x.bits ∧ Rounds (vals V 1 + vals O 1) r.y.bits ∧ Rounds (vals V 2 + vals O 2) r.z.bits ∧ SameNum r.w Lane.c1) ∧
    SameNumV (XMVector3TransformNormal c V (XMMatrixTranslation c O.x O.y O.z)) ⟨V.x, V.y, V.z, Lane.c0⟩ := by
  obtain ⟨h1, h2, h3⟩ := fins3 hV
  refine ⟨fun f hf => ?_, lanesV (tr_3N c V O hV hO) ⟨ex_leaf h1, ex_leaf h2, ex_leaf h3, ex_zero⟩⟩
  simp only [List.mem_cons, List.not_mem_nil, or_false] at hf
  rcases hf with rfl | rfl
  · obtain ⟨a, b, d, e⟩ := tr_3T c V O hV hO
    exact ⟨a, b, d, e.sameNum ex_one⟩
  · obtain ⟨a, b, d, e⟩ := tr_3C c V O hV hO
    exact ⟨a, b, d, e.sameNum ex_one⟩
/-- C124: transforming by a scaling matrix rounds once: each coordinate is the float nearest to the exact product. -/
theorem C124_scale (c : Cfg) (V S : V4 (F32 P)) (hV : Fins 3 V) (hS : Fins 3 S) :
    ∀ fw ∈ [(XMVector3Transform (α := F32 P) c, (Lane.c1 : F32 P)), (XMVector3TransformCoord c, Lane.c1), (XMVector3TransformNormal c, Lane.c0)], let r := fw.1 V (XMMatrixScaling S.x S.y S.z)
      Rounds (vals V 0 * vals S 0) r.x.bits ∧ Rounds (vals V 1 * vals S 1) r.y.bits ∧ Rounds (vals V 2 * vals S 2) r.z.bits ∧ SameNum r.w fw.2 := by
  intro f hf
  simp only [List.mem_cons, List.not_mem_nil, or_false] at hf
  rcases hf with rfl | rfl | rfl
  · obtain ⟨a, b, d, e⟩ := sc_3T c V S hV hS
    exact ⟨a, b, d, e.sameNum ex_one⟩
  · obtain ⟨a, b, d, e⟩ := sc_3C c V S hV hS
    exact ⟨a, b, d, e.sameNum ex_one⟩
  · obtain ⟨a, b, d, e⟩ := sc_3N c V S hV hS
    exact ⟨a, b, d, e.sameNum ex_zero⟩
example : Fins 3 (exV : V4 (F32 P)) := exV_fin 3

/-- C124: the product of two translation matrices is a translation matrix, by the offsets' sums rounded once. -/
theorem C124_translate_compose (c : Cfg) (A B : V4 (F32 P)) (hA : Fins 3 A) (hB : Fins 3 B) :
    ∃ x y z : F32 P, Rounds (vals A 0 + vals B 0) x.bits ∧ Rounds (vals A 1 + vals B 1) y.bits ∧ Rounds (vals A 2 + vals B 2) z.bits ∧
      SameNumM (XMMatrixMultiply c (XMMatrixTranslation c A.x A.y A.z) (XMMatrixTranslation c B.x B.y B.z)) (XMMatrixTranslation c x y z) := by
  have z := ex_zero (P := P); have o := ex_one (P := P)
  obtain ⟨a, b, d, e1, e2, e3, e4⟩ := tr_mul c A B hA hB
  refine ⟨_, _, _, e1, e2, e3, ?_⟩
  rw [T_eq c (XMMatrixMultiply c _ _).r3.x]
  exact ⟨lanesV a ⟨o, z, z, z⟩, lanesV b ⟨z, o, z, z⟩, lanesV d ⟨z, z, o, z⟩, same_self _ e1, same_self _ e2, same_self _ e3, e4.sameNum o⟩
/-- C124: the product of two scaling matrices is a scaling matrix, by the factors' products rounded once. -/
theorem C124_scale_compose (c : Cfg) (A B : V4 (F32 P)) (hA : Fins 3 A) (hB : Fins 3 B) :
    ∃ x y z : F32 P, Rounds (vals A 0 * vals B 0) x.bits ∧ Rounds (vals A 1 * vals B 1) y.bits ∧ Rounds (vals A 2 * vals B 2) z.bits ∧
      SameNumM (XMMatrixMultiply c (XMMatrixScaling A.x A.y A.z) (XMMatrixScaling B.x B.y B.z)) (XMMatrixScaling x y z) := by
  have z := ex_zero (P := P); have o := ex_one (P := P)
  obtain ⟨⟨a1, a2, a3, a4⟩, ⟨b1, b2, b3, b4⟩, ⟨d1, d2, d3, d4⟩, e⟩ := sc_mul c A B hA hB
  refine ⟨_, _, _, a1, b2, d3, ?_⟩
  exact ⟨⟨same_self _ a1, a2.sameNum z, a3.sameNum z, a4.sameNum z⟩, ⟨b1.sameNum z, same_self _ b2, b3.sameNum z, b4.sameNum z⟩,
    ⟨d1.sameNum z, d2.sameNum z, same_self _ d3, d4.sameNum z⟩, lanesV e ⟨z, z, z, o⟩⟩
example : Fins 3 (exV : V4 (F32 P)) := exV_fin 3

/-- C124: the inverse of a translation matrix is, entry for entry and without any rounding, the translation by the negated offset; the determinant returned is exactly one. -/
theorem C124_translate_inverse (c : Cfg) (x y z : F32 P) (hx : IsFinite x.bits) (hy : IsFinite y.bits) (hz : IsFinite z.bits) :
    SameNumM (XMMatrixInverse c (XMMatrixTranslation c x y z)).1 (XMMatrixTranslation c (Lane.neg x) (Lane.neg y) (Lane.neg z)) ∧
    SameNumV (XMMatrixInverse c (XMMatrixTranslation c x y z)).2 ⟨Lane.c1, Lane.c1, Lane.c1, Lane.c1⟩ := by
  have hx' : Fin' x := hx; have hy' : Fin' y := hy; have hz' : Fin' z := hz
  have q := ex_zero (P := P); have o := ex_one (P := P)
  obtain ⟨⟨h0, h1, h2, h3⟩, h4⟩ := inv_tr c x y z hx' hy' hz'
  rw [T_eq c (Lane.neg x)]
  exact ⟨⟨lanesV ⟨h0 0, h0 1, h0 2, h0 3⟩ ⟨o, q, q, q⟩, lanesV ⟨h1 0, h1 1, h1 2, h1 3⟩ ⟨q, o, q, q⟩, lanesV ⟨h2 0, h2 1, h2 2, h2 3⟩ ⟨q, q, o, q⟩,
    lanesV ⟨h3 0, h3 1, h3 2, h3 3⟩ ⟨ex_neg (ex_leaf hx'), ex_neg (ex_leaf hy'), ex_neg (ex_leaf hz'), o⟩⟩, lanesV ⟨h4 0, h4 1, h4 2, h4 3⟩ ⟨o, o, o, o⟩⟩
example : IsFinite (exV : V4 (F32 P)).x.bits ∧ IsFinite (exV : V4 (F32 P)).y.bits ∧ IsFinite (exV : V4 (F32 P)).z.bits := ⟨exV_fin 3 0 (by decide), exV_fin 3 1 (by decide), exV_fin 3 2 (by decide)⟩

/-- C124: the identity quaternion is a two-sided unit of the quaternion product and rotates no vector, whatever the build. -/
theorem C124_identity_quaternion (c : Cfg) (Q : V4 (F32 P)) :
    (Fins 4 Q → SameNumV (XMQuaternionMultiply c Q XMQuaternionIdentity) Q ∧ SameNumV (XMQuaternionMultiply c XMQuaternionIdentity Q) Q) ∧
    (Fins 3 Q → SameNumV (XMVector3Rotate c Q XMQuaternionIdentity) ⟨Q.x, Q.y, Q.z, Lane.c0⟩ ∧ SameNumV (XMVector3InverseRotate c Q XMQuaternionIdentity) ⟨Q.x, Q.y, Q.z, Lane.c0⟩) := by
  refine ⟨fun h => ?_, fun h => ⟨rot_id c Q h, irot_id c Q h⟩⟩
  obtain ⟨h1, h2, h3, h4⟩ := fins4 h
  exact ⟨lanesV (qmul_idR c Q h) ⟨ex_leaf h1, ex_leaf h2, ex_leaf h3, ex_leaf h4⟩, lanesV (qmul_idL c _ Q ex_ident h) ⟨ex_leaf h1, ex_leaf h2, ex_leaf h3, ex_leaf h4⟩⟩
example : Fins 4 (exV : V4 (F32 P)) ∧ Fins 3 (exV : V4 (F32 P)) := ⟨exV_fin 4, exV_fin 3⟩

/-- C124: a rotation by the angle zero about a coordinate axis, and the rotation of the identity quaternion, is the identity matrix; the polynomial sine and cosine are exact at zero. -/
theorem C124_zero_rotation (c : Cfg) :
    XMScalarSinCos (Lane.c0 : F32 P) = (Lane.c0, Lane.c1) ∧
    SameNumM (XMMatrixRotationX c (Lane.c0 : F32 P)) XMMatrixIdentity ∧ SameNumM (XMMatrixRotationY c (Lane.c0 : F32 P)) XMMatrixIdentity ∧
    SameNumM (XMMatrixRotationZ c (Lane.c0 : F32 P)) XMMatrixIdentity ∧ XMMatrixRotationQuaternion c (XMQuaternionIdentity : V4 (F32 P)) = XMMatrixIdentity :=
  ⟨sincos0, rotX0 c, rotY0 c, rotZ0 c, rotq_id c⟩

end DXM.Props
