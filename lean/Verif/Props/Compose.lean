import Verif.Lemmas.Affine
import Verif.Props.Rotation
import Verif.Props.Plane

/-
C48-C50: composite transformations, reflection and shadow, view matrices, on exact-real lanes, every build.
-/

set_option linter.all false

namespace DXM.Props
open DXM.E DXM.Spec Matrix Real

theorem mat_inj {A B : Matrix (Fin 4) (Fin 4) ℝ} (h : (mat A : M4 E) = mat B) : A = B := by
  simp at h
  obtain ⟨⟨a0, a1, a2, a3⟩, ⟨b0, b1, b2, b3⟩, ⟨c0, c1, c2, c3⟩, ⟨d0, d1, d2, d3⟩⟩ := h
  ext i j
  fin_cases i <;> fin_cases j <;> simp [*]

/-! ### C48 -/

/-- The documented product:  translate to the scaling origin, unrotate, scale, rotate, translate back, translate to the
rotation origin, rotate, translate back, translate.  `Rs` and `R` are the matrices of the two quaternions. -/
theorem C48_transformation (c : Cfg) (so s ro t : Fin 3 → ℝ) (qs q : Quaternion ℝ) (w1 w2 w3 w4 : E) :
    ∃ Rs R, XMMatrixRotationQuaternion c (quat qs) = mat (affine Rs 0) ∧ XMMatrixRotationQuaternion c (quat q) = mat (affine R 0) ∧
      XMMatrixTransformation c (vec3 so w1) (quat qs) (vec3 s w2) (vec3 ro w3) (quat q) (vec3 t w4) =
        mat (affine 1 (-so) * affine Rsᵀ 0 * affine (diagonal s) 0 * affine Rs 0 * affine 1 so *
          affine 1 (-ro) * affine R 0 * affine 1 ro * affine 1 t) := by
  refine ⟨rotM qs, rotM q, XMMatrixRotationQuaternion_quat c qs, XMMatrixRotationQuaternion_quat c q, ?_⟩
  have hn : ∃ u, XMVectorNegate c (vec3 so w1) = vec3 (-so) u := (is3_iff _ _).2 (by unfold XMVectorNegate; split_ifs <;> simp)
  obtain ⟨u, hn⟩ := hn
  unfold XMMatrixTransformation
  simp only [hn, XMMatrixTranslationFromVector_vec3, XMMatrixScalingFromVector_vec3, XMMatrixRotationQuaternion_quat,
    XMMatrixTranspose_mat, affine_transpose, XMMatrixMultiply_mat, affine_mul, select1110_vec3, affine_r3, add_vec3, sub_vec3,
    add_zero, sub_zero, affine_setRow]
  simp only [Matrix.vecMul_one, Matrix.mul_one, Matrix.one_mul, add_zero, Matrix.zero_vecMul, zero_add, sub_eq_add_neg]
theorem C48_affineTransformation (c : Cfg) (s ro t : Fin 3 → ℝ) (q : Quaternion ℝ) (w2 w3 w4 : E) :
    ∃ R, XMMatrixRotationQuaternion c (quat q) = mat (affine R 0) ∧
      XMMatrixAffineTransformation c (vec3 s w2) (vec3 ro w3) (quat q) (vec3 t w4) =
        mat (affine (diagonal s) 0 * affine 1 (-ro) * affine R 0 * affine 1 ro * affine 1 t) := by
  refine ⟨rotM q, XMMatrixRotationQuaternion_quat c q, ?_⟩
  unfold XMMatrixAffineTransformation
  simp only [XMMatrixTranslationFromVector_vec3, XMMatrixScalingFromVector_vec3, XMMatrixRotationQuaternion_quat,
    XMMatrixTranspose_mat, affine_transpose, XMMatrixMultiply_mat, affine_mul, select1110_vec3, affine_r3, add_vec3, sub_vec3,
    add_zero, sub_zero, affine_setRow]
  simp only [Matrix.vecMul_one, Matrix.mul_one, Matrix.one_mul, add_zero, Matrix.zero_vecMul, zero_add, sub_eq_add_neg]
/-- Point by point, for unit quaternions: `rot` is the rotation `v ↦ q v q*`. -/
theorem C48_transformation_point (c : Cfg) (so s ro t x : Fin 3 → ℝ) (qs q : Quaternion ℝ) (w1 w2 w3 w4 w : E)
    (hs : Quaternion.normSq qs = 1) (hq : Quaternion.normSq q = 1) :
    ∃ rs rs' r : (Fin 3 → ℝ) → Fin 3 → ℝ, (∀ v, pureQ (rs v) = qs * pureQ v * star qs) ∧ (∀ v, pureQ (rs' v) = star qs * pureQ v * qs) ∧
      (∀ v, pureQ (r v) = q * pureQ v * star q) ∧
      XMVector3Transform c (vec3 x w) (XMMatrixTransformation c (vec3 so w1) (quat qs) (vec3 s w2) (vec3 ro w3) (quat q) (vec3 t w4)) =
        vec3 (r (rs (s * rs' (x - so)) + so - ro) + ro + t) (num 1) := by
  have hs' : Quaternion.normSq (star qs) = 1 := by rw [Quaternion.normSq_star, hs]
  refine ⟨fun v => v ᵥ* rotM qs, fun v => v ᵥ* rotM (star qs), fun v => v ᵥ* rotM q, rotM_act qs hs, fun v => ?_, rotM_act q hq, ?_⟩
  · simpa using rotM_act (star qs) hs' v
  obtain ⟨Rs, R, e1, e2, e⟩ := C48_transformation c so s ro t qs q w1 w2 w3 w4
  have h1 : affine Rs 0 = affine (rotM qs) 0 := mat_inj (e1.symm.trans (XMMatrixRotationQuaternion_quat c qs))
  have h2 : affine R 0 = affine (rotM q) 0 := mat_inj (e2.symm.trans (XMMatrixRotationQuaternion_quat c q))
  have h3 : affine Rsᵀ 0 = affine (rotM (star qs)) 0 := by
    rw [← affine_transpose, h1, affine_transpose]
    congr 1
    ext i j; fin_cases i <;> fin_cases j <;> simp [rotM] <;> ring
  rw [e, h1, h2, h3]
  simp only [affine_mul, XMVector3Transform_affine]
  congr 1
  have hd : ∀ v : Fin 3 → ℝ, s * v = v ᵥ* diagonal s := fun v => by ext i; rw [Matrix.vecMul_diagonal, Pi.mul_apply, mul_comm]
  simp only [hd, Matrix.vecMul_one, Matrix.mul_one, Matrix.one_mul, add_zero, Matrix.zero_vecMul, zero_add, sub_eq_add_neg, Matrix.add_vecMul,
    Matrix.vecMul_vecMul, Matrix.mul_assoc]
  abel
theorem C48_affineTransformation_point (c : Cfg) (s ro t x : Fin 3 → ℝ) (q : Quaternion ℝ) (w2 w3 w4 w : E)
    (hq : Quaternion.normSq q = 1) :
    ∃ r : (Fin 3 → ℝ) → Fin 3 → ℝ, (∀ v, pureQ (r v) = q * pureQ v * star q) ∧
      XMVector3Transform c (vec3 x w) (XMMatrixAffineTransformation c (vec3 s w2) (vec3 ro w3) (quat q) (vec3 t w4)) =
        vec3 (r (s * x - ro) + ro + t) (num 1) := by
  refine ⟨fun v => v ᵥ* rotM q, rotM_act q hq, ?_⟩
  obtain ⟨R, e2, e⟩ := C48_affineTransformation c s ro t q w2 w3 w4
  have h2 : affine R 0 = affine (rotM q) 0 := mat_inj (e2.symm.trans (XMMatrixRotationQuaternion_quat c q))
  rw [e, h2]
  simp only [affine_mul, XMVector3Transform_affine]
  congr 1
  have hd : ∀ v : Fin 3 → ℝ, s * v = v ᵥ* diagonal s := fun v => by ext i; rw [Matrix.vecMul_diagonal, Pi.mul_apply, mul_comm]
  simp only [hd, Matrix.vecMul_one, Matrix.mul_one, Matrix.one_mul, add_zero, Matrix.zero_vecMul, zero_add, sub_eq_add_neg, Matrix.add_vecMul,
    Matrix.vecMul_vecMul, Matrix.mul_assoc]
  abel
example : ∃ qs q : Quaternion ℝ, Quaternion.normSq qs = 1 ∧ Quaternion.normSq q = 1 ∧ qs ≠ q :=
  ⟨mkQ (1/2) (1/2) (-1/2) (1/2), mkQ (3/5) 0 (4/5) 0, by rw [normSq4]; norm_num, by rw [normSq4]; norm_num, fun h => by
    have := congrArg (·.imI) h
    norm_num at this⟩

/-- The planar rotation by the computed sine/cosine pair. -/
theorem select1100_vec2 (t : Fin 2 → ℝ) (z w : E) :
    XMVectorSelect g_XMSelect1100 (vec2 t z w) g_XMSelect1100 = vec3 ![t 0, t 1, 0] (num 0) := by simp
theorem select1100_one (t : Fin 2 → ℝ) (z w : E) :
    XMVectorSelect g_XMOne (vec2 t z w) g_XMSelect1100 = vec3 ![t 0, t 1, 1] (num 1) := by simp
theorem rotZ_affine (c : Cfg) (a s k : ℝ) (h : XMScalarSinCos (num a) = (num s, num k)) :
    XMMatrixRotationZ c (num a) = mat (affine !![k, s, 0; -s, k, 0; 0, 0, 1] 0) := by
  rw [XMMatrixRotationZ_num c a s k h]
  simp [affine, rodM, ez]
theorem neg_vec3 (c : Cfg) (v : Fin 3 → ℝ) : XMVectorNegate c (vec3 v (num 0)) = vec3 (-v) (num 0) := by simp
theorem C48_transformation2D (c : Cfg) (so s ro t x : Fin 2 → ℝ) (a b : ℝ) (ha : |a| ≤ 10^8) (hb : |b| ≤ 10^8)
    (z1 w1 z2 w2 z3 w3 z4 w4 w : E) (z : ℝ) :
    ∃ sa ka sb kb, XMScalarSinCos (num a) = (num sa, num ka) ∧ |sa - sin a| ≤ trigErr a ∧ |ka - cos a| ≤ trigErr a ∧
      XMScalarSinCos (num b) = (num sb, num kb) ∧ |sb - sin b| ≤ trigErr b ∧ |kb - cos b| ≤ trigErr b ∧
      let y := ((s * ((x - so) ᵥ* !![ka, -sa; sa, ka])) ᵥ* !![ka, sa; -sa, ka] + so - ro) ᵥ* !![kb, sb; -sb, kb] + ro + t
      XMVector3Transform c (vec3 ![x 0, x 1, z] w)
        (XMMatrixTransformation2D c (vec2 so z1 w1) (num a) (vec2 s z2 w2) (vec2 ro z3 w3) (num b) (vec2 t z4 w4)) = vec3 ![y 0, y 1, z] (num 1) := by
  obtain ⟨sa, ka, -, -, h, h1, h2⟩ := C66_sincos a ha
  obtain ⟨sb, kb, -, -, g, g1, g2⟩ := C66_sincos b hb
  refine ⟨sa, ka, sb, kb, h, h1, h2, g, g1, g2, ?_⟩
  intro y
  unfold XMMatrixTransformation2D
  simp only [select1100_vec2, select1100_one, neg_vec3, XMMatrixTranslationFromVector_vec3, XMMatrixScalingFromVector_vec3, rotZ_affine c a sa ka h,
    rotZ_affine c b sb kb g, XMMatrixTranspose_mat, affine_transpose, XMMatrixMultiply_mat, affine_mul, affine_r3, add_vec3, sub_vec3,
    add_zero, zero_add, sub_zero, affine_setRow, XMVector3Transform_affine]
  congr 1
  simp only [Matrix.vecMul_one, Matrix.mul_one, Matrix.one_mul, add_zero, Matrix.zero_vecMul, zero_add]
  have v2 : ∀ (v : Fin 2 → ℝ) (A : Matrix (Fin 2) (Fin 2) ℝ) j, (v ᵥ* A) j = v 0 * A 0 j + v 1 * A 1 j := fun v A j => by
    rw [Matrix.vecMul, dot2]
  ext i
  fin_cases i <;>
  simp only [y, ← Matrix.vecMul_vecMul, Pi.add_apply, Pi.sub_apply, Pi.neg_apply, Pi.mul_apply, vecMul3, v2, Matrix.vecMul_diagonal] <;> simp <;> ring
theorem C48_affineTransformation2D (c : Cfg) (s ro t x : Fin 2 → ℝ) (b : ℝ) (hb : |b| ≤ 10^8)
    (z2 w2 z3 w3 z4 w4 w : E) (z : ℝ) :
    ∃ sb kb, XMScalarSinCos (num b) = (num sb, num kb) ∧ |sb - sin b| ≤ trigErr b ∧ |kb - cos b| ≤ trigErr b ∧
      let y := (s * x - ro) ᵥ* !![kb, sb; -sb, kb] + ro + t
      XMVector3Transform c (vec3 ![x 0, x 1, z] w)
        (XMMatrixAffineTransformation2D c (vec2 s z2 w2) (vec2 ro z3 w3) (num b) (vec2 t z4 w4)) = vec3 ![y 0, y 1, z] (num 1) := by
  obtain ⟨sb, kb, -, -, g, g1, g2⟩ := C66_sincos b hb
  refine ⟨sb, kb, g, g1, g2, ?_⟩
  intro y
  unfold XMMatrixAffineTransformation2D
  simp only [select1100_vec2, select1100_one, XMMatrixTranslationFromVector_vec3, XMMatrixScalingFromVector_vec3,
    rotZ_affine c b sb kb g, XMMatrixMultiply_mat, affine_mul, affine_r3, add_vec3, sub_vec3,
    add_zero, zero_add, sub_zero, affine_setRow, XMVector3Transform_affine]
  congr 1
  have v2 : ∀ (v : Fin 2 → ℝ) (A : Matrix (Fin 2) (Fin 2) ℝ) j, (v ᵥ* A) j = v 0 * A 0 j + v 1 * A 1 j := fun v A j => by
    rw [Matrix.vecMul, dot2]
  ext i
  fin_cases i <;>
  simp only [y, ← Matrix.vecMul_vecMul, Pi.add_apply, Pi.sub_apply, Pi.neg_apply, Pi.mul_apply, vecMul3, v2, Matrix.vecMul_diagonal] <;> simp <;> ring

/-! ### C49 -/

/-- Every point is mirrored in the plane (the multiple of the normal is twice the signed distance), and the matrix is an involution. -/
theorem C49_reflect (c : Cfg) (P : Fin 4 → ℝ) (h : normal P ≠ 0) :
    ∃ M, XMMatrixReflect c (vec4 P) = mat M ∧ M * M = 1 ∧
      ∀ x w, ∃ y, XMVector3Transform c (vec3 x w) (XMMatrixReflect c (vec4 P)) = vec3 y (num 1) ∧
        y = x - (2 * planeAt P x / (normal P ⬝ᵥ normal P)) • normal P ∧ planeAt P y = -planeAt P x ∧ (planeAt P x = 0 → y = x) := by
  have hl := len_pos h
  have hn : 0 < normal P ⬝ᵥ normal P := dot_self_pos h
  have h2 : len (normal P) * len (normal P) = normal P ⬝ᵥ normal P := Real.mul_self_sqrt hn.le
  set k := (len (normal P))⁻¹ with hk
  have hkk : k * k * (P 0 * P 0 + P 1 * P 1 + P 2 * P 2) = 1 := by
    have : normal P ⬝ᵥ normal P = P 0 * P 0 + P 1 * P 1 + P 2 * P 2 := by rw [dot3]; simp [normal]
    rw [← this, ← h2, hk]; field_simp
  set A : Matrix (Fin 3) (Fin 3) ℝ := 1 - (2 * k * k) • Matrix.vecMulVec (normal P) (normal P) with hA
  set t : Fin 3 → ℝ := -(2 * k * k * P 3) • normal P with ht
  have e : XMMatrixReflect c (vec4 P) = mat (affine A t) := by
    unfold XMMatrixReflect
    simp only [(C61_normalize c P h).1, ← hk]
    simp [affine, hA, ht, normal, Matrix.vecMulVec, cNeg2]
    refine ⟨⟨?_, ?_, ?_⟩, ⟨?_, ?_, ?_⟩, ⟨?_, ?_, ?_⟩, ?_, ?_, ?_⟩ <;> ring
  have act : ∀ x, x ᵥ* A + t = x - (2 * planeAt P x / (normal P ⬝ᵥ normal P)) • normal P := fun x => by
    have e3 : 2 * planeAt P x / (normal P ⬝ᵥ normal P) = 2 * k * k * planeAt P x := by
      rw [← h2, hk]; field_simp
    rw [e3, planeAt_eq]
    ext i
    simp only [Pi.add_apply, vecMul3, Pi.sub_apply]
    fin_cases i <;> simp [hA, ht, normal, Matrix.vecMulVec] <;> ring
  have hy : ∀ x, planeAt P (x - (2 * planeAt P x / (normal P ⬝ᵥ normal P)) • normal P) = -planeAt P x := fun x => by
    rw [planeAt, dotProduct_sub, dotProduct_smul, smul_eq_mul, div_mul_cancel₀ _ hn.ne', planeAt]; ring
  refine ⟨affine A t, e, ?_, fun x w => ⟨_, by rw [e, XMVector3Transform_affine, act], rfl, hy x, fun h0 => by rw [h0]; simp⟩⟩
  have a1 : A * A = 1 := by
    clear_value A k t
    subst hA
    clear e act hy ht h2 hk
    ext i j
    fin_cases i <;> fin_cases j <;> simp [Matrix.mul_apply, Fin.sum_univ_three, normal, Matrix.vecMulVec] <;> grind
  have a2 : t ᵥ* A + t = 0 := by
    clear_value A k t
    subst hA ht
    clear e act hy h2 hk
    ext i
    simp only [Pi.add_apply, vecMul3]
    fin_cases i <;> simp [normal, Matrix.vecMulVec] <;> grind
  rw [affine_mul, a1, a2]
  ext i j
  fin_cases i <;> fin_cases j <;> simp [affine]
example : normal ![3, 0, 4, 10] ≠ 0 ∧ planeAt ![3, 0, 4, 10] ![1, 2, 3] = 25 := by
  refine ⟨fun h => by simpa [normal] using congrFun h 0, ?_⟩
  rw [planeAt_eq]; simp; norm_num

theorem rotl1 {β : Type} [Lane β] (c : Cfg) (V D : V4 β) : (XMVectorRotateLeft c false V 1).getD D = ⟨V.y, V.z, V.w, V.x⟩ := by
  rcases c with ⟨a1, a2, a3, a4, a5, a6, a7, a8, a9⟩
  cases V; cases a1 <;> cases a4 <;> rfl
/-- The shadow matrix sends the homogeneous point `v` to a multiple of `(P·L) v - (P·v) L`, which lies on the plane. -/
theorem C49_shadow (c : Cfg) (P L : Fin 4 → ℝ) (h : normal P ≠ 0) :
    ∃ M, XMMatrixShadow c (vec4 P) (vec4 L) = mat M ∧ ∀ v, v ᵥ* M = (len (normal P))⁻¹ • ((P ⬝ᵥ L) • v - (P ⬝ᵥ v) • L) ∧ P ⬝ᵥ (v ᵥ* M) = 0 := by
  set k := (len (normal P))⁻¹ with hk
  have e : XMMatrixShadow c (vec4 P) (vec4 L) = mat ((k * (P ⬝ᵥ L)) • 1 - k • Matrix.vecMulVec P L) := by
    have hd : XMPlaneDot c (vec4 (k • P)) (vec4 L) = all (k * (P ⬝ᵥ L)) := by rw [C61_dot, smul_dotProduct, smul_eq_mul]
    unfold XMMatrixShadow
    simp only [(C61_normalize c P h).1, ← hk, hd, rotl1]
    clear_value k
    simp [Matrix.vecMulVec]
    refine ⟨⟨?_, ?_, ?_, ?_⟩, ⟨?_, ?_, ?_, ?_⟩, ⟨?_, ?_, ?_, ?_⟩, ?_, ?_, ?_, ?_⟩ <;> ring
  have act : ∀ v, v ᵥ* ((k * (P ⬝ᵥ L)) • (1 : Matrix (Fin 4) (Fin 4) ℝ) - k • Matrix.vecMulVec P L) = k • ((P ⬝ᵥ L) • v - (P ⬝ᵥ v) • L) := fun v => by
    rw [Matrix.vecMul_sub, Matrix.vecMul_smul, Matrix.vecMul_smul, Matrix.vecMul_one, Matrix.vecMul_vecMulVec, smul_sub, smul_smul, dotProduct_comm v P]
    simp only [mul_smul]
  refine ⟨_, e, fun v => ⟨act v, ?_⟩⟩
  rw [act, dotProduct_smul, dotProduct_sub, dotProduct_smul, dotProduct_smul, smul_eq_mul, smul_eq_mul, smul_eq_mul]
  ring
/-- A point `x` whose shadow is not at infinity goes to a point of the plane on the line through `x` along the light: towards the
direction `l` for a directional light (`L = (l, 0)`), through the point `l` for a point light (`L = (l, 1)`). -/
theorem C49_shadow_point (c : Cfg) (P L : Fin 4 → ℝ) (h : normal P ≠ 0) (x : Fin 3 → ℝ) (w : E)
    (hw : P ⬝ᵥ L - planeAt P x * L 3 ≠ 0) :
    ∃ (y : Fin 3 → ℝ) (t : ℝ), Is3 (XMVector3TransformCoord c (vec3 x w) (XMMatrixShadow c (vec4 P) (vec4 L))) y ∧
      planeAt P y = 0 ∧ y = x + t • (![L 0, L 1, L 2] - L 3 • x) := by
  obtain ⟨M, e, hM⟩ := C49_shadow c P L h
  have hk : (len (normal P))⁻¹ ≠ 0 := (inv_pos.2 (len_pos h)).ne'
  set k := (len (normal P))⁻¹
  have hx := (hM ![x 0, x 1, x 2, 1]).1
  have pe : P ⬝ᵥ ![x 0, x 1, x 2, 1] = planeAt P x := by rw [planeAt_eq, dot4]; simp
  rw [pe] at hx
  set d := P ⬝ᵥ L - planeAt P x * L 3 with hd
  have c0 := congrFun hx 0
  have c1 := congrFun hx 1
  have c2 := congrFun hx 2
  have c3 := congrFun hx 3
  simp only [vecMul4, Pi.smul_apply, Pi.sub_apply, smul_eq_mul] at c0 c1 c2 c3
  simp only [Matrix.cons_val, one_mul, mul_one, ← hd] at c0 c1 c2 c3
  have hden : x 0 * M 0 3 + x 1 * M 1 3 + x 2 * M 2 3 + M 3 3 ≠ 0 := by rw [c3]; exact mul_ne_zero hk hw
  have ey : ∀ i, (x + (-(planeAt P x / d)) • (![L 0, L 1, L 2] - L 3 • x)) i = ((P ⬝ᵥ L) * x i - planeAt P x * ![L 0, L 1, L 2] i) / d := fun i => by
    simp only [Pi.add_apply, Pi.smul_apply, Pi.sub_apply, smul_eq_mul]
    have : P ⬝ᵥ L = d + planeAt P x * L 3 := by rw [hd]; ring
    rw [this]; field_simp; ring
  refine ⟨x + (-(planeAt P x / d)) • (![L 0, L 1, L 2] - L 3 • x), _, ?_, ?_, rfl⟩
  · refine (is3_iff _ _).2 ?_
    rw [e]
    simp only [vec3, mat, vec4, ey]
    rw [XMVector3TransformCoord_num _ _ _ _ _ _ _ _ _ _ _ _ _ _ _ _ _ _ _ _ _ hden]
    rw [c0, c1, c2, c3]
    simp [mul_div_mul_left _ _ hk]
  · rw [planeAt_eq, ey, ey, ey]
    simp only [Matrix.cons_val]
    have pl : P ⬝ᵥ L = P 0 * L 0 + P 1 * L 1 + P 2 * L 2 + P 3 * L 3 := dot4 _ _
    field_simp
    rw [hd, pl, planeAt_eq]; ring
example : ∃ (P L : Fin 4 → ℝ) (x : Fin 3 → ℝ), normal P ≠ 0 ∧ planeAt P x ≠ 0 ∧ L 3 = 1 ∧ P ⬝ᵥ L - planeAt P x * L 3 ≠ 0 := by
  refine ⟨![0, 2, 0, 0], ![5, 10, 0, 1], ![1, 1, 1], fun h => by simpa [normal] using congrFun h 1, ?_, rfl, ?_⟩
  · rw [planeAt_eq]; simp
  · rw [planeAt_eq, dot4]; simp; norm_num

/-! ### C50 -/

theorem lookTo (c : Cfg) (e d u : Fin 3 → ℝ) (w1 w2 w3 : E) (h : crossProduct u d ≠ 0) :
    ∃ V t, XMMatrixLookToLH c (vec3 e w1) (vec3 d w2) (vec3 u w3) = mat (affine V t) ∧ V * Vᵀ = 1 ∧ V.det = 1 ∧
      e ᵥ* V + t = 0 ∧ d ᵥ* V = ![0, 0, len d] ∧ (u ᵥ* V) 0 = 0 ∧ 0 < (u ᵥ* V) 1 := by
  have hd : d ≠ 0 := by rintro rfl; simp at h
  obtain ⟨⟨p, e1⟩, k1, l1⟩ := C26_normalize3 c d w2 hd
  set R2 := (len d)⁻¹ • d with hR2
  have hc : crossProduct u R2 ≠ 0 := by
    rw [hR2, map_smul]
    exact smul_ne_zero k1.ne' h
  have e2 : ∃ q, XMVector3Cross c (vec3 u w3) (vec3 R2 p) = vec3 (crossProduct u R2) q := by
    refine (is3_iff _ _).2 ?_
    simp [cross_apply]
  obtain ⟨q, e2⟩ := e2
  obtain ⟨⟨p3, e3⟩, k3, l3⟩ := C26_normalize3 c _ q hc
  set R0 := (len (crossProduct u R2))⁻¹ • crossProduct u R2 with hR0
  have e4 : ∃ r, XMVector3Cross c (vec3 R2 p) (vec3 R0 p3) = vec3 (crossProduct R2 R0) r := by
    refine (is3_iff _ _).2 ?_
    simp [cross_apply]
  obtain ⟨r, e4⟩ := e4
  set R1 := crossProduct R2 R0 with hR1
  have hn : ∃ q, XMVectorNegate c (vec3 e w1) = vec3 (-e) q := (is3_iff _ _).2 (by unfold XMVectorNegate; split_ifs <;> simp)
  obtain ⟨q', hn⟩ := hn
  have u0 : R0 ⬝ᵥ R0 = 1 := Real.sqrt_eq_one.1 l3
  have u2 : R2 ⬝ᵥ R2 = 1 := Real.sqrt_eq_one.1 l1
  have o02 : R0 ⬝ᵥ R2 = 0 := by rw [hR0, smul_dotProduct, dotProduct_comm, dot_cross_self, smul_zero]
  have o0u : R0 ⬝ᵥ u = 0 := by rw [hR0, smul_dotProduct, dotProduct_comm, dot_self_cross, smul_zero]
  set V : Matrix (Fin 3) (Fin 3) ℝ := !![R0 0, R1 0, R2 0; R0 1, R1 1, R2 1; R0 2, R1 2, R2 2] with hV
  have r10 : R1 0 = R2 1 * R0 2 - R2 2 * R0 1 := by simp [hR1, cross_apply]
  have r11 : R1 1 = R2 2 * R0 0 - R2 0 * R0 2 := by simp [hR1, cross_apply]
  have r12 : R1 2 = R2 0 * R0 1 - R2 1 * R0 0 := by simp [hR1, cross_apply]
  have dl : len d ≠ 0 := (len_pos hd).ne'
  have ed : d = len d • R2 := by rw [hR2, smul_smul, mul_inv_cancel₀ dl, one_smul]
  have hu1 : u ⬝ᵥ R1 = len (crossProduct u R2) := by
    have hp := len_pos hc
    have : u ⬝ᵥ crossProduct R2 (crossProduct u R2) = crossProduct u R2 ⬝ᵥ crossProduct u R2 := by
      rw [dot3, dot3]; simp [cross_apply]; ring
    rw [hR1, hR0, map_smul, dotProduct_smul, this, smul_eq_mul]
    have hq : len (crossProduct u R2) * len (crossProduct u R2) = crossProduct u R2 ⬝ᵥ crossProduct u R2 := Real.mul_self_sqrt (dot_self_pos hc).le
    rw [← hq]; field_simp
  have hu1' : 0 < u ⬝ᵥ R1 := by rw [hu1]; exact len_pos hc
  clear_value R0 R1 R2
  rw [dot3] at u0 u2 o02 o0u
  have hVt : Vᵀ * V = 1 := by
    clear hu1 hu1' e1 e2 e3 e4 hn
    ext i j
    fin_cases i <;> fin_cases j <;> simp [Matrix.mul_apply, Fin.sum_univ_three, hV, r10, r11, r12] <;> grind
  have act : ∀ v : Fin 3 → ℝ, v ᵥ* V = ![v ⬝ᵥ R0, v ⬝ᵥ R1, v ⬝ᵥ R2] := fun v => by
    ext i
    rw [vecMul3]
    fin_cases i <;> simp [hV, dot3]
  refine ⟨V, ![-(R0 ⬝ᵥ e), -(R1 ⬝ᵥ e), -(R2 ⬝ᵥ e)], ?_, mul_eq_one_comm.1 hVt, ?_, ?_, ?_, ?_, ?_⟩
  · unfold XMMatrixLookToLH
    simp only [e1, e2, e3, e4, hn]
    simp [affine, hV, dot3]
    refine ⟨?_, ?_, ?_⟩ <;> ring
  · clear hu1 hu1' e1 e2 e3 e4 hn
    rw [Matrix.det_fin_three]
    simp [hV, r10, r11, r12]
    grind
  · rw [act]
    ext i
    fin_cases i <;> simp [dotProduct_comm e]
  · rw [act, ed]
    have o12 : R2 ⬝ᵥ R1 = 0 := by rw [dot3, r10, r11, r12]; ring
    have o02' : R2 ⬝ᵥ R0 = 0 := by rw [dot3]; linarith
    have u2' : R2 ⬝ᵥ R2 = 1 := by rw [dot3]; exact u2
    rw [← ed]
    conv_lhs => rw [ed]
    simp only [smul_dotProduct, o12, o02', u2', smul_eq_mul, mul_zero, mul_one]
  · rw [act]; show u ⬝ᵥ R0 = 0; rw [dot3]; linarith
  · rw [act]; exact hu1'

/-- A rigid motion taking the eye to the origin, the view direction to +Z, and the up vector into the upper YZ half plane. -/
theorem C50_lookToLH (c : Cfg) (e d u : Fin 3 → ℝ) (w1 w2 w3 : E) (h : crossProduct u d ≠ 0) :
    ∃ V t, XMMatrixLookToLH c (vec3 e w1) (vec3 d w2) (vec3 u w3) = mat (affine V t) ∧ V * Vᵀ = 1 ∧ V.det = 1 ∧
      e ᵥ* V + t = 0 ∧ d ᵥ* V = ![0, 0, len d] ∧ (u ᵥ* V) 0 = 0 ∧ 0 < (u ᵥ* V) 1 := lookTo c e d u w1 w2 w3 h
theorem C50_lookToRH (c : Cfg) (e d u : Fin 3 → ℝ) (w1 w2 w3 : E) (h : crossProduct u d ≠ 0) :
    ∃ V t, XMMatrixLookToRH c (vec3 e w1) (vec3 d w2) (vec3 u w3) = mat (affine V t) ∧ V * Vᵀ = 1 ∧ V.det = 1 ∧
      e ᵥ* V + t = 0 ∧ d ᵥ* V = ![0, 0, -len d] ∧ (u ᵥ* V) 0 = 0 ∧ 0 < (u ᵥ* V) 1 := by
  have hn : ∃ q, XMVectorNegate c (vec3 d w2) = vec3 (-d) q := (is3_iff _ _).2 (by unfold XMVectorNegate; split_ifs <;> simp)
  obtain ⟨q, hn⟩ := hn
  obtain ⟨V, t, h1, h2, h3, h4, h5, h6, h7⟩ := lookTo c e (-d) u w1 q w3 (by rwa [map_neg, neg_ne_zero])
  refine ⟨V, t, by rw [XMMatrixLookToRH, hn, h1], h2, h3, h4, ?_, h6, h7⟩
  rw [Matrix.neg_vecMul] at h5
  rw [← neg_inj, h5, len, len, neg_dotProduct_neg]
  ext i; fin_cases i <;> simp
theorem sub_vec3' (s t : Fin 3 → ℝ) (a b : E) : ∃ q, XMVectorSubtract (vec3 s a) (vec3 t b) = vec3 (s - t) q := (is3_iff _ _).2 (by simp)
theorem C50_lookAtLH (c : Cfg) (e f u : Fin 3 → ℝ) (w1 w2 w3 : E) (h : crossProduct u (f - e) ≠ 0) :
    ∃ V t, XMMatrixLookAtLH c (vec3 e w1) (vec3 f w2) (vec3 u w3) = mat (affine V t) ∧ V * Vᵀ = 1 ∧ V.det = 1 ∧
      e ᵥ* V + t = 0 ∧ f ᵥ* V + t = ![0, 0, len (f - e)] ∧ (u ᵥ* V) 0 = 0 ∧ 0 < (u ᵥ* V) 1 := by
  obtain ⟨q, hn⟩ := sub_vec3' f e w2 w1
  obtain ⟨V, t, h1, h2, h3, h4, h5, h6, h7⟩ := lookTo c e (f - e) u w1 q w3 h
  refine ⟨V, t, by rw [XMMatrixLookAtLH, hn, h1], h2, h3, h4, ?_, h6, h7⟩
  rw [← h5, Matrix.sub_vecMul, eq_neg_of_add_eq_zero_right h4, sub_eq_add_neg]
theorem C50_lookAtRH (c : Cfg) (e f u : Fin 3 → ℝ) (w1 w2 w3 : E) (h : crossProduct u (f - e) ≠ 0) :
    ∃ V t, XMMatrixLookAtRH c (vec3 e w1) (vec3 f w2) (vec3 u w3) = mat (affine V t) ∧ V * Vᵀ = 1 ∧ V.det = 1 ∧
      e ᵥ* V + t = 0 ∧ f ᵥ* V + t = ![0, 0, -len (f - e)] ∧ (u ᵥ* V) 0 = 0 ∧ 0 < (u ᵥ* V) 1 := by
  obtain ⟨q, hn⟩ := sub_vec3' e f w1 w2
  obtain ⟨V, t, h1, h2, h3, h4, h5, h6, h7⟩ := lookTo c e (e - f) u w1 q w3 (by rwa [← neg_sub, map_neg, neg_ne_zero])
  refine ⟨V, t, by rw [XMMatrixLookAtRH, hn, h1], h2, h3, h4, ?_, h6, h7⟩
  have h8 : (f - e) ᵥ* V = ![0, 0, -len (f - e)] := by
    rw [← neg_sub e f, Matrix.neg_vecMul, h5, len, len, neg_dotProduct_neg]
    ext i; fin_cases i <;> simp
  rw [← h8, Matrix.sub_vecMul, eq_neg_of_add_eq_zero_right h4, sub_eq_add_neg]
example : crossProduct (![0, 1, 0] : Fin 3 → ℝ) (![3, 2, 1] - ![1, 2, 3]) ≠ 0 := fun h => by
  have := congrFun h 0
  simp [cross_apply] at this
  norm_num at this

end DXM.Props
