import Verif.Lemmas.Mat

/-
Quaternion functions on exact-real lanes.
-/

set_option linter.all false

namespace DXM
open DXM.E DXM.Spec Matrix

theorem normSq4 (q : Quaternion ℝ) : Quaternion.normSq q = q.re ^ 2 + q.imI ^ 2 + q.imJ ^ 2 + q.imK ^ 2 := by
  rw [Quaternion.normSq_def']

theorem XMQuaternionMultiply_quat (c : Cfg) (p q : Quaternion ℝ) : XMQuaternionMultiply c (quat p) (quat q) = quat (q * p) := by
  unfold XMQuaternionMultiply
  split_ifs <;> simp <;> refine ⟨?_, ?_, ?_, ?_⟩ <;> ring
theorem XMQuaternionConjugate_quat (c : Cfg) (q : Quaternion ℝ) : XMQuaternionConjugate c (quat q) = quat (star q) := by
  unfold XMQuaternionConjugate
  split_ifs <;> simp

/-- The rotation matrix of `q` (row vectors). -/
def rotM (q : Quaternion ℝ) : Matrix (Fin 3) (Fin 3) ℝ :=
  !![1 - 2 * (q.imJ^2 + q.imK^2), 2 * (q.imI * q.imJ + q.imK * q.re), 2 * (q.imI * q.imK - q.imJ * q.re);
     2 * (q.imI * q.imJ - q.imK * q.re), 1 - 2 * (q.imI^2 + q.imK^2), 2 * (q.imJ * q.imK + q.imI * q.re);
     2 * (q.imI * q.imK + q.imJ * q.re), 2 * (q.imJ * q.imK - q.imI * q.re), 1 - 2 * (q.imI^2 + q.imJ^2)]

theorem XMMatrixRotationQuaternion_quat (c : Cfg) (q : Quaternion ℝ) :
    XMMatrixRotationQuaternion c (quat q) = mat (affine (rotM q) 0) := by
  unfold XMMatrixRotationQuaternion
  split_ifs <;> simp [affine, rotM] <;> refine ⟨⟨?_, ?_, ?_⟩, ⟨?_, ?_, ?_⟩, ?_, ?_, ?_⟩ <;> ring

theorem rotM_orth (q : Quaternion ℝ) (h : Quaternion.normSq q = 1) : rotM q * (rotM q)ᵀ = 1 := by
  rw [normSq4] at h
  ext i j
  fin_cases i <;> fin_cases j <;> simp [rotM, Matrix.mul_apply, Fin.sum_univ_three] <;> grind
theorem rotM_det (q : Quaternion ℝ) (h : Quaternion.normSq q = 1) : (rotM q).det = 1 := by
  rw [normSq4] at h
  simp [rotM, Matrix.det_fin_three]; grind
/-- The quaternion `w + xi + yj + zk`. -/
def mkQ (w x y z : ℝ) : Quaternion ℝ := ⟨w, x, y, z⟩
@[simp] theorem mkQ_re (w x y z : ℝ) : (mkQ w x y z).re = w := rfl
@[simp] theorem mkQ_imI (w x y z : ℝ) : (mkQ w x y z).imI = x := rfl
@[simp] theorem mkQ_imJ (w x y z : ℝ) : (mkQ w x y z).imJ = y := rfl
@[simp] theorem mkQ_imK (w x y z : ℝ) : (mkQ w x y z).imK = z := rfl
@[simp] theorem pureQ_re (v : Fin 3 → ℝ) : (pureQ v).re = 0 := rfl
@[simp] theorem pureQ_imI (v : Fin 3 → ℝ) : (pureQ v).imI = v 0 := rfl
@[simp] theorem pureQ_imJ (v : Fin 3 → ℝ) : (pureQ v).imJ = v 1 := rfl
@[simp] theorem pureQ_imK (v : Fin 3 → ℝ) : (pureQ v).imK = v 2 := rfl
theorem vecMul3 (v : Fin 3 → ℝ) (A : Matrix (Fin 3) (Fin 3) ℝ) (j : Fin 3) :
    (v ᵥ* A) j = v 0 * A 0 j + v 1 * A 1 j + v 2 * A 2 j := by rw [Matrix.vecMul, dot3]
theorem rotM_act (q : Quaternion ℝ) (h : Quaternion.normSq q = 1) (v : Fin 3 → ℝ) : pureQ (v ᵥ* rotM q) = q * pureQ v * star q := by
  rw [normSq4] at h
  ext <;> simp only [pureQ_re, pureQ_imI, pureQ_imJ, pureQ_imK, vecMul3] <;> simp [rotM] <;> grind
theorem pureQ_inj {v w : Fin 3 → ℝ} (h : pureQ v = pureQ w) : v = w := by
  unfold pureQ at h
  have h1 := congrArg QuaternionAlgebra.imI h
  have h2 := congrArg QuaternionAlgebra.imJ h
  have h3 := congrArg QuaternionAlgebra.imK h
  ext i; fin_cases i <;> assumption
theorem rotM_ext {A B : Matrix (Fin 3) (Fin 3) ℝ} (h : ∀ v, v ᵥ* A = v ᵥ* B) : A = B := by
  ext i j
  have := congrFun (h (Pi.single i 1)) j
  simpa using this
theorem rotM_mul (p q : Quaternion ℝ) (hp : Quaternion.normSq p = 1) (hq : Quaternion.normSq q = 1) : rotM (p * q) = rotM q * rotM p := by
  refine rotM_ext fun v => pureQ_inj ?_
  rw [rotM_act _ (by rw [map_mul, hp, hq, one_mul]), ← Matrix.vecMul_vecMul, rotM_act _ hp, rotM_act _ hq, star_mul]
  simp only [mul_assoc]
theorem rotM_neg (q : Quaternion ℝ) : rotM (-q) = rotM q := by
  ext i j; fin_cases i <;> fin_cases j <;> simp [rotM]
theorem tensor_branch (X Y Z W p q r a b d : ℝ) (hX : 0 < X) (h1 : p^2 = X*Y) (h2 : q^2 = X*Z) (h3 : r^2 = X*W)
    (h4 : p*q = X*a) (h5 : p*r = X*b) (h6 : q*r = X*d) : ∃ x y z w : ℝ, 4*x^2 = X ∧ 4*y^2 = Y ∧ 4*z^2 = Z ∧ 4*w^2 = W ∧
    4*(x*y) = p ∧ 4*(x*z) = q ∧ 4*(x*w) = r ∧ 4*(y*z) = a ∧ 4*(y*w) = b ∧ 4*(z*w) = d := by
  obtain ⟨s, hs, hs0⟩ : ∃ s, s * s = X ∧ s ≠ 0 := ⟨√X, Real.mul_self_sqrt hX.le, (Real.sqrt_pos.2 hX).ne'⟩
  subst hs
  refine ⟨s/2, p/(2*s), q/(2*s), r/(2*s), ?_, ?_, ?_, ?_, ?_, ?_, ?_, ?_, ?_, ?_⟩ <;> field_simp <;> linarith
theorem rotM_of_tensor (R : Matrix (Fin 3) (Fin 3) ℝ) (x y z w : ℝ) (h1 : 4*x^2 = 1 + R 0 0 - R 1 1 - R 2 2) (h2 : 4*y^2 = 1 - R 0 0 + R 1 1 - R 2 2)
    (h3 : 4*z^2 = 1 - R 0 0 - R 1 1 + R 2 2) (h4 : 4*w^2 = 1 + R 0 0 + R 1 1 + R 2 2) (h5 : 4*(x*y) = R 0 1 + R 1 0) (h6 : 4*(x*z) = R 0 2 + R 2 0)
    (h7 : 4*(y*z) = R 1 2 + R 2 1) (h8 : 4*(x*w) = R 1 2 - R 2 1) (h9 : 4*(y*w) = R 2 0 - R 0 2) (h10 : 4*(z*w) = R 0 1 - R 1 0) :
    ∃ q : Quaternion ℝ, Quaternion.normSq q = 1 ∧ rotM q = R := by
  refine ⟨mkQ w x y z, ?_, ?_⟩
  · rw [normSq4]; simp; linarith
  · ext i j
    fin_cases i <;> fin_cases j <;> simp [rotM] <;> linarith
/-- Every rotation matrix comes from a unit quaternion. -/
theorem exists_rotM (R : Matrix (Fin 3) (Fin 3) ℝ) (h : R * Rᵀ = 1) (hd : R.det = 1) : ∃ q, Quaternion.normSq q = 1 ∧ rotM q = R := by
  have hc : R.adjugate = Rᵀ := by
    have h1 : Rᵀ * R = 1 := mul_eq_one_comm.1 h
    calc R.adjugate = (Rᵀ * R) * R.adjugate := by rw [h1, one_mul]
      _ = Rᵀ := by rw [Matrix.mul_assoc, Matrix.mul_adjugate, hd, one_smul, mul_one]
  have e := fun i j => congrFun (congrFun h i) j
  have f := fun i j => congrFun (congrFun hc i) j
  have e00 := e 0 0; have e01 := e 0 1; have e02 := e 0 2; have e11 := e 1 1; have e12 := e 1 2; have e22 := e 2 2
  have f00 := f 0 0; have f01 := f 0 1; have f02 := f 0 2; have f10 := f 1 0; have f11 := f 1 1; have f12 := f 1 2; have f20 := f 2 0; have f21 := f 2 1; have f22 := f 2 2
  clear e f
  simp [Matrix.mul_apply, Fin.sum_univ_three, Matrix.adjugate_fin_three] at e00 e01 e02 e11 e12 e22 f00 f01 f02 f10 f11 f12 f20 f21 f22
  by_cases h22 : R 2 2 ≤ 0
  · by_cases h10 : R 1 1 - R 0 0 ≤ 0
    · obtain ⟨x, y, z, w, g1, g2, g3, g4, g5, g6, g7, g8, g9, g10⟩ := tensor_branch (1 + R 0 0 - R 1 1 - R 2 2) (1 - R 0 0 + R 1 1 - R 2 2)
        (1 - R 0 0 - R 1 1 + R 2 2) (1 + R 0 0 + R 1 1 + R 2 2) (R 0 1 + R 1 0) (R 0 2 + R 2 0) (R 1 2 - R 2 1) (R 1 2 + R 2 1) (R 2 0 - R 0 2) (R 0 1 - R 1 0)
        (by linarith) (by grind) (by grind) (by grind) (by grind) (by grind) (by grind)
      exact rotM_of_tensor R x y z w g1 g2 g3 g4 g5 g6 g8 g7 g9 g10
    · obtain ⟨y, x, z, w, g2, g1, g3, g4, g5, g8, g9, g6, g7, g10⟩ := tensor_branch (1 - R 0 0 + R 1 1 - R 2 2) (1 + R 0 0 - R 1 1 - R 2 2)
        (1 - R 0 0 - R 1 1 + R 2 2) (1 + R 0 0 + R 1 1 + R 2 2) (R 0 1 + R 1 0) (R 1 2 + R 2 1) (R 2 0 - R 0 2) (R 0 2 + R 2 0) (R 1 2 - R 2 1) (R 0 1 - R 1 0)
        (by linarith) (by grind) (by grind) (by grind) (by grind) (by grind) (by grind)
      exact rotM_of_tensor R x y z w g1 g2 g3 g4 (by linarith) g6 g8 g7 g9 g10
  · by_cases h10 : R 1 1 + R 0 0 ≤ 0
    · obtain ⟨z, x, y, w, g3, g1, g2, g4, g6, g8, g10, g5, g7, g9⟩ := tensor_branch (1 - R 0 0 - R 1 1 + R 2 2) (1 + R 0 0 - R 1 1 - R 2 2) (1 - R 0 0 + R 1 1 - R 2 2)
        (1 + R 0 0 + R 1 1 + R 2 2) (R 0 2 + R 2 0) (R 1 2 + R 2 1) (R 0 1 - R 1 0) (R 0 1 + R 1 0) (R 1 2 - R 2 1) (R 2 0 - R 0 2)
        (by linarith) (by grind) (by grind) (by grind) (by grind) (by grind) (by grind)
      exact rotM_of_tensor R x y z w g1 g2 g3 g4 (by linarith) (by linarith) (by linarith) g7 g9 g10
    · obtain ⟨w, x, y, z, g4, g1, g2, g3, g7, g9, g10, g5, g6, g8⟩ := tensor_branch (1 + R 0 0 + R 1 1 + R 2 2) (1 + R 0 0 - R 1 1 - R 2 2) (1 - R 0 0 + R 1 1 - R 2 2)
        (1 - R 0 0 - R 1 1 + R 2 2) (R 1 2 - R 2 1) (R 2 0 - R 0 2) (R 0 1 - R 1 0) (R 0 1 + R 1 0) (R 0 2 + R 2 0) (R 1 2 + R 2 1)
        (by linarith) (by grind) (by grind) (by grind) (by grind) (by grind) (by grind)
      exact rotM_of_tensor R x y z w g1 g2 g3 g4 (by linarith) (by linarith) (by linarith) (by linarith) (by linarith) (by linarith)


/-- XMQuaternionRotationMatrix reads the tensor `4 q qᵀ`. -/
theorem XMQuaternionRotationMatrix_tensor (c : Cfg) (R : Fin 3 → Fin 3 → ℝ) (w0 w1 w2 : E) (r3 : V4 E) (x y z w : ℝ) 
    (hn : x^2 + y^2 + z^2 + w^2 = 1)
    (h1 : 4*x^2 = 1 + R 0 0 - R 1 1 - R 2 2) (h2 : 4*y^2 = 1 - R 0 0 + R 1 1 - R 2 2)
    (h3 : 4*z^2 = 1 - R 0 0 - R 1 1 + R 2 2) (h4 : 4*w^2 = 1 + R 0 0 + R 1 1 + R 2 2) (h5 : 4*(x*y) = R 0 1 + R 1 0) (h6 : 4*(x*z) = R 0 2 + R 2 0)
    (h7 : 4*(y*z) = R 1 2 + R 2 1) (h8 : 4*(x*w) = R 1 2 - R 2 1) (h9 : 4*(y*w) = R 2 0 - R 0 2) (h10 : 4*(z*w) = R 0 1 - R 1 0) :
   ∃ s : ℝ, (s = 1 ∨ s = -1) ∧ XMQuaternionRotationMatrix c ⟨vec3 (R 0) w0, vec3 (R 1) w1, vec3 (R 2) w2, r3⟩ = ⟨num (s * x), num (s * y), num (s * z), num (s * w)⟩ := by
  have key : ∀ p : ℝ, p ≠ 0 → ∃ s : ℝ, (s = 1 ∨ s = -1) ∧ |p| = s * p := by
    intro p hp
    rcases abs_choice p with h | h
    · exact ⟨1, Or.inl rfl, by rw [h]; ring⟩
    · exact ⟨-1, Or.inr rfl, by rw [h]; ring⟩
  by_cases hc : c.sse
  · have L : ∀ p : ℝ, √((4*(p*x))*(4*(p*x)) + (4*(p*y))*(4*(p*y)) + (4*(p*z))*(4*(p*z)) + (4*(p*w))*(4*(p*w))) = 4 * |p| := by
      intro p
      rw [show (4*(p*x))*(4*(p*x)) + (4*(p*y))*(4*(p*y)) + (4*(p*z))*(4*(p*z)) + (4*(p*w))*(4*(p*w)) = (4 * p) ^ 2 * (x^2 + y^2 + z^2 + w^2) by ring, hn, mul_one,
        Real.sqrt_sq_eq_abs, abs_mul]
      norm_num
    have D : ∀ p s v : ℝ, p ≠ 0 → (s = 1 ∨ s = -1) → |p| = s * p → (Lane.div (num (4*(p*v))) (num (4 * |p|)) : E) = num (s * v) := by
      intro p s v hp hs ha
      rw [div_num _ _ (by have := abs_pos.2 hp; positivity), ha]
      rcases hs with rfl | rfl <;> (congr 1; field_simp)
    have e1 : -R 1 1 + (-R 2 2 + (R 0 0 + 1)) = 4*(x*x) := by linarith
    have e2 : R 1 1 + (-R 2 2 + (-R 0 0 + 1)) = 4*(y*y) := by linarith
    have e3 : -R 1 1 + (R 2 2 + (-R 0 0 + 1)) = 4*(z*z) := by linarith
    have e4 : R 1 1 + (R 2 2 + (R 0 0 + 1)) = 4*(w*w) := by linarith
    unfold XMQuaternionRotationMatrix
    simp only [hc, if_true]
    have h5' : 4*(y*x) = R 0 1 + R 1 0 := by linarith
    have h6' : 4*(z*x) = R 0 2 + R 2 0 := by linarith
    have h7' : 4*(z*y) = R 1 2 + R 2 1 := by linarith
    have h8' : 4*(w*x) = R 1 2 - R 2 1 := by linarith
    have h9' : 4*(w*y) = R 2 0 - R 0 2 := by linarith
    have h10' : 4*(w*z) = R 0 1 - R 1 0 := by linarith
    by_cases c1 : R 2 2 ≤ 0
    · by_cases c2 : R 1 1 ≤ R 0 0
      · have hp : x ≠ 0 := by
          intro h0; have q0 : x ^ 2 = 0 := by rw [h0]; ring
          linarith
        obtain ⟨s, hs, ha⟩ := key x hp
        refine ⟨s, hs, ?_⟩
        simp only [vec3]
        simp [c1, c2, e1, ← h5, ← h6, ← h8]
        simp [L, D x s _ hp hs ha]
      · have hp : y ≠ 0 := by
          intro h0; have q0 : y ^ 2 = 0 := by rw [h0]; ring
          linarith
        obtain ⟨s, hs, ha⟩ := key y hp
        refine ⟨s, hs, ?_⟩
        simp only [vec3]
        simp [c1, c2, e2, ← h5', ← h7, ← h9]
        simp [L, D y s _ hp hs ha]
    · by_cases c2 : R 1 1 + R 0 0 ≤ 0
      · have hp : z ≠ 0 := by
          intro h0; have q0 : z ^ 2 = 0 := by rw [h0]; ring
          linarith
        obtain ⟨s, hs, ha⟩ := key z hp
        refine ⟨s, hs, ?_⟩
        simp only [vec3]
        simp [c1, c2, e3, ← h6', ← h7', ← h10]
        simp [L, D z s _ hp hs ha]
      · have hp : w ≠ 0 := by
          intro h0; have q0 : w ^ 2 = 0 := by rw [h0]; ring
          linarith
        obtain ⟨s, hs, ha⟩ := key w hp
        refine ⟨s, hs, ?_⟩
        simp only [vec3]
        simp [c1, c2, e4, ← h8', ← h9', ← h10']
        simp [L, D w s _ hp hs ha]
  · have hc : c.sse = false := by simpa using hc
    have I : ∀ p : ℝ, (Lane.sqrt (num (4 * (p * p))) : E) = num (2 * |p|) := by
      intro p
      rw [sqrt_num _ (by nlinarith [mul_self_nonneg p])]
      rw [show 4 * (p * p) = (2 * p) ^ 2 by ring, Real.sqrt_sq_eq_abs, abs_mul]; norm_num
    have T : ∀ p s v : ℝ, p ≠ 0 → (s = 1 ∨ s = -1) → |p| = s * p →
        (Lane.mul (num (4*(p*v))) (Lane.div (num 2⁻¹) (num (2 * |p|))) : E) = num (s * v) := by
      intro p s v hp hs ha
      rw [div_num _ _ (by have := abs_pos.2 hp; positivity), ha]
      rcases hs with rfl | rfl <;> (simp only [mul_num]; congr 1; field_simp; ring)
    have e1 : 1 - R 2 2 - (R 1 1 - R 0 0) = 4*(x*x) := by linarith
    have e2 : 1 - R 2 2 + (R 1 1 - R 0 0) = 4*(y*y) := by linarith
    have e3 : 1 + R 2 2 - (R 1 1 + R 0 0) = 4*(z*z) := by linarith
    have e4 : 1 + R 2 2 + (R 1 1 + R 0 0) = 4*(w*w) := by linarith
    have h5' : 4*(y*x) = R 0 1 + R 1 0 := by linarith
    have h6' : 4*(z*x) = R 0 2 + R 2 0 := by linarith
    have h7' : 4*(z*y) = R 1 2 + R 2 1 := by linarith
    have h8' : 4*(w*x) = R 1 2 - R 2 1 := by linarith
    have h9' : 4*(w*y) = R 2 0 - R 0 2 := by linarith
    have h10' : 4*(w*z) = R 0 1 - R 1 0 := by linarith
    unfold XMQuaternionRotationMatrix
    simp only [hc]
    by_cases c1 : R 2 2 ≤ 0
    · by_cases c2 : R 1 1 - R 0 0 ≤ 0
      · have hp : x ≠ 0 := by
          intro h0; have q0 : x ^ 2 = 0 := by rw [h0]; ring
          linarith
        obtain ⟨s, hs, ha⟩ := key x hp
        refine ⟨s, hs, ?_⟩
        simp only [vec3]
        simp [c1, c2, e1, ← h5, ← h6, ← h8]
        simp only [I x, T x s _ hp hs ha, and_self]
      · have hp : y ≠ 0 := by
          intro h0; have q0 : y ^ 2 = 0 := by rw [h0]; ring
          linarith
        obtain ⟨s, hs, ha⟩ := key y hp
        refine ⟨s, hs, ?_⟩
        simp only [vec3]
        simp [c1, c2, e2, ← h5', ← h7, ← h9]
        simp only [I y, T y s _ hp hs ha, and_self]
    · by_cases c2 : R 1 1 + R 0 0 ≤ 0
      · have hp : z ≠ 0 := by
          intro h0; have q0 : z ^ 2 = 0 := by rw [h0]; ring
          linarith
        obtain ⟨s, hs, ha⟩ := key z hp
        refine ⟨s, hs, ?_⟩
        simp only [vec3]
        simp [c1, c2, e3, ← h6', ← h7', ← h10]
        simp only [I z, T z s _ hp hs ha, and_self]
      · have hp : w ≠ 0 := by
          intro h0; have q0 : w ^ 2 = 0 := by rw [h0]; ring
          linarith
        obtain ⟨s, hs, ha⟩ := key w hp
        refine ⟨s, hs, ?_⟩
        simp only [vec3]
        simp [c1, c2, e4, ← h8', ← h9', ← h10']
        simp only [I w, T w s _ hp hs ha, and_self]

/-- On the matrix of a unit quaternion XMQuaternionRotationMatrix returns that quaternion up to
sign, whatever the remaining matrix entries. -/
theorem XMQuaternionRotationMatrix_rotM (c : Cfg) (q : Quaternion ℝ) (h : Quaternion.normSq q = 1) (M : M4 E)
    (h0 : Is3 M.r0 (rotM q 0)) (h1 : Is3 M.r1 (rotM q 1)) (h2 : Is3 M.r2 (rotM q 2)) :
    XMQuaternionRotationMatrix c M = quat q ∨ XMQuaternionRotationMatrix c M = quat (-q) := by
  obtain ⟨w0, e0⟩ := h0
  obtain ⟨w1, e1⟩ := h1
  obtain ⟨w2, e2⟩ := h2
  have hM : M = ⟨vec3 (rotM q 0) w0, vec3 (rotM q 1) w1, vec3 (rotM q 2) w2, M.r3⟩ := by
    rw [← e0, ← e1, ← e2]
  rw [normSq4] at h
  obtain ⟨s, hs, e⟩ := XMQuaternionRotationMatrix_tensor c (rotM q) w0 w1 w2 M.r3 q.imI q.imJ q.imK q.re
    (by linarith) (by simp [rotM]; linarith) (by simp [rotM]; linarith) (by simp [rotM]; linarith)
    (by simp [rotM]; linarith) (by simp [rotM]; ring) (by simp [rotM]; ring) (by simp [rotM]; ring)
    (by simp [rotM]; ring) (by simp [rotM]; ring) (by simp [rotM]; ring)
  rw [hM, e]
  rcases hs with rfl | rfl
  · left; simp
  · right; simp

end DXM
