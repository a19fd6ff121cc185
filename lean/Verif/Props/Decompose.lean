import Verif.Lemmas.Affine
import Verif.Props.Quat
import Verif.Props.Vector

/-
C52: matrix decomposition on exact-real lanes, every build.
-/

set_option linter.all false

namespace DXM.Props
open DXM.E DXM.Spec Matrix Real

/-- Row `i` of `R`, scaled. -/
def rowv (R : Matrix (Fin 3) (Fin 3) ℝ) (i : Fin 3) (k : ℝ) : V4 E := vec3 (k • R i) (num 0)
/-- The threshold of the code: the f32 nearest to 0.0001. -/
noncomputable def decEps : ℝ := 13743895 / 137438953472

section
variable (c : Cfg) (R : Matrix (Fin 3) (Fin 3) ℝ) (hR : R * Rᵀ = 1) (hd : R.det = 1)
include hR
theorem row_unit (i : Fin 3) : R i 0 * R i 0 + R i 1 * R i 1 + R i 2 * R i 2 = 1 := by
  have := congrFun (congrFun hR i) i
  simpa [Matrix.mul_apply, Fin.sum_univ_three] using this
theorem rowv_len (i : Fin 3) (k : ℝ) : (XMVector3Length c (rowv R i k)).x = num |k| := by
  have h := row_unit R hR i
  have h2 : k * R i 0 * (k * R i 0) + k * R i 1 * (k * R i 1) + k * R i 2 * (k * R i 2) = k * k := by linear_combination (k * k) * h
  have h3 : 0 ≤ k * k := mul_self_nonneg k
  have e2 := C25_length3 c (k • R i) (num 0)
  rw [rowv, e2, len, dot3]
  simp only [Pi.smul_apply, smul_eq_mul, h2, Real.sqrt_mul_self_eq_abs]
  rfl
theorem rowv_norm (i : Fin 3) (k : ℝ) (hk : k ≠ 0) : XMVector3Normalize c (rowv R i k) = rowv R i (k / |k|) := by
  have h := row_unit R hR i
  have h2 : k * R i 0 * (k * R i 0) + k * R i 1 * (k * R i 1) + k * R i 2 * (k * R i 2) = k * k := by linear_combination (k * k) * h
  have h3 : 0 < k * k := mul_self_pos.2 hk
  simp [rowv]
  rw [XMVector3Normalize_num _ _ _ _ _ (by rw [h2]; exact h3), h2, Real.sqrt_mul_self_eq_abs]
  have h4 : |k| ≠ 0 := abs_ne_zero.2 hk
  unfold nrmLane
  split_ifs <;> simp [Real.sqrt_mul_self_eq_abs, div_num _ _ h4] <;> refine ⟨?_, ?_, ?_⟩ <;> ring
omit hR
theorem rowv_neg (i : Fin 3) (k : ℝ) : XMVectorNegate c (rowv R i k) = rowv R i (-k) := by
  simp [rowv]
theorem rowv_det (k l m : ℝ) (hd : R.det = 1) : (XMMatrixDeterminant c ⟨rowv R 0 k, rowv R 1 l, rowv R 2 m, g_XMIdentityR3⟩).x = num (k * l * m) := by
  have e : (⟨rowv R 0 k, rowv R 1 l, rowv R 2 m, g_XMIdentityR3⟩ : M4 E) = mat (affine (diagonal ![k, l, m] * R) 0) := by
    simp [rowv, affine]
  have e2 : (affine (diagonal ![k, l, m] * R) 0).det = k * l * m := by
    rw [det4]
    rw [Matrix.det_fin_three] at hd
    simp [affine]
    linear_combination (k * l * m) * hd
  rw [e, XMMatrixDeterminant_mat, e2]; rfl
include hR hd in
theorem row_cross : crossProduct (R 0) (R 1) = R 2 ∧ crossProduct (R 1) (R 2) = R 0 ∧ crossProduct (R 2) (R 0) = R 1 := by
  have h1 : R.adjugate = Rᵀ := by
    have : R * R.adjugate = R * Rᵀ := by rw [Matrix.mul_adjugate, hd, hR, one_smul]
    have h2 : Rᵀ * R = 1 := mul_eq_one_comm.1 hR
    calc R.adjugate = Rᵀ * (R * R.adjugate) := by rw [← Matrix.mul_assoc, h2, Matrix.one_mul]
      _ = Rᵀ := by rw [this, ← Matrix.mul_assoc, h2, Matrix.one_mul]
  rw [Matrix.adjugate_fin_three] at h1
  have e := fun i j => congrFun (congrFun h1 i) j
  refine ⟨?_, ?_, ?_⟩ <;> ext j
  · have := e j 2
    fin_cases j <;> simp [cross_apply] at this ⊢ <;> linarith
  · have := e j 0
    fin_cases j <;> simp [cross_apply] at this ⊢ <;> linarith
  · have := e j 1
    fin_cases j <;> simp [cross_apply] at this ⊢ <;> linarith
theorem rowv_cross (a b d : Fin 3) (k l m : ℝ) (h : crossProduct (R a) (R b) = m • R d) :
    XMVector3Cross c (rowv R a k) (rowv R b l) = rowv R d (k * l * m) := by
  have e0 := congrFun h 0
  have e1 := congrFun h 1
  have e2 := congrFun h 2
  simp [cross_apply] at e0 e1 e2
  simp [rowv]
  refine ⟨?_, ?_, ?_⟩
  · linear_combination k * l * e0
  · linear_combination k * l * e1
  · linear_combination k * l * e2
include hR hd in
theorem rowv_quat (k : Fin 3 → ℝ) (hk : ∀ i, k i * k i = 1) (hp : k 0 * k 1 * k 2 = 1) (r3 : V4 E) :
    ∃ q, Quaternion.normSq q = 1 ∧ XMQuaternionRotationMatrix c ⟨rowv R 0 (k 0), rowv R 1 (k 1), rowv R 2 (k 2), r3⟩ = quat q ∧
      XMMatrixRotationQuaternion c (quat q) = mat (affine (diagonal k * R) 0) := by
  have hdet : (diagonal k).det = 1 := by rw [Matrix.det_diagonal, Fin.prod_univ_three, hp]
  have hkk : diagonal k * diagonal k = 1 := by
    rw [Matrix.diagonal_mul_diagonal, ← Matrix.diagonal_one]; congr 1; ext i; exact hk i
  obtain ⟨q, h1, h2, h3⟩ := C46_matrix c (diagonal k * R)
    (by rw [Matrix.transpose_mul, Matrix.diagonal_transpose, Matrix.mul_assoc, ← Matrix.mul_assoc R, hR, Matrix.one_mul, hkk])
    (by rw [Matrix.det_mul, hdet, hd, one_mul]) ⟨rowv R 0 (k 0), rowv R 1 (k 1), rowv R 2 (k 2), r3⟩
    ((is3_iff _ _).2 (by simp [rowv])) ((is3_iff _ _).2 (by simp [rowv])) ((is3_iff _ _).2 (by simp [rowv]))
  exact ⟨q, h1, h2, by rw [← h2]; exact h3⟩
end

theorem rank_num (x y z : ℝ) :
    (rankDecompose (num x) (num y) (num z) = (2, 1, 0) ∧ x ≤ y ∧ y ≤ z) ∨ (rankDecompose (num x) (num y) (num z) = (1, 2, 0) ∧ x ≤ z ∧ z ≤ y) ∨
    (rankDecompose (num x) (num y) (num z) = (1, 0, 2) ∧ z ≤ x ∧ x ≤ y) ∨ (rankDecompose (num x) (num y) (num z) = (2, 0, 1) ∧ y ≤ x ∧ x ≤ z) ∨
    (rankDecompose (num x) (num y) (num z) = (0, 2, 1) ∧ y ≤ z ∧ z ≤ x) ∨ (rankDecompose (num x) (num y) (num z) = (0, 1, 2) ∧ z ≤ y ∧ y ≤ x) := by
  unfold rankDecompose
  simp only [lt_num]
  by_cases h1 : x < y
  · by_cases h2 : y < z
    · exact .inl ⟨by simp [h1, h2], h1.le, h2.le⟩
    · by_cases h3 : x < z
      · exact .inr (.inl ⟨by simp [h1, h2, h3], h3.le, not_lt.1 h2⟩)
      · exact .inr (.inr (.inl ⟨by simp [h1, h2, h3], not_lt.1 h3, h1.le⟩))
  · by_cases h2 : x < z
    · exact .inr (.inr (.inr (.inl ⟨by simp [h1, h2], not_lt.1 h1, h2.le⟩)))
    · by_cases h3 : y < z
      · exact .inr (.inr (.inr (.inr (.inl ⟨by simp [h1, h2, h3], h3.le, not_lt.1 h2⟩))))
      · exact .inr (.inr (.inr (.inr (.inr ⟨by simp [h1, h2, h3], not_lt.1 h3, not_lt.1 h1⟩))))
theorem sgn_sq (k : ℝ) (h : k ≠ 0) : (k / |k|) * (k / |k|) = 1 := by
  rw [div_mul_div_comm, abs_mul_abs_self, div_self (mul_self_ne_zero.2 h)]
theorem sq_cases {P : ℝ} (h : P * P = 1) : P = 1 ∨ P = -1 := mul_self_eq_one_iff.1 h
theorem sgn_mul (k : ℝ) (h : k ≠ 0) : |k| * (k / |k|) = k := by
  have := abs_ne_zero.2 h
  field_simp
theorem decompose_core (c : Cfg) (s t : Fin 3 → ℝ) (R : Matrix (Fin 3) (Fin 3) ℝ) (hR : R * Rᵀ = 1) (hd : R.det = 1)
    (hs : ∀ i j, i ≠ j → decEps ≤ |s i| ∨ decEps ≤ |s j|) :
    ∃ s' k : Fin 3 → ℝ, XMMatrixDecompose c ⟨rowv R 0 (s 0), rowv R 1 (s 1), rowv R 2 (s 2), vec3 t (num 1)⟩ =
      ⟨true, vec3 s' (num 0), some (XMQuaternionRotationMatrix c ⟨rowv R 0 (k 0), rowv R 1 (k 1), rowv R 2 (k 2), g_XMIdentityR3⟩), vec3 t (num 1)⟩ ∧
      (∀ i, k i * k i = 1) ∧ k 0 * k 1 * k 2 = 1 ∧ (∀ i, |s' i| = |s i|) ∧ ∀ i, decEps ≤ |s i| → s' i * k i = s i := by
  have he : 0 < decEps := by norm_num [decEps]
  have hE : (Lane.ofBits 0x38D1B717#32 : E) = num decEps := by simp [decEps]
  have h0E : (Lane.c0 : E) = num 0 := by simp
  have h1E : (Lane.c1 : E) = num 1 := by simp
  have hne : ∀ i, decEps ≤ |s i| → s i ≠ 0 := fun i h h0 => by rw [h0] at h; simp at h; linarith
  have hab : ∀ x : ℝ, x * x = 1 → x / |x| = x := fun x hx => by
    rcases sq_cases hx with h | h <;> rw [h] <;> norm_num
  have z1 : ¬ (1 : ℝ) < 0 := by norm_num
  obtain ⟨x01, x12, x20⟩ := row_cross R hR hd
  rcases rank_num |s 0| |s 1| |s 2| with ⟨hr, h1, h2⟩ | ⟨hr, h1, h2⟩ | ⟨hr, h1, h2⟩ | ⟨hr, h1, h2⟩ | ⟨hr, h1, h2⟩ | ⟨hr, h1, h2⟩
  · have hb : decEps ≤ |s 1| := by rcases hs 1 0 (by decide) with h | h <;> linarith
    have ha : decEps ≤ |s 2| := by linarith
    have cr : crossProduct (R 2) (R 1) = (-1 : ℝ) • R 0 := by rw [neg_one_smul, ← x12, cross_anticomm]
    have ga := sgn_sq _ (hne _ ha)
    have gb := sgn_sq _ (hne _ hb)
    have ma := sgn_mul _ (hne _ ha)
    have mb := sgn_mul _ (hne _ hb)
    have na := rowv_norm c R hR 2 _ (hne _ ha)
    have nb := rowv_norm c R hR 1 _ (hne _ hb)
    generalize s 2 / |s 2| = ka at *
    generalize s 1 / |s 1| = kb at *
    obtain ⟨kd, gd, md, hdec⟩ : ∃ kd, kd * kd = 1 ∧ (decEps ≤ |s 0| → |s 0| * kd = s 0) ∧
        XMVector3Normalize c (if |s 0| < decEps then rowv R 0 (ka * kb * (-1)) else rowv R 0 (s 0)) = rowv R 0 kd := by
      by_cases hdd : |s 0| < decEps
      · have q : ka * kb * (-1) * (ka * kb * (-1)) = 1 := by linear_combination kb * kb * ga + gb
        refine ⟨ka * kb * (-1), q, fun h => absurd hdd (not_lt.2 h), ?_⟩
        rw [if_pos hdd, rowv_norm c R hR 0 _ (fun h => by rw [h] at q; simp at q), hab _ q]
      · have h0 := hne _ (not_lt.1 hdd)
        exact ⟨_, sgn_sq _ h0, fun _ => sgn_mul _ h0, by rw [if_neg hdd, rowv_norm c R hR 0 _ h0]⟩
    have hP : (kd * kb * ka) * (kd * kb * ka) = 1 := by linear_combination (kb * kb * kd * kd) * ga + kd * kd * gb + gd
    have hdet := rowv_det c R kd kb ka hd
    rcases sq_cases hP with hp | hp
    · refine ⟨![|s 0|, |s 1|, |s 2|], ![kd, kb, ka], ?_, ?_, ?_, ?_, ?_⟩
      · by_cases hdd : |s 0| < decEps
        · rw [if_pos hdd] at hdec
          unfold XMMatrixDecompose
          simp only [rowv_len c R hR, hE, h0E, h1E, hr, Bool.false_eq_true, if_true, if_false, ite_true, ite_false, V4.lane, V4.setLane, M4.row, M4.setRow, lt_num, decide_true, decide_false, not_lt.2 ha, not_lt.2 hb, na, nb, hdd, rowv_cross c R 2 1 0 ka kb _ cr, hdec, hdet, hp, z1]
          simp [he.le]
        · rw [if_neg hdd] at hdec
          unfold XMMatrixDecompose
          simp only [rowv_len c R hR, hE, h0E, h1E, hr, Bool.false_eq_true, if_true, if_false, ite_true, ite_false, V4.lane, V4.setLane, M4.row, M4.setRow, lt_num, decide_true, decide_false, not_lt.2 ha, not_lt.2 hb, na, nb, hdd, hdec, hdet, hp, z1]
          simp [he.le]
      · intro i; fin_cases i <;> simp [ga, gb, gd]
      · simpa using hp
      · intro i; fin_cases i <;> simp
      · intro i; fin_cases i <;> simp [ma, mb] <;> exact md
    · refine ⟨![|s 0|, |s 1|, -|s 2|], ![kd, kb, -ka], ?_, ?_, ?_, ?_, ?_⟩
      · by_cases hdd : |s 0| < decEps
        · rw [if_pos hdd] at hdec
          unfold XMMatrixDecompose
          simp only [rowv_len c R hR, hE, h0E, h1E, hr, Bool.false_eq_true, if_true, if_false, ite_true, ite_false, V4.lane, V4.setLane, M4.row, M4.setRow, lt_num, decide_true, decide_false, not_lt.2 ha, not_lt.2 hb, na, nb, hdd, rowv_cross c R 2 1 0 ka kb _ cr, hdec, hdet, hp, rowv_neg]
          simp [he.le]
        · rw [if_neg hdd] at hdec
          unfold XMMatrixDecompose
          simp only [rowv_len c R hR, hE, h0E, h1E, hr, Bool.false_eq_true, if_true, if_false, ite_true, ite_false, V4.lane, V4.setLane, M4.row, M4.setRow, lt_num, decide_true, decide_false, not_lt.2 ha, not_lt.2 hb, na, nb, hdd, hdec, hdet, hp, rowv_neg]
          simp [he.le]
      · intro i; fin_cases i <;> simp [ga, gb, gd]
      · simp; linarith
      · intro i; fin_cases i <;> simp
      · intro i; fin_cases i <;> simp [ma, mb] <;> exact md
  · have hb : decEps ≤ |s 2| := by rcases hs 2 0 (by decide) with h | h <;> linarith
    have ha : decEps ≤ |s 1| := by linarith
    have cr : crossProduct (R 1) (R 2) = (1 : ℝ) • R 0 := by rw [one_smul, x12]
    have ga := sgn_sq _ (hne _ ha)
    have gb := sgn_sq _ (hne _ hb)
    have ma := sgn_mul _ (hne _ ha)
    have mb := sgn_mul _ (hne _ hb)
    have na := rowv_norm c R hR 1 _ (hne _ ha)
    have nb := rowv_norm c R hR 2 _ (hne _ hb)
    generalize s 1 / |s 1| = ka at *
    generalize s 2 / |s 2| = kb at *
    obtain ⟨kd, gd, md, hdec⟩ : ∃ kd, kd * kd = 1 ∧ (decEps ≤ |s 0| → |s 0| * kd = s 0) ∧
        XMVector3Normalize c (if |s 0| < decEps then rowv R 0 (ka * kb * 1) else rowv R 0 (s 0)) = rowv R 0 kd := by
      by_cases hdd : |s 0| < decEps
      · have q : ka * kb * 1 * (ka * kb * 1) = 1 := by linear_combination kb * kb * ga + gb
        refine ⟨ka * kb * 1, q, fun h => absurd hdd (not_lt.2 h), ?_⟩
        rw [if_pos hdd, rowv_norm c R hR 0 _ (fun h => by rw [h] at q; simp at q), hab _ q]
      · have h0 := hne _ (not_lt.1 hdd)
        exact ⟨_, sgn_sq _ h0, fun _ => sgn_mul _ h0, by rw [if_neg hdd, rowv_norm c R hR 0 _ h0]⟩
    have hP : (kd * ka * kb) * (kd * ka * kb) = 1 := by linear_combination (kb * kb * kd * kd) * ga + kd * kd * gb + gd
    have hdet := rowv_det c R kd ka kb hd
    rcases sq_cases hP with hp | hp
    · refine ⟨![|s 0|, |s 1|, |s 2|], ![kd, ka, kb], ?_, ?_, ?_, ?_, ?_⟩
      · by_cases hdd : |s 0| < decEps
        · rw [if_pos hdd] at hdec
          unfold XMMatrixDecompose
          simp only [rowv_len c R hR, hE, h0E, h1E, hr, Bool.false_eq_true, if_true, if_false, ite_true, ite_false, V4.lane, V4.setLane, M4.row, M4.setRow, lt_num, decide_true, decide_false, not_lt.2 ha, not_lt.2 hb, na, nb, hdd, rowv_cross c R 1 2 0 ka kb _ cr, hdec, hdet, hp, z1]
          simp [he.le]
        · rw [if_neg hdd] at hdec
          unfold XMMatrixDecompose
          simp only [rowv_len c R hR, hE, h0E, h1E, hr, Bool.false_eq_true, if_true, if_false, ite_true, ite_false, V4.lane, V4.setLane, M4.row, M4.setRow, lt_num, decide_true, decide_false, not_lt.2 ha, not_lt.2 hb, na, nb, hdd, hdec, hdet, hp, z1]
          simp [he.le]
      · intro i; fin_cases i <;> simp [ga, gb, gd]
      · simpa using hp
      · intro i; fin_cases i <;> simp
      · intro i; fin_cases i <;> simp [ma, mb] <;> exact md
    · refine ⟨![|s 0|, -|s 1|, |s 2|], ![kd, -ka, kb], ?_, ?_, ?_, ?_, ?_⟩
      · by_cases hdd : |s 0| < decEps
        · rw [if_pos hdd] at hdec
          unfold XMMatrixDecompose
          simp only [rowv_len c R hR, hE, h0E, h1E, hr, Bool.false_eq_true, if_true, if_false, ite_true, ite_false, V4.lane, V4.setLane, M4.row, M4.setRow, lt_num, decide_true, decide_false, not_lt.2 ha, not_lt.2 hb, na, nb, hdd, rowv_cross c R 1 2 0 ka kb _ cr, hdec, hdet, hp, rowv_neg]
          simp [he.le]
        · rw [if_neg hdd] at hdec
          unfold XMMatrixDecompose
          simp only [rowv_len c R hR, hE, h0E, h1E, hr, Bool.false_eq_true, if_true, if_false, ite_true, ite_false, V4.lane, V4.setLane, M4.row, M4.setRow, lt_num, decide_true, decide_false, not_lt.2 ha, not_lt.2 hb, na, nb, hdd, hdec, hdet, hp, rowv_neg]
          simp [he.le]
      · intro i; fin_cases i <;> simp [ga, gb, gd]
      · simp; linarith
      · intro i; fin_cases i <;> simp
      · intro i; fin_cases i <;> simp [ma, mb] <;> exact md
  · have hb : decEps ≤ |s 0| := by rcases hs 0 2 (by decide) with h | h <;> linarith
    have ha : decEps ≤ |s 1| := by linarith
    have cr : crossProduct (R 1) (R 0) = (-1 : ℝ) • R 2 := by rw [neg_one_smul, ← x01, cross_anticomm]
    have ga := sgn_sq _ (hne _ ha)
    have gb := sgn_sq _ (hne _ hb)
    have ma := sgn_mul _ (hne _ ha)
    have mb := sgn_mul _ (hne _ hb)
    have na := rowv_norm c R hR 1 _ (hne _ ha)
    have nb := rowv_norm c R hR 0 _ (hne _ hb)
    generalize s 1 / |s 1| = ka at *
    generalize s 0 / |s 0| = kb at *
    obtain ⟨kd, gd, md, hdec⟩ : ∃ kd, kd * kd = 1 ∧ (decEps ≤ |s 2| → |s 2| * kd = s 2) ∧
        XMVector3Normalize c (if |s 2| < decEps then rowv R 2 (ka * kb * (-1)) else rowv R 2 (s 2)) = rowv R 2 kd := by
      by_cases hdd : |s 2| < decEps
      · have q : ka * kb * (-1) * (ka * kb * (-1)) = 1 := by linear_combination kb * kb * ga + gb
        refine ⟨ka * kb * (-1), q, fun h => absurd hdd (not_lt.2 h), ?_⟩
        rw [if_pos hdd, rowv_norm c R hR 2 _ (fun h => by rw [h] at q; simp at q), hab _ q]
      · have h0 := hne _ (not_lt.1 hdd)
        exact ⟨_, sgn_sq _ h0, fun _ => sgn_mul _ h0, by rw [if_neg hdd, rowv_norm c R hR 2 _ h0]⟩
    have hP : (kb * ka * kd) * (kb * ka * kd) = 1 := by linear_combination (kb * kb * kd * kd) * ga + kd * kd * gb + gd
    have hdet := rowv_det c R kb ka kd hd
    rcases sq_cases hP with hp | hp
    · refine ⟨![|s 0|, |s 1|, |s 2|], ![kb, ka, kd], ?_, ?_, ?_, ?_, ?_⟩
      · by_cases hdd : |s 2| < decEps
        · rw [if_pos hdd] at hdec
          unfold XMMatrixDecompose
          simp only [rowv_len c R hR, hE, h0E, h1E, hr, Bool.false_eq_true, if_true, if_false, ite_true, ite_false, V4.lane, V4.setLane, M4.row, M4.setRow, lt_num, decide_true, decide_false, not_lt.2 ha, not_lt.2 hb, na, nb, hdd, rowv_cross c R 1 0 2 ka kb _ cr, hdec, hdet, hp, z1]
          simp [he.le]
        · rw [if_neg hdd] at hdec
          unfold XMMatrixDecompose
          simp only [rowv_len c R hR, hE, h0E, h1E, hr, Bool.false_eq_true, if_true, if_false, ite_true, ite_false, V4.lane, V4.setLane, M4.row, M4.setRow, lt_num, decide_true, decide_false, not_lt.2 ha, not_lt.2 hb, na, nb, hdd, hdec, hdet, hp, z1]
          simp [he.le]
      · intro i; fin_cases i <;> simp [ga, gb, gd]
      · simpa using hp
      · intro i; fin_cases i <;> simp
      · intro i; fin_cases i <;> simp [ma, mb] <;> exact md
    · refine ⟨![|s 0|, -|s 1|, |s 2|], ![kb, -ka, kd], ?_, ?_, ?_, ?_, ?_⟩
      · by_cases hdd : |s 2| < decEps
        · rw [if_pos hdd] at hdec
          unfold XMMatrixDecompose
          simp only [rowv_len c R hR, hE, h0E, h1E, hr, Bool.false_eq_true, if_true, if_false, ite_true, ite_false, V4.lane, V4.setLane, M4.row, M4.setRow, lt_num, decide_true, decide_false, not_lt.2 ha, not_lt.2 hb, na, nb, hdd, rowv_cross c R 1 0 2 ka kb _ cr, hdec, hdet, hp, rowv_neg]
          simp [he.le]
        · rw [if_neg hdd] at hdec
          unfold XMMatrixDecompose
          simp only [rowv_len c R hR, hE, h0E, h1E, hr, Bool.false_eq_true, if_true, if_false, ite_true, ite_false, V4.lane, V4.setLane, M4.row, M4.setRow, lt_num, decide_true, decide_false, not_lt.2 ha, not_lt.2 hb, na, nb, hdd, hdec, hdet, hp, rowv_neg]
          simp [he.le]
      · intro i; fin_cases i <;> simp [ga, gb, gd]
      · simp; linarith
      · intro i; fin_cases i <;> simp
      · intro i; fin_cases i <;> simp [ma, mb] <;> exact md
  · have hb : decEps ≤ |s 0| := by rcases hs 0 1 (by decide) with h | h <;> linarith
    have ha : decEps ≤ |s 2| := by linarith
    have cr : crossProduct (R 2) (R 0) = (1 : ℝ) • R 1 := by rw [one_smul, x20]
    have ga := sgn_sq _ (hne _ ha)
    have gb := sgn_sq _ (hne _ hb)
    have ma := sgn_mul _ (hne _ ha)
    have mb := sgn_mul _ (hne _ hb)
    have na := rowv_norm c R hR 2 _ (hne _ ha)
    have nb := rowv_norm c R hR 0 _ (hne _ hb)
    generalize s 2 / |s 2| = ka at *
    generalize s 0 / |s 0| = kb at *
    obtain ⟨kd, gd, md, hdec⟩ : ∃ kd, kd * kd = 1 ∧ (decEps ≤ |s 1| → |s 1| * kd = s 1) ∧
        XMVector3Normalize c (if |s 1| < decEps then rowv R 1 (ka * kb * 1) else rowv R 1 (s 1)) = rowv R 1 kd := by
      by_cases hdd : |s 1| < decEps
      · have q : ka * kb * 1 * (ka * kb * 1) = 1 := by linear_combination kb * kb * ga + gb
        refine ⟨ka * kb * 1, q, fun h => absurd hdd (not_lt.2 h), ?_⟩
        rw [if_pos hdd, rowv_norm c R hR 1 _ (fun h => by rw [h] at q; simp at q), hab _ q]
      · have h0 := hne _ (not_lt.1 hdd)
        exact ⟨_, sgn_sq _ h0, fun _ => sgn_mul _ h0, by rw [if_neg hdd, rowv_norm c R hR 1 _ h0]⟩
    have hP : (kb * kd * ka) * (kb * kd * ka) = 1 := by linear_combination (kb * kb * kd * kd) * ga + kd * kd * gb + gd
    have hdet := rowv_det c R kb kd ka hd
    rcases sq_cases hP with hp | hp
    · refine ⟨![|s 0|, |s 1|, |s 2|], ![kb, kd, ka], ?_, ?_, ?_, ?_, ?_⟩
      · by_cases hdd : |s 1| < decEps
        · rw [if_pos hdd] at hdec
          unfold XMMatrixDecompose
          simp only [rowv_len c R hR, hE, h0E, h1E, hr, Bool.false_eq_true, if_true, if_false, ite_true, ite_false, V4.lane, V4.setLane, M4.row, M4.setRow, lt_num, decide_true, decide_false, not_lt.2 ha, not_lt.2 hb, na, nb, hdd, rowv_cross c R 2 0 1 ka kb _ cr, hdec, hdet, hp, z1]
          simp [he.le]
        · rw [if_neg hdd] at hdec
          unfold XMMatrixDecompose
          simp only [rowv_len c R hR, hE, h0E, h1E, hr, Bool.false_eq_true, if_true, if_false, ite_true, ite_false, V4.lane, V4.setLane, M4.row, M4.setRow, lt_num, decide_true, decide_false, not_lt.2 ha, not_lt.2 hb, na, nb, hdd, hdec, hdet, hp, z1]
          simp [he.le]
      · intro i; fin_cases i <;> simp [ga, gb, gd]
      · simpa using hp
      · intro i; fin_cases i <;> simp
      · intro i; fin_cases i <;> simp [ma, mb] <;> exact md
    · refine ⟨![|s 0|, |s 1|, -|s 2|], ![kb, kd, -ka], ?_, ?_, ?_, ?_, ?_⟩
      · by_cases hdd : |s 1| < decEps
        · rw [if_pos hdd] at hdec
          unfold XMMatrixDecompose
          simp only [rowv_len c R hR, hE, h0E, h1E, hr, Bool.false_eq_true, if_true, if_false, ite_true, ite_false, V4.lane, V4.setLane, M4.row, M4.setRow, lt_num, decide_true, decide_false, not_lt.2 ha, not_lt.2 hb, na, nb, hdd, rowv_cross c R 2 0 1 ka kb _ cr, hdec, hdet, hp, rowv_neg]
          simp [he.le]
        · rw [if_neg hdd] at hdec
          unfold XMMatrixDecompose
          simp only [rowv_len c R hR, hE, h0E, h1E, hr, Bool.false_eq_true, if_true, if_false, ite_true, ite_false, V4.lane, V4.setLane, M4.row, M4.setRow, lt_num, decide_true, decide_false, not_lt.2 ha, not_lt.2 hb, na, nb, hdd, hdec, hdet, hp, rowv_neg]
          simp [he.le]
      · intro i; fin_cases i <;> simp [ga, gb, gd]
      · simp; linarith
      · intro i; fin_cases i <;> simp
      · intro i; fin_cases i <;> simp [ma, mb] <;> exact md
  · have hb : decEps ≤ |s 2| := by rcases hs 2 1 (by decide) with h | h <;> linarith
    have ha : decEps ≤ |s 0| := by linarith
    have cr : crossProduct (R 0) (R 2) = (-1 : ℝ) • R 1 := by rw [neg_one_smul, ← x20, cross_anticomm]
    have ga := sgn_sq _ (hne _ ha)
    have gb := sgn_sq _ (hne _ hb)
    have ma := sgn_mul _ (hne _ ha)
    have mb := sgn_mul _ (hne _ hb)
    have na := rowv_norm c R hR 0 _ (hne _ ha)
    have nb := rowv_norm c R hR 2 _ (hne _ hb)
    generalize s 0 / |s 0| = ka at *
    generalize s 2 / |s 2| = kb at *
    obtain ⟨kd, gd, md, hdec⟩ : ∃ kd, kd * kd = 1 ∧ (decEps ≤ |s 1| → |s 1| * kd = s 1) ∧
        XMVector3Normalize c (if |s 1| < decEps then rowv R 1 (ka * kb * (-1)) else rowv R 1 (s 1)) = rowv R 1 kd := by
      by_cases hdd : |s 1| < decEps
      · have q : ka * kb * (-1) * (ka * kb * (-1)) = 1 := by linear_combination kb * kb * ga + gb
        refine ⟨ka * kb * (-1), q, fun h => absurd hdd (not_lt.2 h), ?_⟩
        rw [if_pos hdd, rowv_norm c R hR 1 _ (fun h => by rw [h] at q; simp at q), hab _ q]
      · have h0 := hne _ (not_lt.1 hdd)
        exact ⟨_, sgn_sq _ h0, fun _ => sgn_mul _ h0, by rw [if_neg hdd, rowv_norm c R hR 1 _ h0]⟩
    have hP : (ka * kd * kb) * (ka * kd * kb) = 1 := by linear_combination (kb * kb * kd * kd) * ga + kd * kd * gb + gd
    have hdet := rowv_det c R ka kd kb hd
    rcases sq_cases hP with hp | hp
    · refine ⟨![|s 0|, |s 1|, |s 2|], ![ka, kd, kb], ?_, ?_, ?_, ?_, ?_⟩
      · by_cases hdd : |s 1| < decEps
        · rw [if_pos hdd] at hdec
          unfold XMMatrixDecompose
          simp only [rowv_len c R hR, hE, h0E, h1E, hr, Bool.false_eq_true, if_true, if_false, ite_true, ite_false, V4.lane, V4.setLane, M4.row, M4.setRow, lt_num, decide_true, decide_false, not_lt.2 ha, not_lt.2 hb, na, nb, hdd, rowv_cross c R 0 2 1 ka kb _ cr, hdec, hdet, hp, z1]
          simp [he.le]
        · rw [if_neg hdd] at hdec
          unfold XMMatrixDecompose
          simp only [rowv_len c R hR, hE, h0E, h1E, hr, Bool.false_eq_true, if_true, if_false, ite_true, ite_false, V4.lane, V4.setLane, M4.row, M4.setRow, lt_num, decide_true, decide_false, not_lt.2 ha, not_lt.2 hb, na, nb, hdd, hdec, hdet, hp, z1]
          simp [he.le]
      · intro i; fin_cases i <;> simp [ga, gb, gd]
      · simpa using hp
      · intro i; fin_cases i <;> simp
      · intro i; fin_cases i <;> simp [ma, mb] <;> exact md
    · refine ⟨![-|s 0|, |s 1|, |s 2|], ![-ka, kd, kb], ?_, ?_, ?_, ?_, ?_⟩
      · by_cases hdd : |s 1| < decEps
        · rw [if_pos hdd] at hdec
          unfold XMMatrixDecompose
          simp only [rowv_len c R hR, hE, h0E, h1E, hr, Bool.false_eq_true, if_true, if_false, ite_true, ite_false, V4.lane, V4.setLane, M4.row, M4.setRow, lt_num, decide_true, decide_false, not_lt.2 ha, not_lt.2 hb, na, nb, hdd, rowv_cross c R 0 2 1 ka kb _ cr, hdec, hdet, hp, rowv_neg]
          simp [he.le]
        · rw [if_neg hdd] at hdec
          unfold XMMatrixDecompose
          simp only [rowv_len c R hR, hE, h0E, h1E, hr, Bool.false_eq_true, if_true, if_false, ite_true, ite_false, V4.lane, V4.setLane, M4.row, M4.setRow, lt_num, decide_true, decide_false, not_lt.2 ha, not_lt.2 hb, na, nb, hdd, hdec, hdet, hp, rowv_neg]
          simp [he.le]
      · intro i; fin_cases i <;> simp [ga, gb, gd]
      · simp; linarith
      · intro i; fin_cases i <;> simp
      · intro i; fin_cases i <;> simp [ma, mb] <;> exact md
  · have hb : decEps ≤ |s 1| := by rcases hs 1 2 (by decide) with h | h <;> linarith
    have ha : decEps ≤ |s 0| := by linarith
    have cr : crossProduct (R 0) (R 1) = (1 : ℝ) • R 2 := by rw [one_smul, x01]
    have ga := sgn_sq _ (hne _ ha)
    have gb := sgn_sq _ (hne _ hb)
    have ma := sgn_mul _ (hne _ ha)
    have mb := sgn_mul _ (hne _ hb)
    have na := rowv_norm c R hR 0 _ (hne _ ha)
    have nb := rowv_norm c R hR 1 _ (hne _ hb)
    generalize s 0 / |s 0| = ka at *
    generalize s 1 / |s 1| = kb at *
    obtain ⟨kd, gd, md, hdec⟩ : ∃ kd, kd * kd = 1 ∧ (decEps ≤ |s 2| → |s 2| * kd = s 2) ∧
        XMVector3Normalize c (if |s 2| < decEps then rowv R 2 (ka * kb * 1) else rowv R 2 (s 2)) = rowv R 2 kd := by
      by_cases hdd : |s 2| < decEps
      · have q : ka * kb * 1 * (ka * kb * 1) = 1 := by linear_combination kb * kb * ga + gb
        refine ⟨ka * kb * 1, q, fun h => absurd hdd (not_lt.2 h), ?_⟩
        rw [if_pos hdd, rowv_norm c R hR 2 _ (fun h => by rw [h] at q; simp at q), hab _ q]
      · have h0 := hne _ (not_lt.1 hdd)
        exact ⟨_, sgn_sq _ h0, fun _ => sgn_mul _ h0, by rw [if_neg hdd, rowv_norm c R hR 2 _ h0]⟩
    have hP : (ka * kb * kd) * (ka * kb * kd) = 1 := by linear_combination (kb * kb * kd * kd) * ga + kd * kd * gb + gd
    have hdet := rowv_det c R ka kb kd hd
    rcases sq_cases hP with hp | hp
    · refine ⟨![|s 0|, |s 1|, |s 2|], ![ka, kb, kd], ?_, ?_, ?_, ?_, ?_⟩
      · by_cases hdd : |s 2| < decEps
        · rw [if_pos hdd] at hdec
          unfold XMMatrixDecompose
          simp only [rowv_len c R hR, hE, h0E, h1E, hr, Bool.false_eq_true, if_true, if_false, ite_true, ite_false, V4.lane, V4.setLane, M4.row, M4.setRow, lt_num, decide_true, decide_false, not_lt.2 ha, not_lt.2 hb, na, nb, hdd, rowv_cross c R 0 1 2 ka kb _ cr, hdec, hdet, hp, z1]
          simp [he.le]
        · rw [if_neg hdd] at hdec
          unfold XMMatrixDecompose
          simp only [rowv_len c R hR, hE, h0E, h1E, hr, Bool.false_eq_true, if_true, if_false, ite_true, ite_false, V4.lane, V4.setLane, M4.row, M4.setRow, lt_num, decide_true, decide_false, not_lt.2 ha, not_lt.2 hb, na, nb, hdd, hdec, hdet, hp, z1]
          simp [he.le]
      · intro i; fin_cases i <;> simp [ga, gb, gd]
      · simpa using hp
      · intro i; fin_cases i <;> simp
      · intro i; fin_cases i <;> simp [ma, mb] <;> exact md
    · refine ⟨![-|s 0|, |s 1|, |s 2|], ![-ka, kb, kd], ?_, ?_, ?_, ?_, ?_⟩
      · by_cases hdd : |s 2| < decEps
        · rw [if_pos hdd] at hdec
          unfold XMMatrixDecompose
          simp only [rowv_len c R hR, hE, h0E, h1E, hr, Bool.false_eq_true, if_true, if_false, ite_true, ite_false, V4.lane, V4.setLane, M4.row, M4.setRow, lt_num, decide_true, decide_false, not_lt.2 ha, not_lt.2 hb, na, nb, hdd, rowv_cross c R 0 1 2 ka kb _ cr, hdec, hdet, hp, rowv_neg]
          simp [he.le]
        · rw [if_neg hdd] at hdec
          unfold XMMatrixDecompose
          simp only [rowv_len c R hR, hE, h0E, h1E, hr, Bool.false_eq_true, if_true, if_false, ite_true, ite_false, V4.lane, V4.setLane, M4.row, M4.setRow, lt_num, decide_true, decide_false, not_lt.2 ha, not_lt.2 hb, na, nb, hdd, hdec, hdet, hp, rowv_neg]
          simp [he.le]
      · intro i; fin_cases i <;> simp [ga, gb, gd]
      · simp; linarith
      · intro i; fin_cases i <;> simp
      · intro i; fin_cases i <;> simp [ma, mb] <;> exact md

/-- With at most one scale factor below the threshold, the decomposition succeeds; it returns the translation, the scale up to sign, and a
unit quaternion; rows whose factor is above the threshold, or zero, recompose exactly.  Full property: the same with two or three factors below
the threshold - which is false, see `C52_degenerate_fails`. -/
theorem C52_decompose_partial (c : Cfg) (s t : Fin 3 → ℝ) (R : Matrix (Fin 3) (Fin 3) ℝ) (hR : R * Rᵀ = 1) (hd : R.det = 1)
    (hs : ∀ i j, i ≠ j → decEps ≤ |s i| ∨ decEps ≤ |s j|) :
    ∃ s' q R', XMMatrixDecompose c (mat (affine (diagonal s * R) t)) = ⟨true, vec3 s' (num 0), some (quat q), vec3 t (num 1)⟩ ∧
      Quaternion.normSq q = 1 ∧ XMMatrixRotationQuaternion c (quat q) = mat (affine R' 0) ∧ (∀ i, |s' i| = |s i|) ∧
      ∀ i, decEps ≤ |s i| ∨ s i = 0 → ∀ j, (diagonal s' * R') i j = (diagonal s * R) i j := by
  obtain ⟨s', k, e, hk, hp, ha, hm⟩ := decompose_core c s t R hR hd hs
  obtain ⟨q, h1, h2, h3⟩ := rowv_quat c R hR hd k hk hp g_XMIdentityR3
  have eM : (mat (affine (diagonal s * R) t) : M4 E) = ⟨rowv R 0 (s 0), rowv R 1 (s 1), rowv R 2 (s 2), vec3 t (num 1)⟩ := by
    simp [rowv, affine]
  refine ⟨s', q, diagonal k * R, by rw [eM, e, h2], h1, h3, ha, fun i hi j => ?_⟩
  rw [← Matrix.mul_assoc, Matrix.diagonal_mul_diagonal, Matrix.diagonal_mul, Matrix.diagonal_mul]
  rcases hi with hi | hi
  · rw [hm i hi]
  · have : s' i = 0 := by have := ha i; rw [hi] at this; simpa using this
    rw [this, hi]; simp
/-- Scaling, rotating and translating by the results gives the matrix back. -/
theorem C52_recompose_partial (c : Cfg) (s t : Fin 3 → ℝ) (R : Matrix (Fin 3) (Fin 3) ℝ) (hR : R * Rᵀ = 1) (hd : R.det = 1)
    (hs : ∀ i j, i ≠ j → decEps ≤ |s i| ∨ decEps ≤ |s j|) (hz : ∀ i, decEps ≤ |s i| ∨ s i = 0) :
    ∃ S Q T, XMMatrixDecompose c (mat (affine (diagonal s * R) t)) = ⟨true, S, some Q, T⟩ ∧
      XMMatrixMultiply c (XMMatrixMultiply c (XMMatrixScalingFromVector c S) (XMMatrixRotationQuaternion c Q)) (XMMatrixTranslationFromVector c T) =
        mat (affine (diagonal s * R) t) := by
  obtain ⟨s', q, R', e, h1, h2, h3, h4⟩ := C52_decompose_partial c s t R hR hd hs
  refine ⟨_, _, _, e, ?_⟩
  rw [h2, XMMatrixScalingFromVector_vec3, XMMatrixTranslationFromVector_vec3, XMMatrixMultiply_mat, XMMatrixMultiply_mat, affine_mul, affine_mul]
  have : diagonal s' * R' = diagonal s * R := by ext i j; exact h4 i (hz i) j
  rw [this]
  congr 2
  · simp
  · simp
/-- A mirrored, non-uniform scaling of a rotated frame, one factor zero. -/
example : let s : Fin 3 → ℝ := ![-2, 0, 1/2]
    (∀ i j, i ≠ j → decEps ≤ |s i| ∨ decEps ≤ |s j|) ∧ (∀ i, decEps ≤ |s i| ∨ s i = 0) ∧
    (!![0, 1, 0; -1, 0, 0; 0, 0, 1] : Matrix (Fin 3) (Fin 3) ℝ) * (!![0, 1, 0; -1, 0, 0; 0, 0, 1] : Matrix (Fin 3) (Fin 3) ℝ)ᵀ = 1 := by
  intro s
  refine ⟨fun i j h => ?_, fun i => ?_, ?_⟩
  · fin_cases i <;> fin_cases j <;> simp [s, decEps] at h ⊢ <;> norm_num
  · fin_cases i <;> simp [s, decEps] <;> norm_num
  · ext i j; fin_cases i <;> fin_cases j <;> simp [Matrix.mul_apply, Fin.sum_univ_three]
/-- The code's canonical basis lists R0, R2, R3 where e_x, e_y, e_z is meant, so its degenerate branch fails: the scaling by (1, 0, 0) is not decomposed
- although it recomposes from scale (1, 0, 0), the identity rotation and no translation. -/
theorem C52_degenerate_fails (c : Cfg) :
    (XMMatrixDecompose c (mat (affine (diagonal ![1, 0, 0] * 1) 0))).ok = false := by
  have eM : (mat (affine (diagonal ![1, 0, 0] * 1) 0) : M4 E) = ⟨⟨num 1, num 0, num 0, num 0⟩, ⟨num 0, num 0, num 0, num 0⟩, ⟨num 0, num 0, num 0, num 0⟩, ⟨num 0, num 0, num 0, num 1⟩⟩ := by
    simp [affine]
  rw [eM]
  have hE : (Lane.ofBits 0x38D1B717#32 : E) = num decEps := by simp [decEps]
  have he : 0 < decEps := by norm_num [decEps]
  have he1 : decEps < 1 := by norm_num [decEps]
  have hr : rankDecompose (num 1) (num 0) (num 0) = (0, 1, 2) := by
    simp [rankDecompose, show ¬ (1 : ℝ) < 0 by norm_num]
  have n1 : XMVector3Normalize c (⟨num 1, num 0, num 0, num 0⟩ : V4 E) = ⟨num 1, num 0, num 0, num 0⟩ := by
    rw [XMVector3Normalize_num _ _ _ _ _ (by norm_num)]
    unfold nrmLane
    split_ifs <;> simp [div_num]
  have n0 : XMVector3Normalize c (⟨num 0, num 0, num 0, num 0⟩ : V4 E) = ⟨num 0, num 0, num 0, num 0⟩ := by
    rw [XMVector3Normalize_zero]
    unfold nrmLane0
    split_ifs <;> simp
  have l1 : XMVector3Length c (⟨num 1, num 0, num 0, num 0⟩ : V4 E) = ⟨num 1, num 1, num 1, num 1⟩ := by simp
  have l0 : XMVector3Length c (⟨num 0, num 0, num 0, num 0⟩ : V4 E) = ⟨num 0, num 0, num 0, num 0⟩ := by simp
  have hx : XMVector3Cross c (⟨num 1, num 0, num 0, num 0⟩ : V4 E) ⟨num 0, num 0, num 0, num 1⟩ = ⟨num 0, num 0, num 0, num 0⟩ := by simp
  have hx2 : XMVector3Cross c (⟨num 1, num 0, num 0, num 0⟩ : V4 E) ⟨num 0, num 0, num 0, num 0⟩ = ⟨num 0, num 0, num 0, num 0⟩ := by simp
  have hR3 : (g_XMIdentityR3 : V4 E) = ⟨num 0, num 0, num 0, num 1⟩ := by simp
  have cb : (canonicalBasis 2 : V4 E) = ⟨num 0, num 0, num 0, num 1⟩ := hR3
  have ax : Lane.abs (XMVectorGetX (⟨num 1, num 0, num 0, num 0⟩ : V4 E)) = num 1 := by simp
  have ay : Lane.abs (XMVectorGetY c (⟨num 1, num 0, num 0, num 0⟩ : V4 E)) = num 0 := by simp
  have az : Lane.abs (XMVectorGetZ c (⟨num 1, num 0, num 0, num 0⟩ : V4 E)) = num 0 := by simp
  have hdet : (XMMatrixDeterminant c (⟨⟨num 1, num 0, num 0, num 0⟩, ⟨num 0, num 0, num 0, num 0⟩, ⟨num 0, num 0, num 0, num 0⟩, ⟨num 0, num 0, num 0, num 1⟩⟩ : M4 E)).x = num 0 := by
    rw [← eM, XMMatrixDeterminant_mat]
    simp [det4, affine]
  unfold XMMatrixDecompose
  simp only [hE, l1, l0, hr, V4.lane, V4.setLane, M4.row, M4.setRow, lt_num, he, not_lt.2 he1.le, decide_true, decide_false, if_true, if_false, Bool.false_eq_true,
    n1, n0, ax, ay, az, cb, hx, hx2, hR3, hdet]
  simp [he1]
end DXM.Props
