import Verif.Lemmas.Rot
import Verif.Props.Trig
import Verif.Props.Vector
import Verif.Props.Quat

/-
C44, C47, C59: rotations from angles on exact-real lanes, every build.  The only error left is that of the polynomial
sine and cosine, `trigErr`.
-/

set_option linter.all false

namespace DXM.Props
open DXM.E DXM.Spec Matrix Real

/-- The error of the library's sine and cosine at `a` (C66, C67). -/
noncomputable def trigErr (a : ℝ) : ℝ := 3/10^7 + 29/10^9 * |a|
theorem trigErr_pos (a : ℝ) : 0 < trigErr a := by unfold trigErr; positivity

/-! ### C44 -/

/-- The specification is a rotation: Rodrigues' matrix about a unit axis is orthogonal with determinant 1, fixes the axis,
and composes by adding angles. -/
theorem C44_spec (n : Fin 3 → ℝ) (hn : n ⬝ᵥ n = 1) (a b : ℝ) :
    (∀ v, v ᵥ* axisRot n a = rodrigues n a v) ∧ axisRot n a * (axisRot n a)ᵀ = 1 ∧ (axisRot n a).det = 1 ∧ n ᵥ* axisRot n a = n ∧
    axisRot n a * axisRot n b = axisRot n (a + b) := by
  refine ⟨axisRot_vecMul n a, axisRot_orth n hn a, axisRot_det n hn a, ?_, axisRot_add n hn a b⟩
  rw [axisRot_vecMul, rodrigues, hn, cross_self, smul_zero, add_zero, mul_one, ← add_smul]; simp
/-- RotationNormal is Rodrigues' formula on the computed sine/cosine pair - exactly, for any axis. -/
theorem C44_rotationNormal (c : Cfg) (n : Fin 3 → ℝ) (w : E) (a : ℝ) (ha : |a| ≤ 10^8) :
    ∃ s k R, XMScalarSinCos (num a) = (num s, num k) ∧ |s - sin a| ≤ trigErr a ∧ |k - cos a| ≤ trigErr a ∧
      XMMatrixRotationNormal c (vec3 n w) (num a) = mat (affine R 0) ∧
      ∀ v, v ᵥ* R = k • v + ((1 - k) * (n ⬝ᵥ v)) • n + s • crossProduct n v := by
  obtain ⟨s, k, -, -, h, h1, h2⟩ := C66_sincos a ha
  exact ⟨s, k, rodM n k s, h, h1, h2, XMMatrixRotationNormal_num c n w a s k h, rodM_act n k s⟩
/-- About a unit axis it fixes the axis exactly and its entries are those of the rotation up to the trigonometric error. -/
theorem C44_rotationNormal_close (c : Cfg) (n : Fin 3 → ℝ) (hn : n ⬝ᵥ n = 1) (w : E) (a : ℝ) (ha : |a| ≤ 10^8) :
    ∃ R, XMMatrixRotationNormal c (vec3 n w) (num a) = mat (affine R 0) ∧ n ᵥ* R = n ∧
      (∀ i j, |R i j - axisRot n a i j| ≤ 3/2 * trigErr a) := by
  obtain ⟨s, k, -, -, h, h1, h2⟩ := C66_sincos a ha
  refine ⟨rodM n k s, XMMatrixRotationNormal_num c n w a s k h, ?_, fun i j => ?_⟩
  · rw [rodM_act, hn, cross_self, smul_zero, add_zero, mul_one, ← add_smul]; simp
  · rw [axisRot_eq]; exact rodM_close hn h2 h1 i j
/-- RotationAxis normalises first. -/
theorem C44_rotationAxis (c : Cfg) (v : Fin 3 → ℝ) (hv : v ≠ 0) (w : E) (a : ℝ) (ha : |a| ≤ 10^8) :
    ∃ R, XMMatrixRotationAxis c (vec3 v w) (num a) = mat (affine R 0) ∧ v ᵥ* R = v ∧
      (∀ i j, |R i j - axisRot ((len v)⁻¹ • v) a i j| ≤ 3/2 * trigErr a) := by
  obtain ⟨⟨w', e⟩, h0, h1⟩ := C26_normalize3 c v w hv
  have hu : ((len v)⁻¹ • v) ⬝ᵥ ((len v)⁻¹ • v) = 1 := by
    unfold len at h1
    exact (Real.sqrt_eq_one.1 h1)
  obtain ⟨R, e1, e2, e3⟩ := C44_rotationNormal_close c _ hu w' a ha
  refine ⟨R, by rw [XMMatrixRotationAxis, e, e1], ?_, e3⟩
  rw [Matrix.smul_vecMul] at e2
  exact smul_right_injective _ h0.ne' e2
/-- RotationX, Y, Z are the standard row-vector matrices on the computed pair, that is RotationNormal about the coordinate axes. -/
theorem C44_xyz (c : Cfg) (a : ℝ) (ha : |a| ≤ 10^8) (w : E) :
    ∃ s k, XMScalarSinCos (num a) = (num s, num k) ∧ |s - sin a| ≤ trigErr a ∧ |k - cos a| ≤ trigErr a ∧
      XMMatrixRotationX c (num a) = mat !![1,0,0,0; 0,k,s,0; 0,-s,k,0; 0,0,0,1] ∧
      XMMatrixRotationY c (num a) = mat !![k,0,-s,0; 0,1,0,0; s,0,k,0; 0,0,0,1] ∧
      XMMatrixRotationZ c (num a) = mat !![k,s,0,0; -s,k,0,0; 0,0,1,0; 0,0,0,1] ∧
      XMMatrixRotationX c (num a) = XMMatrixRotationNormal c (vec3 ex w) (num a) ∧
      XMMatrixRotationY c (num a) = XMMatrixRotationNormal c (vec3 ey w) (num a) ∧
      XMMatrixRotationZ c (num a) = XMMatrixRotationNormal c (vec3 ez w) (num a) := by
  obtain ⟨s, k, -, -, h, h1, h2⟩ := C66_sincos a ha
  rw [XMMatrixRotationX_num c a s k h, XMMatrixRotationY_num c a s k h, XMMatrixRotationZ_num c a s k h,
    XMMatrixRotationNormal_num c _ w a s k h, XMMatrixRotationNormal_num c _ w a s k h, XMMatrixRotationNormal_num c _ w a s k h]
  refine ⟨s, k, h, h1, h2, ?_, ?_, ?_, rfl, rfl, rfl⟩ <;> simp [affine, rodM, ex, ey, ez]
/-- Rotating by `a` then by `b` is rotating by `a + b`, and each rotation is orthogonal, up to the trigonometric error. -/
theorem C44_compose (c : Cfg) (n : Fin 3 → ℝ) (hn : n ⬝ᵥ n = 1) (w : E) (a b : ℝ) (ha : |a| ≤ 10^6) (hb : |b| ≤ 10^6) :
    ∃ P Q, XMMatrixMultiply c (XMMatrixRotationNormal c (vec3 n w) (num a)) (XMMatrixRotationNormal c (vec3 n w) (num b)) = mat (affine P 0) ∧
      XMMatrixRotationNormal c (vec3 n w) (num (a + b)) = mat (affine Q 0) ∧
      ∀ i j, |P i j - Q i j| ≤ 5 * (trigErr a + trigErr b) := by
  have hab := abs_add_le a b
  obtain ⟨s, k, -, -, h, h1, h2⟩ := C66_sincos a (by linarith)
  obtain ⟨u, l, -, -, g, g1, g2⟩ := C66_sincos b (by linarith)
  obtain ⟨s', k', -, -, e, e1, e2⟩ := C66_sincos (a + b) (by linarith)
  have A0 : trigErr a ≤ 3/100 := by unfold trigErr; linarith
  have B0 : trigErr b ≤ 3/100 := by unfold trigErr; linarith
  have AB : 3/10^7 + 29/10^9 * |a + b| ≤ trigErr a + trigErr b := by unfold trigErr; linarith
  have pa := trigErr_pos a
  have pb := trigErr_pos b
  change |s - sin a| ≤ trigErr a at h1
  change |k - cos a| ≤ trigErr a at h2
  change |u - sin b| ≤ trigErr b at g1
  change |l - cos b| ≤ trigErr b at g2
  refine ⟨rodM n (k * l - s * u) (s * l + k * u), rodM n k' s', ?_, XMMatrixRotationNormal_num c n w _ s' k' e, fun i j => ?_⟩
  · rw [XMMatrixRotationNormal_num c n w a s k h, XMMatrixRotationNormal_num c n w b u l g, XMMatrixMultiply_mat, ← rodM_mul n hn]
    congr 1
    ext i j
    fin_cases i <;> fin_cases j <;> simp [affine, Matrix.mul_apply, Fin.sum_univ_three, Fin.sum_univ_four]
  · set x := trigErr a
    set y := trigErr b
    have q1 := prod_close (abs_cos_le_one a) (abs_cos_le_one b) h2 g2
    have q2 := prod_close (abs_sin_le_one a) (abs_sin_le_one b) h1 g1
    have q3 := prod_close (abs_sin_le_one a) (abs_cos_le_one b) h1 g2
    have q4 := prod_close (abs_cos_le_one a) (abs_sin_le_one b) h2 g1
    have hxy : x * y ≤ 3/200 * (x + y) := by nlinarith
    rw [cos_add] at e2
    rw [sin_add] at e1
    have f1 : |k * l - s * u - k'| ≤ 10/3 * (x + y) := by
      rw [abs_le] at *
      constructor <;> linarith [q1.1, q1.2, q2.1, q2.2, e2.1, e2.2]
    have f2 : |s * l + k * u - s'| ≤ 10/3 * (x + y) := by
      rw [abs_le] at *
      constructor <;> linarith [q3.1, q3.2, q4.1, q4.2, e1.1, e1.2]
    have := rodM_close hn f1 f2 i j
    linarith
example : ∃ n : Fin 3 → ℝ, n ⬝ᵥ n = 1 ∧ n 0 ≠ 0 ∧ n 1 ≠ 0 ∧ n 2 ≠ 0 := ⟨![2/3, -1/3, 2/3], by rw [dot3]; simp; norm_num, by simp, by simp, by simp⟩

/-! ### C59 -/

theorem C59_spec (n : Fin 3 → ℝ) (hn : n ⬝ᵥ n = 1) (a : ℝ) :
    Quaternion.normSq (axisQ n a) = 1 ∧ ∀ v, axisQ n a * pureQ v * star (axisQ n a) = pureQ (rodrigues n a v) := by
  refine ⟨axisQ_normSq n hn a, fun v => ?_⟩
  rw [← rotM_act _ (axisQ_normSq n hn a), rotM_axisQ n hn, axisRot_vecMul]
theorem axisQ_close (n : Fin 3 → ℝ) (hn : n ⬝ᵥ n = 1) (a e k s0 s1 s2 : ℝ) (hk : |k - cos (a/2)| ≤ e) (h0 : |s0 - sin (a/2)| ≤ e)
    (h1 : |s1 - sin (a/2)| ≤ e) (h2 : |s2 - sin (a/2)| ≤ e) : QClose (mkQ k (s0 * n 0) (s1 * n 1) (s2 * n 2)) (axisQ n a) e := by
  have he : 0 ≤ e := (abs_nonneg _).trans hk
  have m : ∀ s i, |s - sin (a/2)| ≤ e → |s * n i - sin (a/2) * n i| ≤ e := by
    intro s i h
    rw [← sub_mul, abs_mul]
    calc _ ≤ e * 1 := mul_le_mul h (unit_le hn i) (abs_nonneg _) he
      _ = e := mul_one e
  exact ⟨m _ _ h0, m _ _ h1, m _ _ h2, hk⟩
/-- RotationNormal is `cos(a/2) + sin(a/2) n` up to the trigonometric error at the half angle. -/
theorem C59_rotationNormal (c : Cfg) (n : Fin 3 → ℝ) (hn : n ⬝ᵥ n = 1) (w : E) (a : ℝ) (ha : |a| ≤ 10^7) :
    ∃ q, XMQuaternionRotationNormal c (vec3 n w) (num a) = quat q ∧ QClose q (axisQ n a) (trigErr (a/2)) := by
  have e : (1:ℝ)/2 * a = a/2 := by ring
  have hl : |a/2| ≤ 10^7 := by rw [abs_div, abs_two]; linarith [abs_nonneg a]
  obtain ⟨s, k, -, -, h, h1, h2⟩ := C66_sincos (1/2 * a) (by rw [e]; linarith)
  obtain ⟨S, K, -, -, g, g1⟩ := C67_sincos c (fun _ => 1/2 * a) (fun i => by rw [e]; exact hl)
  rw [XMQuaternionRotationNormal_num c n w a s k S K h g]
  simp only [e] at h1 h2 g1
  split_ifs
  · exact ⟨_, rfl, axisQ_close n hn a _ _ _ _ _ (g1 3).2 (g1 0).1 (g1 1).1 (g1 2).1⟩
  · exact ⟨_, rfl, axisQ_close n hn a _ _ _ _ _ h2 h1 h1 h1⟩
/-- Its matrix is that of XMMatrixRotationNormal up to the same error. -/
theorem C59_matrix (c : Cfg) (n : Fin 3 → ℝ) (hn : n ⬝ᵥ n = 1) (w w' : E) (a : ℝ) (ha : |a| ≤ 10^7) :
    ∃ P Q, XMMatrixRotationQuaternion c (XMQuaternionRotationNormal c (vec3 n w) (num a)) = mat (affine P 0) ∧
      XMMatrixRotationNormal c (vec3 n w') (num a) = mat (affine Q 0) ∧ ∀ i j, |P i j - Q i j| ≤ 11 * trigErr a := by
  obtain ⟨q, e, hq⟩ := C59_rotationNormal c n hn w a ha
  obtain ⟨R, e1, -, hR⟩ := C44_rotationNormal_close c n hn w' a (by linarith)
  refine ⟨rotM q, R, by rw [e, XMMatrixRotationQuaternion_quat], e1, fun i j => ?_⟩
  have h1 := rotM_close (axisQ_normSq n hn a) hq i j
  rw [rotM_axisQ n hn] at h1
  have h2 := hR i j
  have e2 : trigErr (a/2) ≤ trigErr a := by
    unfold trigErr; rw [abs_div, abs_two]; linarith [abs_nonneg a]
  have e3 : trigErr (a/2) ≤ 3/10 := by
    unfold trigErr; rw [abs_div, abs_two]; linarith [abs_nonneg a]
  have p := trigErr_pos (a/2)
  have e4 : trigErr (a/2) ^ 2 ≤ 3/10 * trigErr a := by nlinarith
  rw [abs_le] at *
  constructor <;> linarith [h1.1, h1.2, h2.1, h2.2]
/-- RotationAxis is RotationNormal about the normalised axis. -/
theorem C59_rotationAxis (c : Cfg) (v : Fin 3 → ℝ) (hv : v ≠ 0) (w : E) (a : ℝ) (ha : |a| ≤ 10^7) :
    ∃ q, XMQuaternionRotationAxis c (vec3 v w) (num a) = quat q ∧ QClose q (axisQ ((len v)⁻¹ • v) a) (trigErr (a/2)) := by
  obtain ⟨⟨w', e⟩, h0, h1⟩ := C26_normalize3 c v w hv
  have hu : ((len v)⁻¹ • v) ⬝ᵥ ((len v)⁻¹ • v) = 1 := by
    unfold len at h1
    exact (Real.sqrt_eq_one.1 h1)
  rw [XMQuaternionRotationAxis, e]
  exact C59_rotationNormal c _ hu w' a ha
/-- ToAxisAngle returns the quaternion itself as (unnormalised) axis and twice the arccosine of its real part. -/
theorem C59_toAxisAngle (q : Quaternion ℝ) (hq : |q.re| ≤ 1) :
    ∃ r, XMQuaternionToAxisAngle (quat q) = (quat q, num r) ∧ |r - 2 * arccos q.re| ≤ 6/10^7 := by
  obtain ⟨⟨r, e, h⟩, -⟩ := C66_arc q.re hq
  refine ⟨2 * r, by simp [XMQuaternionToAxisAngle, e], ?_⟩
  rw [← mul_sub, abs_mul, abs_two]; linarith
/-- For the quaternion of an angle in [0, 2π] that is the angle, and the vector part is along the axis. -/
theorem C59_toAxisAngle_axisQ (n : Fin 3 → ℝ) (a : ℝ) (h0 : 0 ≤ a) (h1 : a ≤ 2 * π) :
    ∃ r, XMQuaternionToAxisAngle (quat (axisQ n a)) = (vec3 (sin (a/2) • n) (num (cos (a/2))), num r) ∧ |r - a| ≤ 6/10^7 := by
  obtain ⟨r, e, h⟩ := C59_toAxisAngle (axisQ n a) (abs_cos_le_one _)
  refine ⟨r, by rw [e]; rfl, ?_⟩
  have : arccos (axisQ n a).re = a/2 := arccos_cos (by linarith) (by linarith)
  rw [this] at h
  rwa [show 2 * (a/2) = a by ring] at h

/-! ### C47 -/

theorem triple_close {a b d x y z e : ℝ} (ha : |a| ≤ 1) (hb : |b| ≤ 1) (hd : |d| ≤ 1) (h1 : |x - a| ≤ e) (h2 : |y - b| ≤ e)
    (h3 : |z - d| ≤ e) (he : e ≤ 1/50) : |x * y * z - a * b * d| ≤ 31/10 * e := by
  have he0 : 0 ≤ e := (abs_nonneg _).trans h1
  have hab : |a * b| ≤ 1 := by rw [abs_mul]; exact mul_le_one₀ ha (abs_nonneg _) hb
  have := prod_close hab hd (prod_close ha hb h1 h2) h3
  nlinarith [mul_nonneg he0 he0, mul_nonneg he0 (sub_nonneg.2 he), mul_nonneg (mul_nonneg he0 he0) (sub_nonneg.2 he)]
/-- The quaternion is the product of the three axis quaternions - roll about Z first, then pitch about X, then yaw
about Y (the leftmost factor of `q v q*` is applied last) - up to the trigonometric error. -/
theorem C47_quaternion (c : Cfg) (pitch yaw roll w M : ℝ) (h1 : |pitch| ≤ M) (h2 : |yaw| ≤ M) (h3 : |roll| ≤ M) (h4 : |w| ≤ 10^6)
    (hM : M ≤ 10^6) :
    ∃ q, XMQuaternionRotationRollPitchYawFromVector c (vec4 ![pitch, yaw, roll, w]) = quat q ∧
      QClose q (axisQ ey yaw * axisQ ex pitch * axisQ ez roll) (7 * trigErr (M/2)) := by
  have hM0 : 0 ≤ M := (abs_nonneg _).trans h1
  set e := trigErr (M/2) with he
  have he1 : e ≤ 1/50 := by
    rw [he]; unfold trigErr; rw [abs_of_nonneg (by linarith)]; linarith
  have he0 : 0 < e := trigErr_pos _
  have mono : ∀ a : ℝ, |a| ≤ M → 3/10^7 + 29/10^9 * |a * (1/2)| ≤ e := by
    intro a ha
    rw [he]; unfold trigErr; rw [abs_of_nonneg (by linarith : 0 ≤ M/2), abs_mul, abs_of_nonneg (by norm_num : (0:ℝ) ≤ 1/2)]; linarith
  obtain ⟨S, K, -, -, g, g1⟩ := C67_sincos c (fun i => (![pitch, yaw, roll, w] : Fin 4 → ℝ) i * (1/2)) (fun i => by
    rw [abs_mul, abs_of_nonneg (by norm_num : (0:ℝ) ≤ 1/2)]
    fin_cases i <;> simp <;> linarith [abs_nonneg pitch, abs_nonneg yaw, abs_nonneg roll, abs_nonneg w])
  refine ⟨_, XMQuaternionRotationRollPitchYaw_num c _ S K g, ?_⟩
  have p0 := g1 0; have p1 := g1 1; have p2 := g1 2
  simp only [Matrix.cons_val] at p0 p1 p2
  have hf : ∀ a : ℝ, a * (1/2) = a / 2 := fun a => by ring
  have s0 := p0.1.trans (mono _ h1); have k0 := p0.2.trans (mono _ h1)
  have s1 := p1.1.trans (mono _ h2); have k1 := p1.2.trans (mono _ h2)
  have s2 := p2.1.trans (mono _ h3); have k2 := p2.2.trans (mono _ h3)
  rw [hf] at s0 k0 s1 k1 s2 k2
  obtain ⟨x0, x1, x2⟩ := ex_val
  obtain ⟨y0, y1, y2⟩ := ey_val
  obtain ⟨z0, z1, z2⟩ := ez_val
  have S' := abs_sin_le_one
  have C' := abs_cos_le_one
  have t1 := triple_close (C' _) (S' _) (C' _) k1 s0 k2 he1
  have t2 := triple_close (S' _) (C' _) (S' _) s1 k0 s2 he1
  have t3 := triple_close (S' _) (C' _) (C' _) s1 k0 k2 he1
  have t4 := triple_close (C' _) (S' _) (S' _) k1 s0 s2 he1
  have t5 := triple_close (C' _) (C' _) (S' _) k1 k0 s2 he1
  have t6 := triple_close (S' _) (S' _) (C' _) s1 s0 k2 he1
  have t7 := triple_close (C' _) (C' _) (C' _) k1 k0 k2 he1
  have t8 := triple_close (S' _) (S' _) (S' _) s1 s0 s2 he1
  have d : ∀ x y u v : ℝ, |x - y| ≤ 31/10*e → |u - v| ≤ 31/10*e → |(x + u) - (y + v)| ≤ 7*e ∧ |(x - u) - (y - v)| ≤ 7*e := by
    intro x y u v a b
    rw [abs_le] at a b
    refine ⟨?_, ?_⟩ <;> rw [abs_le] <;> constructor <;> linarith [a.1, a.2, b.1, b.2]
  unfold QClose
  have aq : ∀ n a, axisQ n a = mkQ (cos (a/2)) (sin (a/2) * n 0) (sin (a/2) * n 1) (sin (a/2) * n 2) := fun _ _ => rfl
  simp [aq, x0, x1, x2, y0, y1, y2, z0, z1, z2]
  refine ⟨?_, ?_, ?_, ?_⟩
  · convert (d _ _ _ _ t1 t2).1 using 2
  · convert (d _ _ _ _ t3 t4).2 using 2; ring
  · convert (d _ _ _ _ t5 t6).2 using 2; ring
  · convert (d _ _ _ _ t7 t8).1 using 2
/-- The same on three separate angles. -/
theorem C47_scalar {α : Type} [Lane α] (c : Cfg) (pitch yaw roll : α) :
    XMQuaternionRotationRollPitchYaw c pitch yaw roll = XMQuaternionRotationRollPitchYawFromVector c ⟨pitch, yaw, roll, Lane.c0⟩ ∧
    XMMatrixRotationRollPitchYaw c pitch yaw roll = XMMatrixRotationRollPitchYawFromVector c ⟨pitch, yaw, roll, Lane.c0⟩ ∧
    XMMatrixRotationRollPitchYaw c pitch yaw roll = XMMatrixRotationQuaternion c (XMQuaternionRotationRollPitchYaw c pitch yaw roll) :=
  ⟨rfl, rfl, rfl⟩
/-- The matrix is the product Rz(roll) Rx(pitch) Ry(yaw) (row vectors: roll first) up to the trigonometric error. -/
theorem C47_matrix (c : Cfg) (pitch yaw roll M : ℝ) (h1 : |pitch| ≤ M) (h2 : |yaw| ≤ M) (h3 : |roll| ≤ M) (hM : M ≤ 10^6) :
    ∃ R, XMMatrixRotationRollPitchYaw c (num pitch) (num yaw) (num roll) = mat (affine R 0) ∧
      ∀ i j, |R i j - (axisRot ez roll * axisRot ex pitch * axisRot ey yaw) i j| ≤ 60 * trigErr (M/2) := by
  have hM0 : 0 ≤ M := (abs_nonneg _).trans h1
  obtain ⟨q, e, hq⟩ := C47_quaternion c pitch yaw roll 0 M h1 h2 h3 (by simp) hM
  have e' : XMQuaternionRotationRollPitchYawFromVector c ⟨num pitch, num yaw, num roll, Lane.c0⟩ = quat q := by
    rw [← e]; simp
  refine ⟨rotM q, ?_, fun i j => ?_⟩
  · rw [(C47_scalar c _ _ _).2.2, (C47_scalar c _ _ _).1, e', XMMatrixRotationQuaternion_quat]
  · have uz := axisQ_normSq ez ez_unit roll
    have ux := axisQ_normSq ex ex_unit pitch
    have uy := axisQ_normSq ey ey_unit yaw
    have uyx : Quaternion.normSq (axisQ ey yaw * axisQ ex pitch) = 1 := by rw [map_mul, uy, ux, one_mul]
    have hu : Quaternion.normSq (axisQ ey yaw * axisQ ex pitch * axisQ ez roll) = 1 := by rw [map_mul, uyx, uz, one_mul]
    have := rotM_close hu hq i j
    rw [rotM_mul _ _ uyx uz, rotM_mul _ _ uy ux, rotM_axisQ _ ez_unit, rotM_axisQ _ ex_unit, rotM_axisQ _ ey_unit, ← Matrix.mul_assoc] at this
    have he1 : trigErr (M/2) ≤ 1/50 := by
      unfold trigErr; rw [abs_of_nonneg (by linarith)]; linarith
    nlinarith [trigErr_pos (M/2)]
example : |(3:ℝ)| ≤ 10 ∧ (10:ℝ) ≤ 10^6 ∧ 60 * trigErr (10/2) < 3/10^5 := by
  unfold trigErr; norm_num [abs_of_pos]

end DXM.Props
