import Verif.Props.CollisionTransform
import Verif.Props.Trig

/-
C86: the oriented box created from points.
-/

set_option linter.all false

namespace DXM.Props
open DXM.E DXM.Spec DXM.RG DXM.Geo Matrix Classical

theorem tn_rot (c : Cfg) {q : Quaternion ℝ} (hq : Quaternion.normSq q = 1) (v : Pt) (w : E) :
    XMVector3TransformNormal c (vec3 v w) (XMMatrixRotationQuaternion c (quat q)) = vec3 (rot q v) (num 0) := by
  rw [XMMatrixRotationQuaternion_quat, rot_eq hq]
  simp [affine, Matrix.vecMul, dotProduct, Fin.sum_univ_three]
theorem tn_irot (c : Cfg) {q : Quaternion ℝ} (hq : Quaternion.normSq q = 1) (v : Pt) (w : E) :
    XMVector3TransformNormal c (vec3 v w) (XMMatrixTranspose c (XMMatrixRotationQuaternion c (quat q))) = vec3 (rot (star q) v) (num 0) := by
  have h : ∀ i, rot (star q) v i = rotM q i ⬝ᵥ v := fun i => (dot_row hq i v).symm
  rw [XMMatrixRotationQuaternion_quat, XMMatrixTranspose_mat]
  simp [affine, Matrix.vecMul, dotProduct, Fin.sum_univ_three, h, mul_comm]

/-- The box made for an orientation: around the first point, turned into the frame, and the other points as they are. -/
theorem fromOrientation_eval (c : Cfg) {q : Quaternion ℝ} (hq : Quaternion.normSq q = 1) (p : Pt) (ps : List Pt) :
    ∃ a e m M : Pt, BoundingOrientedBox.fromOrientation c (quat q) ((p :: ps).map f3) = oboxOf a e q ∧
      (∀ x, x ∈ obox a e q ↔ ∀ i, m i ≤ rot (star q) x i ∧ rot (star q) x i ≤ M i) ∧
      (∀ i, m i ≤ rot (star q) p i ∧ rot (star q) p i ≤ M i) ∧ (∀ x ∈ ps, ∀ i, m i ≤ x i ∧ x i ≤ M i) ∧
      (∀ l : Pt, (∀ i, l i ≤ rot (star q) p i) → (∀ p ∈ ps, ∀ i, l i ≤ p i) → ∀ i, l i ≤ m i) ∧
      (∀ l : Pt, (∀ i, rot (star q) p i ≤ l i) → (∀ p ∈ ps, ∀ i, p i ≤ l i) → ∀ i, M i ≤ l i) := by
  obtain ⟨m, M, h, h1, h2, h3, h4⟩ := minMax_fold ps (rot (star q) p) (rot (star q) p)
  refine ⟨rot q ((1/2 : ℝ) • (m + M)), (1/2 : ℝ) • (M - m), m, M, ?_, ?_, h1, h2, h3, h4⟩
  · have hmm : BoundingOrientedBox.rotatedMinMax c (XMMatrixTranspose c (XMMatrixRotationQuaternion c (quat q))) ((p :: ps).map f3)
        = (vec3 m (num 0), vec3 M (num 0)) := by
      simp only [BoundingOrientedBox.rotatedMinMax, List.map_cons, v_load3, tn_irot c hq]
      rw [← h]
      simp only [List.foldl_map, v_load3]
    simp only [BoundingOrientedBox.fromOrientation, hmm]
    geo
    simp only [tn_rot c hq, v_store3, oboxOf]
  · intro x
    rw [mem_obox hq, rot_sub (nstar hq), rot_star_rot hq]
    have : rot (star q) x - (1/2 : ℝ) • (m + M) ∈ box 0 ((1/2 : ℝ) • (M - m)) ↔ rot (star q) x ∈ box ((1/2 : ℝ) • (m + M)) ((1/2 : ℝ) • (M - m)) := by
      constructor <;> intro h i <;> have := h i <;> simpa [mul_add] using this
    rw [this, mem_mid]


/-- On any real matrix XMQuaternionRotationMatrix returns a non-zero quaternion. -/
theorem rm_ne (c : Cfg) (R0 R1 R2 : Pt) (w0 w1 w2 : E) (r3 : V4 E) :
    ∃ q : Quaternion ℝ, q ≠ 0 ∧ XMQuaternionRotationMatrix c ⟨vec3 R0 w0, vec3 R1 w1, vec3 R2 w2, r3⟩ = quat q := by
  have mk : ∀ x y z w : ℝ, (x ≠ 0 ∨ y ≠ 0 ∨ z ≠ 0 ∨ w ≠ 0) → ∃ q : Quaternion ℝ, ¬ q = 0 ∧ x = q.imI ∧ y = q.imJ ∧ z = q.imK ∧ w = q.re := by
    intro x y z w h
    refine ⟨⟨w, x, y, z⟩, ?_, rfl, rfl, rfl, rfl⟩
    intro h0
    have h1 := congrArg QuaternionAlgebra.re h0
    have h2 := congrArg QuaternionAlgebra.imI h0
    have h3 := congrArg QuaternionAlgebra.imJ h0
    have h4 := congrArg QuaternionAlgebra.imK h0
    simp at h1 h2 h3 h4
    tauto
  by_cases hc : c.sse
  · have dv : ∀ x y z w : ℝ, (0 < x ∨ 0 < y ∨ 0 < z ∨ 0 < w) → ∃ q : Quaternion ℝ, ¬ q = 0 ∧
        (Lane.div (num x) (num √(x * x + y * y + z * z + w * w)) : E) = num q.imI ∧ (Lane.div (num y) (num √(x * x + y * y + z * z + w * w)) : E) = num q.imJ ∧
        (Lane.div (num z) (num √(x * x + y * y + z * z + w * w)) : E) = num q.imK ∧ (Lane.div (num w) (num √(x * x + y * y + z * z + w * w)) : E) = num q.re := by
      intro x y z w h
      have hp : 0 < x * x + y * y + z * z + w * w := by
        rcases h with h | h | h | h <;> nlinarith [mul_self_nonneg x, mul_self_nonneg y, mul_self_nonneg z, mul_self_nonneg w, mul_pos h h]
      have hs := Real.sqrt_pos.2 hp
      obtain ⟨q, h1, h2, h3, h4, h5⟩ := mk (x / √(x * x + y * y + z * z + w * w)) (y / √(x * x + y * y + z * z + w * w)) (z / √(x * x + y * y + z * z + w * w))
        (w / √(x * x + y * y + z * z + w * w)) (by
          rcases h with h | h | h | h
          · exact Or.inl (div_pos h hs).ne'
          · exact Or.inr (Or.inl (div_pos h hs).ne')
          · exact Or.inr (Or.inr (Or.inl (div_pos h hs).ne'))
          · exact Or.inr (Or.inr (Or.inr (div_pos h hs).ne')))
      refine ⟨q, h1, ?_⟩
      simp only [div_num _ _ hs.ne', h2, h3, h4, h5, and_self]
    unfold XMQuaternionRotationMatrix
    simp only [hc, if_true]
    by_cases c1 : R2 2 ≤ 0
    · by_cases c2 : R1 1 ≤ R0 0
      · simp [c1, c2]
        apply dv; left; linarith
      · simp [c1, c2]
        apply dv; right; left; linarith
    · by_cases c2 : R1 1 + R0 0 ≤ 0
      · simp [c1, c2]
        apply dv; right; right; left; linarith
      · simp [c1, c2]
        apply dv; right; right; right; linarith
  · have iv : ∀ t : ℝ, 0 < t → (Lane.div (num 2⁻¹) (Lane.sqrt (num t)) : E) = num (2⁻¹ / √t) ∧ 0 < t * (2⁻¹ / √t) := by
      intro t ht
      have := Real.sqrt_pos.2 ht
      exact ⟨by rw [sqrt_num _ ht.le, div_num _ _ this.ne'], by positivity⟩
    unfold XMQuaternionRotationMatrix
    simp only [hc]
    by_cases c1 : R2 2 ≤ 0
    · by_cases c2 : R1 1 ≤ R0 0
      · have ht : 0 < 1 - R2 2 - (R1 1 - R0 0) := by linarith
        simp [c1, c2, (iv _ ht).1]
        exact mk _ _ _ _ (Or.inl (iv _ ht).2.ne')
      · have ht : 0 < 1 - R2 2 + (R1 1 - R0 0) := by linarith
        simp [c1, c2, (iv _ ht).1]
        exact mk _ _ _ _ (Or.inr (Or.inl (iv _ ht).2.ne'))
    · by_cases c2 : R1 1 + R0 0 ≤ 0
      · have ht : 0 < 1 + R2 2 - (R1 1 + R0 0) := by linarith
        simp [c1, c2, (iv _ ht).1]
        exact mk _ _ _ _ (Or.inr (Or.inr (Or.inl (iv _ ht).2.ne')))
      · have ht : 0 < 1 + R2 2 + (R1 1 + R0 0) := by linarith
        simp [c1, c2, (iv _ ht).1]
        exact mk _ _ _ _ (Or.inr (Or.inr (Or.inr (iv _ ht).2.ne')))

theorem qnorm (c : Cfg) (q : Quaternion ℝ) (h : q ≠ 0) : ∃ r : Quaternion ℝ, Quaternion.normSq r = 1 ∧ XMQuaternionNormalize c (quat q) = quat r := by
  have hp : 0 < Quaternion.normSq q := lt_of_le_of_ne Quaternion.normSq_nonneg (fun h0 => h (Quaternion.normSq_eq_zero.1 h0.symm))
  have e : Quaternion.normSq q = q.imI * q.imI + q.imJ * q.imJ + q.imK * q.imK + q.re * q.re := by rw [normSq4]; ring
  have hs := Real.sqrt_pos.2 hp
  refine ⟨(√(Quaternion.normSq q))⁻¹ • q, ?_, ?_⟩
  · rw [Quaternion.normSq_smul, inv_pow, Real.sq_sqrt hp.le, inv_mul_cancel₀ hp.ne']
  · unfold XMQuaternionNormalize
    have := XMVector4Normalize_num c q.imI q.imJ q.imK q.re (by rw [← e]; exact hp)
    rw [← e] at this
    simp only [quat]
    rw [this]
    simp [div_eq_inv_mul]

theorem k3_num : (k3 : E) = num 3 := by simp [k3, E.ofBits_eq, E.ofBits, E.valQ] <;> norm_num
theorem k4_num : (k4 : E) = num 4 := by simp [k4, E.ofBits_eq, E.ofBits, E.valQ] <;> norm_num
theorem k27_num : (k27 : E) = num 27 := by simp [k27, E.ofBits_eq, E.ofBits, E.valQ] <;> norm_num
theorem k1em5_num : (k1em5 : E) = num (10995116 / 2^40) := by simp [k1em5, E.ofBits_eq, E.ofBits, E.valQ] <;> norm_num
theorem k1e5_num : (k1e5 : E) = num 100000 := by simp [k1e5, E.ofBits_eq, E.ofBits, E.valQ] <;> norm_num
theorem k01_num : (k01 : E) = num (13421773 / 2^27) := by simp [k01, E.ofBits_eq, E.ofBits, E.valQ] <;> norm_num

/-- The cubic solver returns real numbers. -/
theorem solveCubic_real (e f g : ℝ) : SolveCubic (num e) (num f) (num g) = none ∨ ∃ t u v : ℝ, SolveCubic (num e) (num f) (num g) = some (num t, num u, num v) := by
  have d3 : ∀ x : ℝ, (Lane.div (num x) (num 3) : E) = num (x / 3) := fun x => div_num _ _ (by norm_num)
  have d4 : ∀ x : ℝ, (Lane.div (num x) (num 4) : E) = num (x / 4) := fun x => div_num _ _ (by norm_num)
  have d27 : ∀ x : ℝ, (Lane.div (num x) (num 27) : E) = num (x / 27) := fun x => div_num _ _ (by norm_num)
  have e2 : (Lane.c2 : E) = num 2 := by simp
  unfold SolveCubic
  simp only [k3_num, k4_num, k27_num, sub_num, mul_num, add_num, d3, d4, d27, s_c0, e2, neg_num]
  generalize f - e * e / 3 = p
  generalize g - e * f / 3 + e * e * e * 2 / 27 = q
  generalize hh : q * q / 4 + p * p * p / 27 = h
  by_cases h1 : 0 < h
  · left; simp [h1]
  by_cases h2 : h = 0 ∧ q = 0
  · right; refine ⟨-e / 3, -e / 3, -e / 3, ?_⟩; simp [h2]
  have hd : 0 < q * q / 4 - h := by
    rcases eq_or_lt_of_le (not_lt.1 h1) with h0 | h0
    · have hq : q ≠ 0 := fun hq => h2 ⟨h0, hq⟩
      have := mul_self_pos.2 hq
      rw [h0]; linarith
    · nlinarith [mul_self_nonneg q]
  have hs := Real.sqrt_pos.2 hd
  have hle : |-q / (2 * √(q * q / 4 - h))| ≤ 1 := by
    rw [abs_div, abs_neg, abs_of_pos (by positivity : 0 < 2 * √(q * q / 4 - h)), div_le_one (by positivity)]
    have : |q| / 2 ≤ √(q * q / 4 - h) := by
      apply Real.le_sqrt_of_sq_le
      rw [div_pow, sq_abs]
      nlinarith [not_lt.1 h1]
    linarith
  obtain ⟨⟨θ, hθ, hb⟩, -⟩ := C66_arc _ hle
  have hb' : |θ / 3| ≤ 10^8 := by
    have h1 := Real.arccos_nonneg (-q / (2 * √(q * q / 4 - h)))
    have h2 := Real.arccos_le_pi (-q / (2 * √(q * q / 4 - h)))
    have h3 := Real.pi_le_four
    rw [abs_le] at hb ⊢
    constructor <;> norm_num at hb ⊢ <;> linarith
  obtain ⟨sn, cs, k1, k2, -⟩ := C66_sincos _ hb'
  have hpow : ∀ x y : ℝ, 0 < x → (Lane.pow (num x) (num y) : E) = num (x ^ y) := by
    intro x y hx
    show E.lift2 _ _ _ = _
    simp [E.lift2, hx]
  right
  have hsq : (Lane.sqrt (num (q * q / 4 - h)) : E) = num √(q * q / 4 - h) := sqrt_num _ hd.le
  have hsq3 : (Lane.sqrt (num 3) : E) = num √3 := sqrt_num _ (by norm_num)
  have hdv : ∀ x : ℝ, (Lane.div (num x) (num (2 * √(q * q / 4 - h))) : E) = num (x / (2 * √(q * q / 4 - h))) := fun x => div_num _ _ (by positivity)
  refine ⟨2 * √(q * q / 4 - h) ^ (1 / 3 : ℝ) * cs - e / 3, -√(q * q / 4 - h) ^ (1 / 3 : ℝ) * (cs + √3 * sn) - e / 3,
    -√(q * q / 4 - h) ^ (1 / 3 : ℝ) * (cs - √3 * sn) - e / 3, ?_⟩
  have n1 : ¬ ((Lane.gt (num h) (num 0) : Bool) = true) := by simp [h1]
  have n2 : ¬ ((Lane.eq (num h) (num 0) && Lane.eq (num q) (num 0)) = true) := by simpa using h2
  have n3 : ¬ (Lane.lt (num √(q * q / 4 - h)) (num 0) = true) := by simp [hs.le]
  simp only [hsq, hsq3, if_neg n1, if_neg n2, if_neg n3, s_c1, d3, hpow _ _ hs, mul_num, hdv, hθ, k1, k2, add_num, sub_num, neg_num]

/-- A vector with zero w. -/
def IsV (V : V4 E) : Prop := ∃ v : Pt, V = vec3 v (num 0)

theorem isV_normalize (c : Cfg) {V : V4 E} (h : IsV V) : IsV (XMVector3Normalize c V) := by
  obtain ⟨v, rfl⟩ := h
  by_cases h0 : v = 0
  · refine ⟨0, ?_⟩
    subst h0
    simp only [vec3, Pi.zero_apply]
    rw [XMVector3Normalize_zero]
    simp [nrmLane0]
  · exact ⟨_, v_normalize c v h0⟩
theorem isV_cross (c : Cfg) {V W : V4 E} (h : IsV V) (h' : IsV W) : IsV (XMVector3Cross c V W) := by
  obtain ⟨v, rfl⟩ := h
  obtain ⟨w, rfl⟩ := h'
  exact ⟨_, v_cross c v w _ _⟩
theorem isV_zero : IsV (XMVectorZero : V4 E) := ⟨0, by simp [XMVectorZero]⟩
theorem isV_r0 : IsV (g_XMIdentityR0 : V4 E) := ⟨![1, 0, 0], by simp [g_XMIdentityR0]⟩
theorem isV_r1 : IsV (g_XMIdentityR1 : V4 E) := ⟨![0, 1, 0], by simp [g_XMIdentityR1]⟩
theorem isV_r2 : IsV (g_XMIdentityR2 : V4 E) := ⟨![0, 0, 1], by simp [g_XMIdentityR2]⟩
theorem isV_complete (c : Cfg) {V : V4 E} (h : IsV V) : IsV (completeBasis c V).1 ∧ IsV (completeBasis c V).2 := by
  unfold completeBasis
  dsimp only
  have : IsV (if Lane.lt (XMVectorGetX (XMVector3LengthSq c (XMVector3Cross c g_XMIdentityR1 V))) k1em5 = true then
      XMVector3Cross c g_XMIdentityR0 V else XMVector3Cross c g_XMIdentityR1 V) := by
    split_ifs
    · exact isV_cross c isV_r0 h
    · exact isV_cross c isV_r1 h
  exact ⟨isV_normalize c this, isV_cross c h (isV_normalize c this)⟩

theorem isV_eigen (c : Cfg) (m11 m12 m13 m22 m23 m33 e : ℝ) :
    IsV (CalculateEigenVector c (num m11) (num m12) (num m13) (num m22) (num m23) (num m33) (num e)) := by
  unfold CalculateEigenVector
  extract_lets F V f f1 f2 f3' V1 V2 V3 W
  have hf : ∃ g1 g2 g3 : ℝ, f = (num g1, num g2, num g3) ∧ (m12 ≠ 0 → g2 ≠ 0) := by
    by_cases a1 : m11 - e ≠ 0 ∨ m12 ≠ 0 ∨ m13 ≠ 0
    · exact ⟨m11 - e, m12, m13, by simp [f, ne]; tauto, id⟩
    · have h12 : m12 = 0 := by tauto
      by_cases a2 : m12 ≠ 0 ∨ m22 - e ≠ 0 ∨ m23 ≠ 0
      · exact ⟨m12, m22 - e, m23, by simp only [f, ne, s_c0, s_c1, sub_num, eq_num]; rw [if_neg (by simp; tauto)]; rw [if_pos (by simp; tauto)], fun h => absurd h12 h⟩
      · by_cases a3 : m13 ≠ 0 ∨ m23 ≠ 0 ∨ m33 - e ≠ 0
        · exact ⟨m13, m23, m33 - e, by simp only [f, ne, s_c0, s_c1, sub_num, eq_num]; rw [if_neg (by simp; tauto)]; rw [if_neg (by simp; tauto), if_pos (by simp; tauto)], fun h => absurd h12 h⟩
        · exact ⟨1, 0, 0, by simp only [f, ne, s_c0, s_c1, sub_num, eq_num]; rw [if_neg (by simp; tauto)]; rw [if_neg (by simp; tauto), if_neg (by simp; tauto)], fun h => absurd h12 h⟩
  have hx : ∀ (v : Pt) (x : ℝ), IsV (XMVectorSetX c (vec3 v (num 0)) (num x)) := fun v x => ⟨![x, v 1, v 2], by simp⟩
  have hy : ∀ (v : Pt) (x : ℝ), IsV (XMVectorSetY c (vec3 v (num 0)) (num x)) := fun v x => ⟨![v 0, x, v 2], by simp⟩
  have hz : ∀ (v : Pt) (x : ℝ), IsV (XMVectorSetZ c (vec3 v (num 0)) (num x)) := fun v x => ⟨![v 0, v 1, x], by simp⟩
  obtain ⟨g1, g2, g3, hf, hg⟩ := hf
  have hV : IsV V := ⟨![m12 * m23 - m13 * (m22 - e), m13 * m12 - m23 * (m11 - e), (m11 - e) * (m22 - e) - m12 * m12], by simp [V, F, load3]⟩
  have hV1 : IsV V1 := by
    obtain ⟨v, hv⟩ := hV
    simp only [V1, hv, s_c0, s_c1]; split_ifs <;> apply hx
  have hV2 : IsV V2 := by
    obtain ⟨v, hv⟩ := hV1
    simp only [V2, hv, s_c0, s_c1]; split_ifs <;> apply hy
  have hV3 : IsV V3 := by
    obtain ⟨v, hv⟩ := hV2
    simp only [V3, hv, s_c0]; apply hz
  have hW : IsV W := by
    simp only [W]
    split_ifs with b1 b2 b3
    · obtain ⟨v, hv⟩ := hV3
      have : m12 ≠ 0 := by simpa [ne] using b3
      simp only [hv, f1, f2, hf, neg_num, div_num _ _ (hg this)]; apply hy
    · exact hV3
    · obtain ⟨v, hv⟩ := hV2
      have : g3 ≠ 0 := by simpa [f3', hf] using b2
      simp only [hv, f1, f2, f3', hf, sub_num, div_num _ _ this]; apply hz
    · exact hV
  split_ifs
  · exact isV_normalize c hW
  · obtain ⟨v, hv⟩ := hW
    apply isV_normalize
    rw [hv, k1e5_num, v_scale]
    exact ⟨(100000 : ℝ) • v, by simp⟩

theorem isV_ite {p : Prop} [Decidable p] {a b : V4 E × V4 E × V4 E} (ha : IsV a.1 ∧ IsV a.2.1 ∧ IsV a.2.2) (hb : IsV b.1 ∧ IsV b.2.1 ∧ IsV b.2.2) :
    IsV (if p then a else b).1 ∧ IsV (if p then a else b).2.1 ∧ IsV (if p then a else b).2.2 := by split_ifs <;> assumption

theorem isV_cov (c : Cfg) (xx yy zz xy xz yz : ℝ) :
    IsV (CalculateEigenVectorsFromCovarianceMatrix c (num xx) (num yy) (num zz) (num xy) (num xz) (num yz)).1 ∧
    IsV (CalculateEigenVectorsFromCovarianceMatrix c (num xx) (num yy) (num zz) (num xy) (num xz) (num yz)).2.1 ∧
    IsV (CalculateEigenVectorsFromCovarianceMatrix c (num xx) (num yy) (num zz) (num xy) (num xz) (num yz)).2.2 := by
  have e2 : (Lane.c2 : E) = num 2 := by simp
  unfold CalculateEigenVectorsFromCovarianceMatrix
  simp only [add_num, mul_num, sub_num, neg_num, e2]
  rcases solveCubic_real (-(xx + yy + zz)) (xx * yy + yy * zz + zz * xx - xy * xy - xz * xz - yz * yz)
    (xy * xy * zz + xz * xz * yy + yz * yz * xx - xy * yz * xz * 2 - xx * yy * zz) with h | ⟨t, u, v, h⟩ <;> rw [h]
  · exact ⟨isV_r0, isV_r1, isV_r2⟩
  · have h1 := isV_eigen c xx xy xz yy yz zz t
    have h2 := isV_eigen c xx xy xz yy yz zz u
    have h3 := isV_eigen c xx xy xz yy yz zz v
    dsimp only
    unfold CalculateEigenVectors
    dsimp only
    refine isV_ite ⟨isV_r0, isV_r1, isV_r2⟩ (isV_ite ?_ (isV_ite ?_ (isV_ite ?_ (isV_ite ?_ (isV_ite ?_ (isV_ite ?_ ?_))))))
    · exact ⟨(isV_complete c h3).1, (isV_complete c h3).2, h3⟩
    · exact ⟨(isV_complete c h2).2, h2, (isV_complete c h2).1⟩
    · exact ⟨h1, (isV_complete c h1).1, (isV_complete c h1).2⟩
    · exact ⟨isV_cross c h2 h3, h2, h3⟩
    · exact ⟨h1, isV_cross c h3 h1, h3⟩
    · exact ⟨h1, h2, isV_cross c h1 h2⟩
    · exact ⟨h1, h2, h3⟩

theorem eigenFrame_real (c : Cfg) {V1 V2 V3 : V4 E} (h1 : IsV V1) (h2 : IsV V2) (h3 : IsV V3) :
    ∃ (R0 R1 R2 : Pt) (w0 w1 w2 : E) (r3 : V4 E), BoundingOrientedBox.eigenFrame c V1 V2 V3 = ⟨vec3 R0 w0, vec3 R1 w1, vec3 R2 w2, r3⟩ := by
  obtain ⟨v1, rfl⟩ := h1
  obtain ⟨v2, rfl⟩ := h2
  obtain ⟨v3, rfl⟩ := h3
  have hw : ∀ (v : Pt) (x : ℝ), XMVectorSetW c (vec3 v (num 0)) (num x) = vec3 v (num x) := fun v x => by simp
  have hn : ∀ (v : Pt) (x : ℝ), XMVectorMultiply (vec3 v (num x)) (g_XMNegativeOne : V4 E) = vec3 (-v) (num (-x)) := fun v x => by simp [XMVectorMultiply, g_XMNegativeOne]
  simp only [BoundingOrientedBox.eigenFrame, s_c0, hw]
  split_ifs
  · simp only [hn]; exact ⟨_, _, _, _, _, _, _, rfl⟩
  · exact ⟨_, _, _, _, _, _, _, rfl⟩

theorem center_fold (ps : List Pt) : ∀ s : Pt, (ps.map f3).foldl (fun s p => XMVectorAdd s (load3 p)) (vec3 s (num 0)) = vec3 (s + ps.sum) (num 0) := by
  induction ps with
  | nil => intro s; simp
  | cons p ps ih => intro s; simp only [List.map_cons, List.foldl_cons, v_load3, v_add, List.sum_cons, add_num, add_zero, ih, add_assoc]

theorem u2f_nat (n : ℕ) (h : n < 2 ^ 23) : (Lane.u2f (Lane.ofBits (BitVec.ofNat 32 n)) : E) = num n := by
  have hn : (BitVec.ofNat 32 n).toNat = n := by rw [BitVec.toNat_ofNat]; exact Nat.mod_eq_of_lt (by omega)
  have ne : ∀ k : ℕ, 2 ^ 23 ≤ k → k < 2 ^ 32 → BitVec.ofNat 32 n ≠ BitVec.ofNat 32 k := by
    intro k hk hk' h0
    have := congrArg BitVec.toNat h0
    rw [hn, BitVec.toNat_ofNat, Nat.mod_eq_of_lt hk'] at this
    omega
  have hd : n / 2 ^ 23 = 0 := Nat.div_eq_of_lt h
  have hd' : n / 2 ^ 31 = 0 := Nat.div_eq_of_lt (by omega)
  have hv : E.valQ (BitVec.ofNat 32 n) = (n : ℚ) / 2 ^ 149 := by
    simp only [E.valQ, hn, hd, hd', Nat.mod_eq_of_lt h]
    norm_num
  have hb : (Lane.ofBits (BitVec.ofNat 32 n) : E) = num ((n : ℝ) / 2 ^ 149) := by
    show E.ofBits _ = _
    rw [E.ofBits, if_neg (ne _ (by norm_num) (by norm_num)), if_neg (ne _ (by norm_num) (by norm_num)), if_neg (ne _ (by norm_num) (by norm_num)),
      if_neg (ne _ (by norm_num) (by norm_num)), if_neg (ne _ (by norm_num) (by norm_num)), hn, hd, if_neg (by norm_num), hv]
    push_cast
    rfl
  rw [hb]
  show E.u2f _ = _
  simp only [E.u2f]
  rw [if_pos ⟨n, h, rfl⟩, div_mul_cancel₀ _ (by positivity)]

theorem center_real (ps : List Pt) (h0 : ps ≠ []) (h : ps.length < 2 ^ 23) :
    BoundingOrientedBox.centerOfMass (ps.map f3) = vec3 ((ps.length : ℝ)⁻¹ • ps.sum) (num 0) := by
  have hn : (ps.length : ℝ) ≠ 0 := by simpa using h0
  have hz : (XMVectorZero : V4 E) = vec3 0 (num 0) := by simp [XMVectorZero]
  simp only [BoundingOrientedBox.centerOfMass, hz, center_fold, List.length_map, u2f_nat _ h, v_rep, s_recip _ hn, v_smul_r, zero_add, mul_num, zero_mul]

theorem cov_fold (c : Cfg) (ps : List Pt) (m : Pt) : ∀ s t : Pt, ∃ x y : Pt, (ps.map f3).foldl (fun (s : V4 E × V4 E) p =>
    (XMVectorAdd s.1 (XMVectorMultiply (XMVectorSubtract (load3 p) (vec3 m (num 0))) (XMVectorSubtract (load3 p) (vec3 m (num 0)))),
      XMVectorAdd s.2 (XMVectorMultiply (XMVectorSwizzleC c (XMVectorSubtract (load3 p) (vec3 m (num 0))) 0 0 1 3)
        (XMVectorSwizzleC c (XMVectorSubtract (load3 p) (vec3 m (num 0))) 1 2 2 3)))) (vec3 s (num 0), vec3 t (num 0)) = (vec3 x (num 0), vec3 y (num 0)) := by
  have hs1 : ∀ v : Pt, XMVectorSwizzleC c (vec3 v (num 0)) 0 0 1 3 = vec3 ![v 0, v 0, v 1] (num 0) := fun v => by simp
  have hs2 : ∀ v : Pt, XMVectorSwizzleC c (vec3 v (num 0)) 1 2 2 3 = vec3 ![v 1, v 2, v 2] (num 0) := fun v => by simp
  induction ps with
  | nil => intro s t; exact ⟨s, t, rfl⟩
  | cons p ps ih =>
    intro s t
    simp only [List.map_cons, List.foldl_cons, v_load3, v_sub, v_mul, v_add, sub_num, mul_num, add_num, sub_zero, mul_zero, add_zero, hs1, hs2]
    exact ih _ _

theorem cov_real (c : Cfg) (ps : List Pt) (m : Pt) : ∃ x y : Pt, BoundingOrientedBox.covariance c (vec3 m (num 0)) (ps.map f3) = (vec3 x (num 0), vec3 y (num 0)) := by
  have hz : (XMVectorZero : V4 E) = vec3 0 (num 0) := by simp [XMVectorZero]
  obtain ⟨x, y, h⟩ := cov_fold c ps m 0 0
  exact ⟨x, y, by simp only [BoundingOrientedBox.covariance, hz]; exact h⟩

/-- The orientation found is always a unit quaternion. -/
theorem orientation_unit (c : Cfg) (ps : List Pt) (h0 : ps ≠ []) (h : ps.length < 2 ^ 23) :
    ∃ q : Quaternion ℝ, Quaternion.normSq q = 1 ∧ BoundingOrientedBox.orientationOf c (ps.map f3) = quat q := by
  obtain ⟨x, y, e⟩ := cov_real c ps ((ps.length : ℝ)⁻¹ • ps.sum)
  have hx : ∀ v : Pt, XMVectorGetX (vec3 v (num 0)) = num (v 0) := fun v => by simp
  have hy : ∀ v : Pt, XMVectorGetY c (vec3 v (num 0)) = num (v 1) := fun v => by simp
  have hz : ∀ v : Pt, XMVectorGetZ c (vec3 v (num 0)) = num (v 2) := fun v => by simp
  simp only [BoundingOrientedBox.orientationOf, center_real ps h0 h, e, hx, hy, hz]
  obtain ⟨h1, h2, h3⟩ := isV_cov c (x 0) (x 1) (x 2) (y 0) (y 1) (y 2)
  obtain ⟨R0, R1, R2, w0, w1, w2, r3, hR⟩ := eigenFrame_real c h1 h2 h3
  rw [hR]
  obtain ⟨q, hq, hq'⟩ := rm_ne c R0 R1 R2 w0 w1 w2 r3
  rw [hq']
  exact qnorm c q hq

/-- The claim C86: the box created from a non-empty list of points is an oriented box with a unit orientation that contains every point. -/
def C86_claim (c : Cfg) : Prop := ∀ (Out : BoundingOrientedBox E) (ps : List Pt), ps ≠ [] → ps.length < 2 ^ 23 → 
  ∃ a e q, Quaternion.normSq q = 1 ∧ BoundingOrientedBox.CreateFromPoints c Out (ps.map f3) = oboxOf a e q ∧ ∀ p ∈ ps, p ∈ obox a e q

/-- What holds of C86: the result is always a box with a unit orientation, it always contains the first point, and when the orientation is
the trivial rotation it contains every point. -/
theorem C86_fromPoints_partial (c : Cfg) (Out : BoundingOrientedBox E) (p : Pt) (ps : List Pt) (h : (p :: ps).length < 2 ^ 23) :
    ∃ a e q, Quaternion.normSq q = 1 ∧ BoundingOrientedBox.CreateFromPoints c Out ((p :: ps).map f3) = oboxOf a e q ∧ p ∈ obox a e q ∧
      ((∀ v, rot q v = v) → ∀ x ∈ p :: ps, x ∈ obox a e q) := by
  obtain ⟨q, hq, ho⟩ := orientation_unit c (p :: ps) (by simp) h
  obtain ⟨a, e, m, M, h1, h2, h3, h4, -⟩ := fromOrientation_eval c hq p ps
  refine ⟨a, e, q, hq, ?_, (h2 p).2 h3, ?_⟩
  · simp only [BoundingOrientedBox.CreateFromPoints, ho, h1]
    simp
  · intro hr x hx
    rcases List.mem_cons.1 hx with rfl | hx
    · exact (h2 _).2 h3
    · have : rot (star q) x = x := by
        have := rot_rot_star hq x
        rwa [hr] at this
      rw [h2, this]
      exact h4 x hx

/-! A concrete run in which a point is lost. -/

theorem cos0 : (XMScalarCos (num 0) : E) = num 1 ∧ (XMScalarSin (num 0) : E) = num 0 := by
  have hc : (Lane.castI (num 2⁻¹) : E) = num 0 := by
    rw [Trig.castI_num _ (by rw [abs_lt]; norm_num)]
    norm_num [truncR]
  have hr : scalarReduce (num 0 : E) = (num 0, num 1) := by
    unfold scalarReduce
    simp [XM_1DIV2PI, XM_2PI, XM_PI, XM_PIDIV2, hc]
    norm_num
  constructor
  · simp only [XMScalarCos, hr, Trig.scalarCosPoly_num, mul_num]; norm_num [Trig.cosP]
  · simp only [XMScalarSin, hr, Trig.scalarSinPoly_num, mul_num]; norm_num

theorem cubic_ex : SolveCubic (num (-12)) (num 36) (num (-32)) = some (num 8, num 2, num 2) := by
  have d : ∀ x y : ℝ, y ≠ 0 → (Lane.div (num x) (num y) : E) = num (x / y) := fun x y h => div_num _ _ h
  have e2 : (Lane.c2 : E) = num 2 := by simp
  have hs : (Lane.sqrt (num 64) : E) = num 8 := by rw [sqrt_num _ (by norm_num), show (64 : ℝ) = 8 ^ 2 by norm_num, Real.sqrt_sq (by norm_num)]
  have hs3 : (Lane.sqrt (num 3) : E) = num √3 := sqrt_num _ (by norm_num)
  have ha : (XMScalarACos (num 1) : E) = num 0 := by rw [Trig.XMScalarACos_num 1 (by norm_num)]; simp [Trig.acosF]
  have hp : (Lane.pow (num 8) (num (1 / 3)) : E) = num 2 := by
    show E.lift2 _ _ _ = _
    have : (8 : ℝ) ^ (1 / 3 : ℝ) = 2 := by
      rw [show (8 : ℝ) = 2 ^ (3 : ℝ) by norm_num, ← Real.rpow_mul (by norm_num)]; norm_num
    simp only [E.lift2]
    rw [if_pos (by norm_num)]
    exact congrArg num this
  have h3 : (3 : ℝ) ≠ 0 := by norm_num
  have h4 : (4 : ℝ) ≠ 0 := by norm_num
  have h27 : (27 : ℝ) ≠ 0 := by norm_num
  have h16 : (16 : ℝ) ≠ 0 := by norm_num
  unfold SolveCubic
  simp only [k3_num, k4_num, k27_num, sub_num, mul_num, add_num, d _ _ h3, d _ _ h4, d _ _ h27, s_c0, s_c1, e2, neg_num]
  norm_num [hs, hs3, ha, hp, d, cos0, -one_div]

theorem v_eq3 (c : Cfg) (a b : Pt) (w w' : E) : XMVector3Equal c (vec3 a w) (vec3 b w') = true ↔ a = b := by
  have h3 : a = b ↔ a 0 = b 0 ∧ a 1 = b 1 ∧ a 2 = b 2 := by rw [funext_iff, Fin.forall_fin_succ, Fin.forall_fin_succ, Fin.forall_fin_one]; rfl
  unfold XMVector3Equal
  split_ifs
  · have e : SSE.cmpeq (vec3 a w) (vec3 b w') = msk3 (fun i => a i = b i) (dm (Lane.eq w w' = true)) := by
      simp [SSE.cmpeq, msk3, mask_dm, mask_dm']
    rw [e, mm7, h3, all3]
  · rw [h3]; simp [and_assoc]
theorem v_zero3 : (XMVectorZero : V4 E) = vec3 0 (num 0) := by simp [XMVectorZero]
theorem len_ex : len ![0, 1, 0] = 1 ∧ len ![1, 0, 0] = 1 := by
  constructor <;> simp [len, dotProduct, Fin.sum_univ_three]
theorem eigen_ex1 (c : Cfg) : CalculateEigenVector c (num 8) (num 0) (num 0) (num 2) (num 0) (num 2) (num 8) = vec3 ![0, 1, 0] (num 0) := by
  have hn : XMVector3Normalize c (vec3 ![0, 1, 0] (num 0)) = vec3 ![0, 1, 0] (num 0) := by
    rw [v_normalize c _ (by intro h; simpa using congrFun h 1), len_ex.1]; simp
  have hl : load3 (⟨num 0, num 0, num 0⟩ : F3 E) = vec3 0 (num 0) := by simp [load3]
  have hx : ∀ (v : Pt) (x : ℝ), XMVectorSetX c (vec3 v (num 0)) (num x) = vec3 ![x, v 1, v 2] (num 0) := fun v x => by simp
  have hy : ∀ (v : Pt) (x : ℝ), XMVectorSetY c (vec3 v (num 0)) (num x) = vec3 ![v 0, x, v 2] (num 0) := fun v x => by simp
  have hz : ∀ (v : Pt) (x : ℝ), XMVectorSetZ c (vec3 v (num 0)) (num x) = vec3 ![v 0, v 1, x] (num 0) := fun v x => by simp
  have hd : (![0, 1, 0] : Pt) ⬝ᵥ ![0, 1, 0] = 1 := by simp [dotProduct, Fin.sum_univ_three]
  have hzz : XMVector3Equal c (vec3 0 (num 0)) (vec3 0 (num 0)) = true := (v_eq3 c _ _ _ _).2 rfl
  unfold CalculateEigenVector
  simp only [mul_num, sub_num, mul_zero, sub_zero, sub_self, zero_mul, hl, v_zero3, hzz, if_true, ne, s_c0, s_c1, eq_num, hx, hy, hz]
  norm_num only
  simp only [Bool.not_true, Bool.not_false, Bool.or_true, Bool.or_false, decide_true, decide_false, Bool.false_eq_true, if_true, if_false, hx, hy, hz, div_num, eq_num, Pi.zero_apply]
  norm_num only
  simp only [decide_eq_true_eq, if_false, if_true, hx, hy, hz, Matrix.cons_val_zero, Matrix.cons_val_one, Matrix.cons_val, v_lensq, v_getx, s_x, hd, k1em5_num, gt_num, hn]
  norm_num
theorem eigen_ex2 (c : Cfg) : CalculateEigenVector c (num 8) (num 0) (num 0) (num 2) (num 0) (num 2) (num 2) = vec3 ![1, 0, 0] (num 0) := by
  have hn : XMVector3Normalize c (vec3 ![1, 0, 0] (num 0)) = vec3 ![1, 0, 0] (num 0) := by
    rw [v_normalize c _ (by intro h; simpa using congrFun h 0), len_ex.2]; simp
  have hl : load3 (⟨num 0, num 0, num 0⟩ : F3 E) = vec3 0 (num 0) := by simp [load3]
  have hx : ∀ (v : Pt) (x : ℝ), XMVectorSetX c (vec3 v (num 0)) (num x) = vec3 ![x, v 1, v 2] (num 0) := fun v x => by simp
  have hy : ∀ (v : Pt) (x : ℝ), XMVectorSetY c (vec3 v (num 0)) (num x) = vec3 ![v 0, x, v 2] (num 0) := fun v x => by simp
  have hz : ∀ (v : Pt) (x : ℝ), XMVectorSetZ c (vec3 v (num 0)) (num x) = vec3 ![v 0, v 1, x] (num 0) := fun v x => by simp
  have hd : (![1, 0, 0] : Pt) ⬝ᵥ ![1, 0, 0] = 1 := by simp [dotProduct, Fin.sum_univ_three]
  have hzz : XMVector3Equal c (vec3 0 (num 0)) (vec3 0 (num 0)) = true := (v_eq3 c _ _ _ _).2 rfl
  unfold CalculateEigenVector
  simp only [mul_num, sub_num, mul_zero, sub_zero, sub_self, zero_mul, hl, v_zero3, hzz, if_true, ne, s_c0, s_c1, eq_num, hx, hy, hz]
  norm_num only
  simp only [Bool.not_true, Bool.not_false, Bool.or_true, Bool.or_false, decide_true, decide_false, Bool.false_eq_true, if_true, if_false, hx, hy, hz, div_num, eq_num, Pi.zero_apply]
  norm_num only
  simp only [decide_eq_true_eq, if_false, if_true, hx, hy, hz, Matrix.cons_val_zero, Matrix.cons_val_one, Matrix.cons_val, v_lensq, v_getx, s_x, hd, k1em5_num, gt_num, hn]
  norm_num
theorem frame_ex (c : Cfg) : CalculateEigenVectorsFromCovarianceMatrix c (num 8) (num 2) (num 2) (num 0) (num 0) (num 0)
    = (vec3 ![0, 1, 0] (num 0), vec3 ![0, 0, 1] (num 0), vec3 ![1, 0, 0] (num 0)) := by
  have e2 : (Lane.c2 : E) = num 2 := by simp
  unfold CalculateEigenVectorsFromCovarianceMatrix
  simp only [add_num, mul_num, sub_num, neg_num, e2]
  norm_num only
  rw [cubic_ex]
  dsimp only
  unfold CalculateEigenVectors
  simp only [eigen_ex1, eigen_ex2]
  have hx : (crossProduct ![1, 0, 0] ![0, 1, 0] : Pt) = ![0, 0, 1] := by simp [crossProduct]
  have z1 : XMVector3Equal c (vec3 ![0, 1, 0] (num 0)) XMVectorZero = false := by
    rw [v_zero3, Bool.eq_false_iff, Ne, v_eq3]; intro h; simpa using congrFun h 1
  have z2 : XMVector3Equal c (vec3 ![1, 0, 0] (num 0)) XMVectorZero = false := by
    rw [v_zero3, Bool.eq_false_iff, Ne, v_eq3]; intro h; simpa using congrFun h 0
  simp only [v_dot, v_cross, v_getx, s_x, k01_num, abs_num, gt_num, hx, z1, z2]
  have d1 : (![0, 1, 0] : Pt) ⬝ᵥ ![1, 0, 0] = 0 := by simp [dotProduct, Fin.sum_univ_three]
  have d2 : (![1, 0, 0] : Pt) ⬝ᵥ ![1, 0, 0] = 1 := by simp [dotProduct, Fin.sum_univ_three]
  simp only [d1, d2]
  norm_num

/-- Six points, the longest axis first. -/
noncomputable def exPts : List Pt := [![2, 0, 0], ![-2, 0, 0], ![0, 1, 0], ![0, -1, 0], ![0, 0, 1], ![0, 0, -1]]
/-- A third of a turn about (1, 1, 1). -/
noncomputable def exR : Quaternion ℝ := ⟨1/2, 1/2, 1/2, 1/2⟩
theorem exR_unit : Quaternion.normSq exR = 1 := by rw [normSq4]; norm_num [exR]

theorem orientation_ex (c : Cfg) : BoundingOrientedBox.orientationOf c (exPts.map f3) = quat exR ∨ BoundingOrientedBox.orientationOf c (exPts.map f3) = quat (-exR) := by
  have hsum : exPts.sum = 0 := by
    ext i; fin_cases i <;> simp [exPts]
  have hc : BoundingOrientedBox.centerOfMass (exPts.map f3) = vec3 0 (num 0) := by
    rw [center_real _ (by simp [exPts]) (by simp [exPts]), hsum, smul_zero]
  have hcov : BoundingOrientedBox.covariance c (vec3 0 (num 0)) (exPts.map f3) = (vec3 ![8, 2, 2] (num 0), vec3 ![0, 0, 0] (num 0)) := by
    simp [BoundingOrientedBox.covariance, exPts, load3, f3, XMVectorZero, XMVectorSubtract, XMVectorMultiply, XMVectorAdd]
    norm_num
  have hx : ∀ v : Pt, XMVectorGetX (vec3 v (num 0)) = num (v 0) := fun v => by simp
  have hy : ∀ v : Pt, XMVectorGetY c (vec3 v (num 0)) = num (v 1) := fun v => by simp
  have hz : ∀ v : Pt, XMVectorGetZ c (vec3 v (num 0)) = num (v 2) := fun v => by simp
  simp only [BoundingOrientedBox.orientationOf, hc, hcov, hx, hy, hz]
  simp only [Matrix.cons_val_zero, Matrix.cons_val_one, Matrix.cons_val]
  rw [frame_ex]
  dsimp only
  have hw : ∀ (v : Pt) (x : ℝ), XMVectorSetW c (vec3 v (num 0)) (num x) = vec3 v (num x) := fun v x => by simp
  have hA : (⟨vec3 ![0, 1, 0] (num 0), vec3 ![0, 0, 1] (num 0), vec3 ![1, 0, 0] (num 0), g_XMIdentityR3⟩ : M4 E) = mat (affine !![0, 1, 0; 0, 0, 1; 1, 0, 0] 0) := by
    simp [affine, g_XMIdentityR3]
  have hdet : XMMatrixDeterminant c (⟨vec3 ![0, 1, 0] (num 0), vec3 ![0, 0, 1] (num 0), vec3 ![1, 0, 0] (num 0), g_XMIdentityR3⟩ : M4 E) = all 1 := by
    rw [hA, XMMatrixDeterminant_mat]
    congr 1
    simp [affine, Matrix.det_succ_row_zero, Fin.sum_univ_succ, Fin.succAbove]
  have hless : XMVector4Less c (all 1) (XMVectorZero : V4 E) = false := by rw [v_zero, Bool.eq_false_iff, Ne, p_lt4]; norm_num
  simp only [BoundingOrientedBox.eigenFrame, s_c0, hw, hdet, hless, Bool.false_eq_true, if_false]
  have hn : ∀ q : Quaternion ℝ, Quaternion.normSq q = 1 → XMQuaternionNormalize c (quat q) = quat q := by
    intro q hq
    have e : Quaternion.normSq q = q.imI * q.imI + q.imJ * q.imJ + q.imK * q.imK + q.re * q.re := by rw [normSq4]; ring
    have := XMVector4Normalize_num c q.imI q.imJ q.imK q.re (by rw [← e, hq]; norm_num)
    rw [← e, hq] at this
    simp only [XMQuaternionNormalize, quat]
    rw [this]
    simp
  rcases XMQuaternionRotationMatrix_rotM c exR exR_unit ⟨vec3 ![0, 1, 0] (num 0), vec3 ![0, 0, 1] (num 0), vec3 ![1, 0, 0] (num 0), g_XMIdentityR3⟩
    ⟨num 0, by simp [rotM, exR]; norm_num⟩ ⟨num 0, by simp [rotM, exR]; norm_num⟩ ⟨num 0, by simp [rotM, exR]; norm_num⟩ with h | h
  · left; rw [h, hn _ exR_unit]
  · right; rw [h, hn _ (by rw [Quaternion.normSq_neg, exR_unit])]

theorem f3_inj {a b : Pt} (h : f3 a = f3 b) : a = b := by
  simp [f3] at h
  ext i; fin_cases i
  · exact h.1
  · exact h.2.1
  · exact h.2.2
theorem quat_inj {p q : Quaternion ℝ} (h : quat p = quat q) : p = q := by
  simp at h
  ext <;> tauto
theorem exR_irot (v : Pt) : rot (star exR) v = ![v 1, v 2, v 0] := by
  ext i
  rw [← dot_row exR_unit]
  fin_cases i <;> simp [rotM, exR, dotProduct, Fin.sum_univ_three] <;> ring

/-- C86 is false of the code: of the six points (±2,0,0), (0,±1,0), (0,0,±1), listed with (2,0,0) first, the point (-2,0,0) is not in the box. -/
theorem C86_fails (c : Cfg) : ¬ C86_claim c := by
  intro h
  obtain ⟨a, e, q, hq, h1, h2⟩ := h ⟨⟨num 0, num 0, num 0⟩, ⟨num 0, num 0, num 0⟩, ⟨num 0, num 0, num 0, num 1⟩⟩ exPts (by simp [exPts]) (by simp [exPts])
  have key : ∃ r : Quaternion ℝ, Quaternion.normSq r = 1 ∧ (∀ v, rot (star r) v = ![v 1, v 2, v 0]) ∧ BoundingOrientedBox.orientationOf c (exPts.map f3) = quat r := by
    rcases orientation_ex c with h | h
    · exact ⟨exR, exR_unit, exR_irot, h⟩
    · refine ⟨-exR, by rw [Quaternion.normSq_neg, exR_unit], fun v => ?_, h⟩
      rw [← exR_irot, show star (-exR) = -star exR by ext <;> simp, rot_neg_q]
  obtain ⟨r, hr, hrot, ho⟩ := key
  obtain ⟨a', e', m, M, k1, k2, -, -, k3, -⟩ := fromOrientation_eval c hr ![2, 0, 0] [![-2, 0, 0], ![0, 1, 0], ![0, -1, 0], ![0, 0, 1], ![0, 0, -1]]
  have heq : oboxOf a e q = oboxOf a' e' r := by
    rw [← h1, ← k1, BoundingOrientedBox.CreateFromPoints, if_neg (by simp [exPts]), ho]
    rfl
  simp only [oboxOf, BoundingOrientedBox.mk.injEq] at heq
  obtain ⟨g1, g2, g3⟩ := heq
  rw [f3_inj g1, f3_inj g2, quat_inj g3] at h2
  have hm := ((k2 ![-2, 0, 0]).1 (h2 _ (by simp [exPts])) 2).1
  have hl := k3 ![-2, -1, -1] (by rw [hrot]; intro i; fin_cases i <;> simp <;> norm_num)
    (by intro p hp i; simp only [List.mem_cons, List.not_mem_nil, or_false] at hp; rcases hp with rfl | rfl | rfl | rfl | rfl <;> fin_cases i <;> norm_num) 2
  rw [hrot] at hm
  simp at hm hl
  linarith

/-! A case in which the orientation is trivial. -/

theorem eigen_ex3 (c : Cfg) : CalculateEigenVector c (num 2) (num 0) (num 0) (num 2) (num 0) (num 2) (num 2) = vec3 ![1, 0, 0] (num 0) := by
  have hn : XMVector3Normalize c (vec3 ![1, 0, 0] (num 0)) = vec3 ![1, 0, 0] (num 0) := by
    rw [v_normalize c _ (by intro h; simpa using congrFun h 0), len_ex.2]; simp
  have hl : load3 (⟨num 0, num 0, num 0⟩ : F3 E) = vec3 0 (num 0) := by simp [load3]
  have hx : ∀ (v : Pt) (x : ℝ), XMVectorSetX c (vec3 v (num 0)) (num x) = vec3 ![x, v 1, v 2] (num 0) := fun v x => by simp
  have hy : ∀ (v : Pt) (x : ℝ), XMVectorSetY c (vec3 v (num 0)) (num x) = vec3 ![v 0, x, v 2] (num 0) := fun v x => by simp
  have hz : ∀ (v : Pt) (x : ℝ), XMVectorSetZ c (vec3 v (num 0)) (num x) = vec3 ![v 0, v 1, x] (num 0) := fun v x => by simp
  have hd : (![1, 0, 0] : Pt) ⬝ᵥ ![1, 0, 0] = 1 := by simp [dotProduct, Fin.sum_univ_three]
  have hzz : XMVector3Equal c (vec3 0 (num 0)) (vec3 0 (num 0)) = true := (v_eq3 c _ _ _ _).2 rfl
  unfold CalculateEigenVector
  simp only [mul_num, sub_num, mul_zero, sub_zero, sub_self, zero_mul, hl, v_zero3, hzz, if_true, ne, s_c0, s_c1, eq_num, hx, hy, hz]
  norm_num only
  simp only [Bool.not_true, Bool.not_false, Bool.or_true, Bool.or_false, decide_true, decide_false, Bool.false_eq_true, if_true, if_false, hx, hy, hz, div_num, eq_num, Pi.zero_apply]
  norm_num only
  simp only [decide_eq_true_eq, if_false, if_true, hx, hy, hz, Matrix.cons_val_zero, Matrix.cons_val_one, Matrix.cons_val, v_lensq, v_getx, s_x, hd, k1em5_num, gt_num, hn]
  norm_num

noncomputable def exPts2 : List Pt := [![1, 0, 0], ![-1, 0, 0], ![0, 1, 0], ![0, -1, 0], ![0, 0, 1], ![0, 0, -1]]

theorem orientation_ex2 (c : Cfg) : BoundingOrientedBox.orientationOf c (exPts2.map f3) = quat 1 ∨ BoundingOrientedBox.orientationOf c (exPts2.map f3) = quat (-1) := by
  have hsum : exPts2.sum = 0 := by
    ext i; fin_cases i <;> simp [exPts2]
  have hc : BoundingOrientedBox.centerOfMass (exPts2.map f3) = vec3 0 (num 0) := by
    rw [center_real _ (by simp [exPts2]) (by simp [exPts2]), hsum, smul_zero]
  have hcov : BoundingOrientedBox.covariance c (vec3 0 (num 0)) (exPts2.map f3) = (vec3 ![2, 2, 2] (num 0), vec3 ![0, 0, 0] (num 0)) := by
    simp [BoundingOrientedBox.covariance, exPts2, load3, f3, XMVectorZero, XMVectorSubtract, XMVectorMultiply, XMVectorAdd]
    norm_num
  have hx : ∀ v : Pt, XMVectorGetX (vec3 v (num 0)) = num (v 0) := fun v => by simp
  have hy : ∀ v : Pt, XMVectorGetY c (vec3 v (num 0)) = num (v 1) := fun v => by simp
  have hz : ∀ v : Pt, XMVectorGetZ c (vec3 v (num 0)) = num (v 2) := fun v => by simp
  have hcub : SolveCubic (num (-6) : E) (num 12) (num (-8)) = some (num 2, num 2, num 2) := by
    have d : ∀ x y : ℝ, y ≠ 0 → (Lane.div (num x) (num y) : E) = num (x / y) := fun x y h => div_num _ _ h
    have e2 : (Lane.c2 : E) = num 2 := by simp
    unfold SolveCubic
    simp only [k3_num, k4_num, k27_num, sub_num, mul_num, add_num, d _ 3 (by norm_num), d _ 4 (by norm_num), d _ 27 (by norm_num), s_c0, s_c1, e2, neg_num]
    norm_num
  have hframe : CalculateEigenVectorsFromCovarianceMatrix c (num 2) (num 2) (num 2) (num 0) (num 0) (num 0)
      = ((g_XMIdentityR0, g_XMIdentityR1, g_XMIdentityR2) : V4 E × V4 E × V4 E) := by
    have e2 : (Lane.c2 : E) = num 2 := by simp
    unfold CalculateEigenVectorsFromCovarianceMatrix
    simp only [add_num, mul_num, sub_num, neg_num, e2]
    norm_num only
    rw [hcub]
    dsimp only
    unfold CalculateEigenVectors
    have d2 : (![1, 0, 0] : Pt) ⬝ᵥ ![1, 0, 0] = 1 := by simp [dotProduct, Fin.sum_univ_three]
    simp only [eigen_ex3, v_dot, v_getx, s_x, k01_num, abs_num, gt_num, d2]
    norm_num
  simp only [BoundingOrientedBox.orientationOf, hc, hcov, hx, hy, hz]
  simp only [Matrix.cons_val_zero, Matrix.cons_val_one, Matrix.cons_val]
  rw [hframe]
  dsimp only
  have r0 : (g_XMIdentityR0 : V4 E) = vec3 ![1, 0, 0] (num 0) := by simp [g_XMIdentityR0]
  have r1 : (g_XMIdentityR1 : V4 E) = vec3 ![0, 1, 0] (num 0) := by simp [g_XMIdentityR1]
  have r2 : (g_XMIdentityR2 : V4 E) = vec3 ![0, 0, 1] (num 0) := by simp [g_XMIdentityR2]
  have hw : ∀ (v : Pt) (x : ℝ), XMVectorSetW c (vec3 v (num 0)) (num x) = vec3 v (num x) := fun v x => by simp
  have hA : (⟨vec3 ![1, 0, 0] (num 0), vec3 ![0, 1, 0] (num 0), vec3 ![0, 0, 1] (num 0), g_XMIdentityR3⟩ : M4 E) = mat 1 := by
    simp [g_XMIdentityR3]
  have hdet : XMMatrixDeterminant c (⟨vec3 ![1, 0, 0] (num 0), vec3 ![0, 1, 0] (num 0), vec3 ![0, 0, 1] (num 0), g_XMIdentityR3⟩ : M4 E) = all 1 := by
    rw [hA, XMMatrixDeterminant_mat, Matrix.det_one]
  have hless : XMVector4Less c (all 1) (XMVectorZero : V4 E) = false := by rw [v_zero, Bool.eq_false_iff, Ne, p_lt4]; norm_num
  simp only [BoundingOrientedBox.eigenFrame, s_c0, r0, r1, r2, hw, hdet, hless, Bool.false_eq_true, if_false]
  have hn : ∀ q : Quaternion ℝ, Quaternion.normSq q = 1 → XMQuaternionNormalize c (quat q) = quat q := by
    intro q hq
    have e : Quaternion.normSq q = q.imI * q.imI + q.imJ * q.imJ + q.imK * q.imK + q.re * q.re := by rw [normSq4]; ring
    have := XMVector4Normalize_num c q.imI q.imJ q.imK q.re (by rw [← e, hq]; norm_num)
    rw [← e, hq] at this
    simp only [XMQuaternionNormalize, quat]
    rw [this]
    simp
  have h1 : Quaternion.normSq (1 : Quaternion ℝ) = 1 := by simp
  have e1 : QuaternionAlgebra.imI (1 : Quaternion ℝ) = 0 := Quaternion.imI_one
  have e2 : QuaternionAlgebra.imJ (1 : Quaternion ℝ) = 0 := Quaternion.imJ_one
  have e3 : QuaternionAlgebra.imK (1 : Quaternion ℝ) = 0 := Quaternion.imK_one
  have e4 : QuaternionAlgebra.re (1 : Quaternion ℝ) = 1 := Quaternion.re_one
  rcases XMQuaternionRotationMatrix_rotM c 1 h1 ⟨vec3 ![1, 0, 0] (num 0), vec3 ![0, 1, 0] (num 0), vec3 ![0, 0, 1] (num 0), g_XMIdentityR3⟩
    ⟨num 0, by simp [rotM, e1, e2, e3, e4]⟩ ⟨num 0, by simp [rotM, e1, e2, e3, e4]⟩ ⟨num 0, by simp [rotM, e1, e2, e3, e4]⟩ with h | h
  · left; rw [h, hn _ h1]
  · right; rw [h, hn _ (by rw [Quaternion.normSq_neg, h1])]

/-- For the six unit points on the axes the orientation is trivial and the box contains them all. -/
example (c : Cfg) (Out : BoundingOrientedBox E) : ∃ a e q, Quaternion.normSq q = 1 ∧ BoundingOrientedBox.CreateFromPoints c Out (exPts2.map f3) = oboxOf a e q ∧
    ∀ p ∈ exPts2, p ∈ obox a e q := by
  obtain ⟨a, e, q, hq, h1, -, h2⟩ := C86_fromPoints_partial c Out ![1, 0, 0] [![-1, 0, 0], ![0, 1, 0], ![0, -1, 0], ![0, 0, 1], ![0, 0, -1]] (by simp)
  refine ⟨a, e, q, hq, h1, h2 ?_⟩
  have ho : (BoundingOrientedBox.CreateFromPoints c Out (exPts2.map f3)).Orientation = BoundingOrientedBox.orientationOf c (exPts2.map f3) := by
    rw [BoundingOrientedBox.CreateFromPoints, if_neg (by simp [exPts2])]; rfl
  have hq' : quat q = BoundingOrientedBox.orientationOf c (exPts2.map f3) := by rw [← ho]; exact (congrArg BoundingOrientedBox.Orientation h1).symm
  rcases orientation_ex2 c with h | h
  · rw [h] at hq'; rw [quat_inj hq']; exact rot_one
  · rw [h] at hq'; rw [quat_inj hq']; intro v; rw [rot_neg_q]; exact rot_one v

end DXM.Props
