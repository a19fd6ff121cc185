import Verif.Props.CollisionFrustumSat
import Verif.Props.CollisionOBB
import Verif.Lemmas.Nearest

/-
C87: transforming volumes.
-/

set_option linter.all false

namespace DXM.Props
open DXM.E DXM.Spec DXM.RG DXM.Geo Matrix Classical

/-- An affine function on a box is bounded by its values at the corners. -/
theorem affine_box (a e g : Pt) (x d : ℝ) (he : ∀ i, 0 ≤ e i) (h : ∀ s ∈ signs, g ⬝ᵥ (a + e * s) + x ≤ d) {p : Pt} (hp : p ∈ box a e) : g ⬝ᵥ p + x ≤ d := by
  refine le_trans ?_ (h (fun i => if 0 ≤ g i then 1 else -1) (mem_signs.2 fun i => by split_ifs <;> simp))
  simp only [dotProduct, Fin.sum_univ_three, Pi.add_apply, Pi.mul_apply]
  have k : ∀ i, g i * p i ≤ g i * (a i + e i * if 0 ≤ g i then 1 else -1) := by
    intro i
    have := abs_le.1 (hp i)
    split_ifs with hg
    · exact mul_le_mul_of_nonneg_left (by linarith) hg
    · exact mul_le_mul_of_nonpos_left (by linarith) (not_le.1 hg).le
  linarith [k 0, k 1, k 2]

theorem corner_mem (a e s : Pt) (he : ∀ i, 0 ≤ e i) (hs : s ∈ signs) : a + e * s ∈ box a e := by
  intro i
  rcases mem_signs.1 hs i with h | h <;> simp [h, abs_of_nonneg (he i)]

/-- The loop over the corners for an affine map with linear part `A`. -/
theorem ofCorners_eval (c : Cfg) (corner : V4 E → V4 E) (a e : Pt) (he : ∀ i, 0 ≤ e i) (A : Matrix (Fin 3) (Fin 3) ℝ) (t : Pt) (k : Pt → E)
    (hc : ∀ s : Pt, corner (vec3 s (num 0)) = vec3 ((a + e * s) ᵥ* A + t) (k s)) :
    ∃ a' e', BoundingBox.ofCorners c corner = boxOf a' e' ∧ (∀ p ∈ box a e, p ᵥ* A + t ∈ box a' e') ∧
      ∀ b f, (∀ p ∈ box a e, p ᵥ* A + t ∈ box b f) → box a' e' ⊆ box b f := by
  obtain ⟨mn, mx, x, y, h1, h2, h3⟩ := minMax_v' corner (fun s => (a + e * s) ᵥ* A + t) (num 0) k signs (by simp [signs]) hc
  have hof : BoundingBox.ofCorners c corner = boxOf ((1/2 : ℝ) • (mn + mx)) ((1/2 : ℝ) • (mx - mn)) := by
    rw [← mid_box c mn mx x y]
    have : BoundingFrustum.minMaxOf corner g_BoxOffset = (vec3 mn x, vec3 mx y) := by rw [← h1, offset_signs]
    have h' : g_BoxOffset1.foldl (fun (m : V4 E × V4 E) o => (XMVectorMin m.1 (corner o), XMVectorMax m.2 (corner o))) (corner g_BoxOffset0, corner g_BoxOffset0)
      = (vec3 mn x, vec3 mx y) := this
    unfold BoundingBox.ofCorners
    simp only [h']
  have hmn : ∀ i, ∀ d : ℝ, d ≤ mn i ↔ ∀ s ∈ signs, d ≤ ((a + e * s) ᵥ* A + t) i := by
    intro i d
    constructor
    · intro h s hs
      by_contra hcon
      have := (h2 i (((a + e * s) ᵥ* A + t) i)).1 (lt_of_lt_of_le (not_le.1 hcon) h) s hs
      exact lt_irrefl _ this
    · intro h
      by_contra hcon
      obtain ⟨z, hz1, hz2⟩ := exists_between (not_le.1 hcon)
      exact lt_irrefl _ (hz1.trans ((h2 i z).2 fun s hs => hz2.trans_le (h s hs)))
  have hmx : ∀ i, ∀ d : ℝ, mx i ≤ d ↔ ∀ s ∈ signs, ((a + e * s) ᵥ* A + t) i ≤ d := by
    intro i d
    constructor
    · intro h s hs
      by_contra hcon
      have := (h3 i (((a + e * s) ᵥ* A + t) i)).1 (lt_of_le_of_lt h (not_le.1 hcon)) s hs
      exact lt_irrefl _ this
    · intro h
      by_contra hcon
      obtain ⟨z, hz1, hz2⟩ := exists_between (not_le.1 hcon)
      exact lt_irrefl _ (((h3 i z).2 fun s hs => (h s hs).trans_lt hz1).trans hz2)
  have hi : ∀ p : Pt, ∀ i, (p ᵥ* A + t) i = (fun j => A j i) ⬝ᵥ p + t i := by
    intro p i
    rw [Pi.add_apply, dotProduct_comm]; rfl
  refine ⟨_, _, hof, ?_, ?_⟩
  · intro p hp
    rw [mem_mid]
    intro i
    constructor
    · have := affine_box a e (-fun j => A j i) (-t i) (-mn i) he (fun s hs => by
        have := (hmn i (mn i)).1 le_rfl s hs
        rw [hi] at this; rw [neg_dotProduct]; linarith) hp
      rw [hi]; rw [neg_dotProduct] at this; linarith
    · rw [hi]
      exact affine_box a e _ _ _ he (fun s hs => by rw [← hi]; exact (hmx i (mx i)).1 le_rfl s hs) hp
  · intro b f h p hp
    rw [mem_mid] at hp
    rw [mem_box]
    intro i
    have k := fun s hs => mem_box.1 (h _ (corner_mem a e s he hs)) i
    exact ⟨((hmn i _).2 fun s hs => (k s hs).1).trans (hp i).1, (hp i).2.trans ((hmx i _).2 fun s hs => (k s hs).2)⟩

theorem v_transform_affine (c : Cfg) (v t : Pt) (w : E) (A : Matrix (Fin 3) (Fin 3) ℝ) :
    XMVector3Transform c (vec3 v w) (mat (affine A t)) = vec3 (v ᵥ* A + t) (num 1) := by
  rw [v_transform]
  have : (fun j : Fin 3 => v 0 * affine A t 0 j.castSucc + v 1 * affine A t 1 j.castSucc + v 2 * affine A t 2 j.castSucc + affine A t 3 j.castSucc) = v ᵥ* A + t := by
    ext j; fin_cases j <;> simp [affine, vecMul, dotProduct, Fin.sum_univ_three]
  rw [this]
  congr 2
  simp [affine]

/-- The transformed box contains the image of every point of the box, and is the smallest box that does. -/
theorem C87_box (c : Cfg) (a e t : Pt) (A : Matrix (Fin 3) (Fin 3) ℝ) (he : ∀ i, 0 ≤ e i) :
    ∃ a' e', BoundingBox.TransformMatrix c (boxOf a e) (mat (affine A t)) = boxOf a' e' ∧ (∀ p ∈ box a e, p ᵥ* A + t ∈ box a' e') ∧
      ∀ b f, (∀ p ∈ box a e, p ᵥ* A + t ∈ box b f) → box a' e' ⊆ box b f := by
  refine ofCorners_eval c _ a e he A t (fun _ => num 1) fun s => ?_
  simp only [boxOf, v_load3, v_muladd, v_transform_affine]
  rw [add_comm (e * s)]

/-- The same for a transform given as scale, rotation and translation. -/
theorem C87_boxDecomposed (c : Cfg) (a e t : Pt) (s : ℝ) (q : Quaternion ℝ) (w : E) (hq : Quaternion.normSq q = 1) (he : ∀ i, 0 ≤ e i) :
    ∃ a' e', BoundingBox.TransformDecomposed c (boxOf a e) (num s) (quat q) (vec3 t w) = boxOf a' e' ∧ (∀ p ∈ box a e, rot q (s • p) + t ∈ box a' e') ∧
      ∀ b f, (∀ p ∈ box a e, rot q (s • p) + t ∈ box b f) → box a' e' ⊆ box b f := by
  have h : ∀ p : Pt, rot q (s • p) + t = p ᵥ* (s • rotM q) + t := by
    intro p; rw [rot_eq hq, smul_vecMul, vecMul_smul]
  simp only [h]
  refine ofCorners_eval c _ a e he _ t (fun _ => Lane.add (num 0) w) fun u => ?_
  simp only [boxOf]
  geo
  rw [← h, add_comm (e * u)]

/-- Spheres: scale, rotation and translation map exactly the members to members. -/
theorem C87_sphereDecomposed (c : Cfg) (a t : Pt) (r s : ℝ) (q : Quaternion ℝ) (w : E) (hq : Quaternion.normSq q = 1) (hs : 0 < s) :
    ∃ a' r', BoundingSphere.TransformDecomposed c (sphereOf a r) (num s) (quat q) (vec3 t w) = sphereOf a' r' ∧
      ∀ p, rot q (s • p) + t ∈ ball a' r' ↔ p ∈ ball a r := by
  refine ⟨rot q (s • a) + t, r * s, ?_, ?_⟩
  · simp only [BoundingSphere.TransformDecomposed, sphereOf]; geo
  · intro p
    rw [mem_ball, mem_ball, show rot q (s • p) + t - (rot q (s • a) + t) = rot q (s • p) - rot q (s • a) by abel, ← rot_sub hq, rot_len hq, ← smul_sub,
      Spec.len_smul, abs_of_pos hs, mul_comm r, mul_le_mul_iff_right₀ hs]
/-- Spheres under a matrix whose rows are orthogonal (rotation with scale along the axes, and translation): members go to members. -/
theorem C87_sphere (c : Cfg) (a t : Pt) (r : ℝ) (A : Matrix (Fin 3) (Fin 3) ℝ) (hr : 0 ≤ r) (hA : ∀ i j, i ≠ j → A i ⬝ᵥ A j = 0) :
    ∃ a' r', BoundingSphere.TransformMatrix c (sphereOf a r) (mat (affine A t)) = sphereOf a' r' ∧ a' = a ᵥ* A + t ∧ 0 ≤ r' ∧
      (∀ p ∈ ball a r, p ᵥ* A + t ∈ ball a' r') ∧ ∀ ρ, (∀ p ∈ ball a r, p ᵥ* A + t ∈ ball a' ρ) → 0 < r → r' ≤ ρ := by
  set m := max (A 0 ⬝ᵥ A 0) (max (A 1 ⬝ᵥ A 1) (A 2 ⬝ᵥ A 2)) with hm
  have hm0 : 0 ≤ m := (RG.dot_self_nonneg (A 0)).trans (le_max_left ..)
  have hrow : ∀ i, A i ⬝ᵥ A i ≤ m := by
    intro i; fin_cases i
    · exact le_max_left ..
    · exact (le_max_left ..).trans (le_max_right ..)
    · exact (le_max_right ..).trans (le_max_right ..)
  have hdot : ∀ u : Pt, (u ᵥ* A) ⬝ᵥ (u ᵥ* A) = u 0 * u 0 * (A 0 ⬝ᵥ A 0) + u 1 * u 1 * (A 1 ⬝ᵥ A 1) + u 2 * u 2 * (A 2 ⬝ᵥ A 2) := by
    intro u
    have e : u ᵥ* A = u 0 • A 0 + u 1 • A 1 + u 2 • A 2 := by
      ext j; simp [vecMul, dotProduct, Fin.sum_univ_three]
    rw [e]
    simp only [add_dotProduct, dotProduct_add, smul_dotProduct, dotProduct_smul, smul_eq_mul]
    rw [hA 0 1 (by decide), hA 0 2 (by decide), hA 1 0 (by decide), hA 1 2 (by decide), hA 2 0 (by decide), hA 2 1 (by decide)]
    ring
  refine ⟨a ᵥ* A + t, r * √m, ?_, rfl, mul_nonneg hr (Real.sqrt_nonneg _), ?_, ?_⟩
  · have h0 : (mat (affine A t)).r0 = vec3 (A 0) (num 0) := by simp [affine]
    have h1 : (mat (affine A t)).r1 = vec3 (A 1) (num 0) := by simp [affine]
    have h2 : (mat (affine A t)).r2 = vec3 (A 2) (num 0) := by simp [affine]
    simp only [BoundingSphere.TransformMatrix, sphereOf, v_load3, v_transform_affine, h0, h1, h2]
    geo
    rw [← hm, sqrt_num _ hm0]; geo
  · intro p hp
    rw [mem_ball, show p ᵥ* A + t - (a ᵥ* A + t) = (p - a) ᵥ* A by rw [sub_vecMul]; abel,
      len_le_iff (mul_nonneg hr (Real.sqrt_nonneg _)), hdot]
    rw [mem_ball, len_le_iff hr] at hp
    rw [show r * √m * (r * √m) = r * r * (√m * √m) by ring, Real.mul_self_sqrt hm0]
    set u := p - a
    have k : ∀ i, u i * u i * (A i ⬝ᵥ A i) ≤ u i * u i * m := fun i => mul_le_mul_of_nonneg_left (hrow i) (mul_self_nonneg _)
    have e : u ⬝ᵥ u = u 0 * u 0 + u 1 * u 1 + u 2 * u 2 := by simp [dotProduct, Fin.sum_univ_three]
    rw [e] at hp
    calc _ ≤ (u 0 * u 0 + u 1 * u 1 + u 2 * u 2) * m := by linarith [k 0, k 1, k 2]
      _ ≤ _ := mul_le_mul_of_nonneg_right hp hm0
  · intro ρ h hr0
    obtain ⟨i, hi⟩ : ∃ i, A i ⬝ᵥ A i = m := by
      rcases max_choice (A 0 ⬝ᵥ A 0) (max (A 1 ⬝ᵥ A 1) (A 2 ⬝ᵥ A 2)) with h | h
      · exact ⟨0, by rw [hm, h]⟩
      · rcases max_choice (A 1 ⬝ᵥ A 1) (A 2 ⬝ᵥ A 2) with h' | h'
        · exact ⟨1, by rw [hm, h, h']⟩
        · exact ⟨2, by rw [hm, h, h']⟩
    have hl : len (Pi.single i (1:ℝ) : Pt) = 1 := by
      unfold len; rw [single_one_dotProduct]; simp
    have := h (a + r • Pi.single i 1) (by rw [mem_ball, add_sub_cancel_left, Spec.len_smul, hl, abs_of_nonneg hr, mul_one])
    rw [mem_ball, show (a + r • Pi.single i 1) ᵥ* A + t - (a ᵥ* A + t) = r • A i by rw [add_vecMul, smul_vecMul, single_one_vecMul]; abel,
      Spec.len_smul, abs_of_nonneg hr] at this
    rwa [show len (A i) = √m by unfold len; rw [hi]] at this

/-- Without orthogonal rows the result can miss images: a shear. -/
theorem C87_sphere_shear_fails (c : Cfg) :
    ∃ (A : Matrix (Fin 3) (Fin 3) ℝ) (r : ℝ), BoundingSphere.TransformMatrix c (sphereOf 0 1) (mat (affine A 0)) = sphereOf 0 r ∧
      ∃ p ∈ ball 0 1, p ᵥ* A + 0 ∉ ball 0 r := by
  set A : Matrix (Fin 3) (Fin 3) ℝ := !![1, 0, 0; 1, 1, 0; 0, 0, 1]
  have h0 : (mat (affine A 0)).r0 = vec3 (A 0) (num 0) := by simp [affine]
  have h1 : (mat (affine A 0)).r1 = vec3 (A 1) (num 0) := by simp [affine]
  have h2 : (mat (affine A 0)).r2 = vec3 (A 2) (num 0) := by simp [affine]
  refine ⟨A, √2, ?_, ![3/5, 4/5, 0], ?_, ?_⟩
  · simp only [BoundingSphere.TransformMatrix, sphereOf, v_load3, v_transform_affine, h0, h1, h2]
    geo
    have : max (A 0 ⬝ᵥ A 0) (max (A 1 ⬝ᵥ A 1) (A 2 ⬝ᵥ A 2)) = 2 := by
      simp [A, dotProduct, Fin.sum_univ_three]; norm_num
    rw [this, sqrt_num _ (by norm_num)]; geo
    simp
  · rw [mem_ball, len_le_iff (by norm_num)]; norm_num
  · rw [mem_ball, len_le_iff (Real.sqrt_nonneg _), Real.mul_self_sqrt (by norm_num)]
    simp [A, vecMul, dotProduct, Fin.sum_univ_three]; norm_num

theorem obox_image {a e t p : Pt} {s : ℝ} {q Q : Quaternion ℝ} (hq : Quaternion.normSq q = 1) (hQ : Quaternion.normSq Q = 1) (hs : 0 < s) :
    rot Q (s • p) + t ∈ obox (rot Q (s • a) + t) (s • e) (Q * q) ↔ p ∈ obox a e q := by
  have hn : Quaternion.normSq (Q * q) = 1 := by rw [map_mul, hQ, hq, one_mul]
  rw [mem_obox' hn, mem_obox' hq, show rot Q (s • p) + t - (rot Q (s • a) + t) = rot Q (s • p) - rot Q (s • a) by abel, ← rot_sub hQ, ← smul_sub, star_mul,
    rot_mul (nstar hQ) (nstar hq), rot_star_rot hQ, rot_smul (nstar hq)]
  refine forall_congr' fun i => ?_
  rw [Pi.smul_apply, Pi.smul_apply, smul_eq_mul, smul_eq_mul, abs_mul, abs_of_pos hs, mul_le_mul_iff_right₀ hs]

/-- Oriented boxes: scale, rotation and translation commute with membership. -/
theorem C87_orientedBoxDecomposed (c : Cfg) (a e t : Pt) (s : ℝ) (q Q : Quaternion ℝ) (w : E) (hq : Quaternion.normSq q = 1) (hQ : Quaternion.normSq Q = 1)
    (hs : 0 < s) :
    ∃ a' e' q', BoundingOrientedBox.TransformDecomposed c (oboxOf a e q) (num s) (quat Q) (vec3 t w) = oboxOf a' e' q' ∧ Quaternion.normSq q' = 1 ∧
      ∀ p, rot Q (s • p) + t ∈ obox a' e' q' ↔ p ∈ obox a e q := by
  refine ⟨rot Q (s • a) + t, s • e, Q * q, ?_, by rw [map_mul, hQ, hq, one_mul], fun p => obox_image hq hQ hs⟩
  simp only [BoundingOrientedBox.TransformDecomposed, oboxOf, XMQuaternionMultiply_quat]; geo

theorem frustum_image {o t p : Pt} {s r l tp b n f : ℝ} {q Q : Quaternion ℝ} (hq : Quaternion.normSq q = 1) (hQ : Quaternion.normSq Q = 1) (hs : 0 < s) :
    rot Q (s • p) + t ∈ frustum (rot Q (s • o) + t) (Q * q) r l tp b (n * s) (f * s) ↔ p ∈ frustum o q r l tp b n f := by
  have hn : Quaternion.normSq (Q * q) = 1 := by rw [map_mul, hQ, hq, one_mul]
  rw [mem_frustum hn, mem_frustum hq, show rot Q (s • p) + t - (rot Q (s • o) + t) = rot Q (s • p) - rot Q (s • o) by abel, ← rot_sub hQ, ← smul_sub, star_mul,
    rot_mul (nstar hQ) (nstar hq), rot_star_rot hQ, rot_smul (nstar hq)]
  generalize rot (star q) (p - o) = u
  unfold frustum0
  simp only [Set.mem_setOf_eq, Pi.smul_apply, smul_eq_mul]
  have k : ∀ x y : ℝ, x * s ≤ s * y ↔ x ≤ y := by intro x y; rw [mul_comm x, mul_le_mul_iff_right₀ hs]
  have k' : ∀ x y : ℝ, s * x ≤ y * s ↔ x ≤ y := by intro x y; rw [mul_comm y, mul_le_mul_iff_right₀ hs]
  have k1 : ∀ x y z : ℝ, x * (s * y) ≤ s * z ↔ x * y ≤ z := by intro x y z; rw [mul_left_comm, mul_le_mul_iff_right₀ hs]
  have k2 : ∀ x y z : ℝ, s * z ≤ x * (s * y) ↔ z ≤ x * y := by intro x y z; rw [mul_left_comm, mul_le_mul_iff_right₀ hs]
  rw [k, k', k1, k2, k1, k2]

/-- Frusta: scale, rotation and translation commute with membership. -/
theorem C87_frustumDecomposed (c : Cfg) (o t : Pt) (s r l tp b n f : ℝ) (q Q : Quaternion ℝ) (w : E) (hq : Quaternion.normSq q = 1)
    (hQ : Quaternion.normSq Q = 1) (hs : 0 < s) :
    ∃ o' q' n' f', BoundingFrustum.TransformDecomposed c (frustumOf o q r l tp b n f) (num s) (quat Q) (vec3 t w) = frustumOf o' q' r l tp b n' f' ∧
      Quaternion.normSq q' = 1 ∧ ∀ p, rot Q (s • p) + t ∈ frustum o' q' r l tp b n' f' ↔ p ∈ frustum o q r l tp b n f := by
  refine ⟨rot Q (s • o) + t, Q * q, n * s, f * s, ?_, by rw [map_mul, hQ, hq, one_mul], fun p => frustum_image hq hQ hs⟩
  simp only [BoundingFrustum.TransformDecomposed, fr_o, fr_q, fr_r, fr_l, fr_t, fr_b, fr_n, fr_f, XMQuaternionMultiply_quat]; geo
  rfl

theorem nneg_mul (p q : Quaternion ℝ) : -p * q = -(p * q) := by
  ext <;> simp <;> ring
theorem rot_neg_q (q : Quaternion ℝ) (u : Pt) : rot (-q) u = rot q u := by
  have h : -q * pureQ u * star (-q) = q * pureQ u * star q := by ext <;> simp <;> ring
  unfold rot; rw [h]
theorem obox_neg (a e : Pt) (q : Quaternion ℝ) : obox a e (-q) = obox a e q := by
  have : ∀ u, rot (-q) u = rot q u := rot_neg_q q
  unfold obox; simp only [this]
theorem frustum_neg (o : Pt) (q : Quaternion ℝ) (r l t b n f : ℝ) : frustum o (-q) r l t b n f = frustum o q r l t b n f := by
  have : ∀ u, rot (-q) u = rot q u := rot_neg_q q
  unfold frustum; simp only [this]

/-- The quaternion extracted from the normalised rows of `s·R`. -/
theorem matrix_rot (c : Cfg) (t : Pt) (s : ℝ) (Q : Quaternion ℝ) (hQ : Quaternion.normSq Q = 1) (hs : 0 < s) :
    ∃ Q', (Q' = Q ∨ Q' = -Q) ∧ XMQuaternionRotationMatrix c ⟨XMVector3Normalize c (mat (affine (s • rotM Q) t)).r0, XMVector3Normalize c (mat (affine (s • rotM Q) t)).r1,
      XMVector3Normalize c (mat (affine (s • rotM Q) t)).r2, g_XMIdentityR3⟩ = quat Q' := by
  have hl : ∀ i, len (rotM Q i) = 1 := by
    intro i; rw [row_eq hQ, rot_len hQ]; unfold len; rw [single_one_dotProduct]; simp
  have hne : ∀ i, s • rotM Q i ≠ 0 := by
    intro i h
    have := congrArg len h
    rw [Spec.len_smul, hl, abs_of_pos hs, mul_one] at this
    rw [this] at hs; simp [len] at hs
  have hz : ∀ i, Is3 (XMVector3Normalize c (vec3 (s • rotM Q i) (num 0))) (rotM Q i) := by
    intro i
    rw [v_normalize c _ (hne i), Spec.len_smul, hl, abs_of_pos hs, mul_one, smul_smul, inv_mul_cancel₀ hs.ne', one_smul]
    exact ⟨_, rfl⟩
  have h0 : (mat (affine (s • rotM Q) t)).r0 = vec3 (s • rotM Q 0) (num 0) := by simp [affine]
  have h1 : (mat (affine (s • rotM Q) t)).r1 = vec3 (s • rotM Q 1) (num 0) := by simp [affine]
  have h2 : (mat (affine (s • rotM Q) t)).r2 = vec3 (s • rotM Q 2) (num 0) := by simp [affine]
  rw [h0, h1, h2]
  rcases XMQuaternionRotationMatrix_rotM c Q hQ ⟨XMVector3Normalize c (vec3 (s • rotM Q 0) (num 0)), XMVector3Normalize c (vec3 (s • rotM Q 1) (num 0)),
      XMVector3Normalize c (vec3 (s • rotM Q 2) (num 0)), g_XMIdentityR3⟩ (hz 0) (hz 1) (hz 2) with h | h
  · exact ⟨Q, Or.inl rfl, h⟩
  · exact ⟨-Q, Or.inr rfl, h⟩
theorem smul_rot (s : ℝ) (Q : Quaternion ℝ) (hQ : Quaternion.normSq Q = 1) (p t : Pt) : p ᵥ* (s • rotM Q) + t = rot Q (s • p) + t := by
  rw [rot_eq hQ, smul_vecMul, vecMul_smul]
theorem row_len (s : ℝ) (Q : Quaternion ℝ) (hQ : Quaternion.normSq Q = 1) (i : Fin 3) : (s • rotM Q i) ⬝ᵥ (s • rotM Q i) = s * s := by
  rw [row_eq hQ, ← rot_smul hQ, rot_dot hQ, smul_dotProduct, dotProduct_smul, single_one_dotProduct]; simp

/-- Oriented boxes under the matrix of a uniform scale, rotation and translation. -/
theorem C87_orientedBox (c : Cfg) (a e t : Pt) (s : ℝ) (q Q : Quaternion ℝ) (hq : Quaternion.normSq q = 1) (hQ : Quaternion.normSq Q = 1) (hs : 0 < s) :
    ∃ a' e' q', BoundingOrientedBox.TransformMatrix c (oboxOf a e q) (mat (affine (s • rotM Q) t)) = oboxOf a' e' q' ∧ Quaternion.normSq q' = 1 ∧
      ∀ p, p ᵥ* (s • rotM Q) + t ∈ obox a' e' q' ↔ p ∈ obox a e q := by
  obtain ⟨Q', hQ', hm⟩ := matrix_rot c t s Q hQ hs
  have hn : Quaternion.normSq Q' = 1 := by rcases hQ' with rfl | rfl <;> simp [hQ]
  have hl : ∀ i, len (s • rotM Q i) = s := by
    intro i; unfold len; rw [row_len s Q hQ, Real.sqrt_mul_self hs.le]
  have h0 : (mat (affine (s • rotM Q) t)).r0 = vec3 (s • rotM Q 0) (num 0) := by simp [affine]
  have h1 : (mat (affine (s • rotM Q) t)).r1 = vec3 (s • rotM Q 1) (num 0) := by simp [affine]
  have h2 : (mat (affine (s • rotM Q) t)).r2 = vec3 (s • rotM Q 2) (num 0) := by simp [affine]
  refine ⟨rot Q (s • a) + t, s • e, Q' * q, ?_, by rw [map_mul, hn, hq, one_mul], ?_⟩
  · simp only [BoundingOrientedBox.TransformMatrix, oboxOf, v_load3, v_transform_affine, hm, XMQuaternionMultiply_quat, smul_rot s Q hQ]
    simp only [h0, h1, h2, v_len, hl]
    have : XMVectorSelect (all s) (XMVectorSelect (all s) (all s) g_XMSelect1000) g_XMSelect1100 = all s := by simp [XMVectorSelect]
    rw [this]; geo
  · intro p
    rw [smul_rot s Q hQ]
    rcases hQ' with rfl | rfl
    · exact obox_image hq hQ hs
    · rw [nneg_mul, obox_neg]; exact obox_image hq hQ hs

/-- The quaternion extracted from the normalised rows of a scale along the axes followed by a rotation. -/
theorem matrix_rot_axes (c : Cfg) (t d : Pt) (Q : Quaternion ℝ) (hQ : Quaternion.normSq Q = 1) (hd : ∀ i, 0 < d i) :
    ∃ Q', (Q' = Q ∨ Q' = -Q) ∧ XMQuaternionRotationMatrix c ⟨XMVector3Normalize c (mat (affine (diagonal d * rotM Q) t)).r0, XMVector3Normalize c (mat (affine (diagonal d * rotM Q) t)).r1,
      XMVector3Normalize c (mat (affine (diagonal d * rotM Q) t)).r2, g_XMIdentityR3⟩ = quat Q' := by
  have hl : ∀ i, len (rotM Q i) = 1 := by
    intro i; rw [row_eq hQ, rot_len hQ]; unfold len; rw [single_one_dotProduct]; simp
  have hne : ∀ i, d i • rotM Q i ≠ 0 := by
    intro i h
    have := congrArg len h
    rw [Spec.len_smul, hl, abs_of_pos (hd i), mul_one] at this
    have h2 := hd i
    rw [this] at h2; simp [len] at h2
  have hz : ∀ i, Is3 (XMVector3Normalize c (vec3 (d i • rotM Q i) (num 0))) (rotM Q i) := by
    intro i
    rw [v_normalize c _ (hne i), Spec.len_smul, hl, abs_of_pos (hd i), mul_one, smul_smul, inv_mul_cancel₀ (hd i).ne', one_smul]
    exact ⟨_, rfl⟩
  have h0 : (mat (affine (diagonal d * rotM Q) t)).r0 = vec3 (d 0 • rotM Q 0) (num 0) := by simp [affine]
  have h1 : (mat (affine (diagonal d * rotM Q) t)).r1 = vec3 (d 1 • rotM Q 1) (num 0) := by simp [affine]
  have h2 : (mat (affine (diagonal d * rotM Q) t)).r2 = vec3 (d 2 • rotM Q 2) (num 0) := by simp [affine]
  rw [h0, h1, h2]
  rcases XMQuaternionRotationMatrix_rotM c Q hQ ⟨XMVector3Normalize c (vec3 (d 0 • rotM Q 0) (num 0)), XMVector3Normalize c (vec3 (d 1 • rotM Q 1) (num 0)),
      XMVector3Normalize c (vec3 (d 2 • rotM Q 2) (num 0)), g_XMIdentityR3⟩ (hz 0) (hz 1) (hz 2) with h | h
  · exact ⟨Q, Or.inl rfl, h⟩
  · exact ⟨-Q, Or.inr rfl, h⟩

theorem diag_rot (d : Pt) (Q : Quaternion ℝ) (hQ : Quaternion.normSq Q = 1) (p : Pt) : p ᵥ* (diagonal d * rotM Q) = rot Q (d * p) := by
  rw [rot_eq hQ, ← vecMul_vecMul]; congr 1; ext i; rw [vecMul_diagonal]; simp [mul_comm]

/-- Oriented boxes whose axes are the coordinate axes, under a separate scale along each axis, a rotation and a translation. -/
theorem C87_orientedBoxAxes (c : Cfg) (a e t d : Pt) (Q : Quaternion ℝ) (hQ : Quaternion.normSq Q = 1) (hd : ∀ i, 0 < d i) :
    ∃ a' e' q', BoundingOrientedBox.TransformMatrix c (oboxOf a e 1) (mat (affine (diagonal d * rotM Q) t)) = oboxOf a' e' q' ∧ Quaternion.normSq q' = 1 ∧
      ∀ p, p ᵥ* (diagonal d * rotM Q) + t ∈ obox a' e' q' ↔ p ∈ obox a e 1 := by
  obtain ⟨Q', hQ', hm⟩ := matrix_rot_axes c t d Q hQ hd
  have hn : Quaternion.normSq Q' = 1 := by rcases hQ' with rfl | rfl <;> simp [hQ]
  have hl : ∀ i, len (d i • rotM Q i) = d i := by
    intro i; unfold len; rw [row_len (d i) Q hQ, Real.sqrt_mul_self (hd i).le]
  have h0 : (mat (affine (diagonal d * rotM Q) t)).r0 = vec3 (d 0 • rotM Q 0) (num 0) := by simp [affine]
  have h1 : (mat (affine (diagonal d * rotM Q) t)).r1 = vec3 (d 1 • rotM Q 1) (num 0) := by simp [affine]
  have h2 : (mat (affine (diagonal d * rotM Q) t)).r2 = vec3 (d 2 • rotM Q 2) (num 0) := by simp [affine]
  have hq1 : Quaternion.normSq (1 : Quaternion ℝ) = 1 := by simp
  refine ⟨rot Q (d * a) + t, d * e, Q' * 1, ?_, by rw [mul_one, hn], ?_⟩
  · simp only [BoundingOrientedBox.TransformMatrix, oboxOf, v_load3, v_transform_affine, hm, XMQuaternionMultiply_quat, diag_rot d Q hQ]
    simp only [h0, h1, h2, v_len, hl]
    have : XMVectorSelect (all (d 2)) (XMVectorSelect (all (d 1)) (all (d 0)) g_XMSelect1000) g_XMSelect1100 = vec3 d (num (d 2)) := by simp [XMVectorSelect]
    rw [this]; geo
    rw [mul_comm e d]
  · intro p
    have key : p ᵥ* (diagonal d * rotM Q) + t ∈ obox (rot Q (d * a) + t) (d * e) Q ↔ p ∈ obox a e 1 := by
      rw [diag_rot d Q hQ, mem_obox' hQ, mem_obox' hq1, show rot Q (d * p) + t - (rot Q (d * a) + t) = rot Q (d * p) - rot Q (d * a) by abel, ← rot_sub hQ, rot_star_rot hQ, ← mul_sub]
      refine forall_congr' fun i => ?_
      have h1 : rot (star (1 : Quaternion ℝ)) (p - a) = p - a := by rw [star_one]; exact rot_one _
      rw [h1, Pi.mul_apply, Pi.mul_apply, abs_mul, abs_of_pos (hd i), mul_le_mul_iff_right₀ (hd i)]
    rw [mul_one]
    rcases hQ' with rfl | rfl
    · exact key
    · rw [obox_neg]; exact key

/-- Frusta under the matrix of a uniform scale, rotation and translation. -/
theorem C87_frustum (c : Cfg) (o t : Pt) (s r l tp b n f : ℝ) (q Q : Quaternion ℝ) (hq : Quaternion.normSq q = 1) (hQ : Quaternion.normSq Q = 1) (hs : 0 < s) :
    ∃ o' q' n' f', BoundingFrustum.TransformMatrix c (frustumOf o q r l tp b n f) (mat (affine (s • rotM Q) t)) = frustumOf o' q' r l tp b n' f' ∧
      Quaternion.normSq q' = 1 ∧ ∀ p, p ᵥ* (s • rotM Q) + t ∈ frustum o' q' r l tp b n' f' ↔ p ∈ frustum o q r l tp b n f := by
  obtain ⟨Q', hQ', hm⟩ := matrix_rot c t s Q hQ hs
  have hn : Quaternion.normSq Q' = 1 := by rcases hQ' with rfl | rfl <;> simp [hQ]
  have h0 : (mat (affine (s • rotM Q) t)).r0 = vec3 (s • rotM Q 0) (num 0) := by simp [affine]
  have h1 : (mat (affine (s • rotM Q) t)).r1 = vec3 (s • rotM Q 1) (num 0) := by simp [affine]
  have h2 : (mat (affine (s • rotM Q) t)).r2 = vec3 (s • rotM Q 2) (num 0) := by simp [affine]
  refine ⟨rot Q (s • o) + t, Q' * q, n * s, f * s, ?_, by rw [map_mul, hn, hq, one_mul], ?_⟩
  · simp only [BoundingFrustum.TransformMatrix, fr_o, fr_q, fr_r, fr_l, fr_t, fr_b, fr_n, fr_f, v_load3, v_transform_affine, hm, XMQuaternionMultiply_quat, smul_rot s Q hQ]
    simp only [h0, h1, h2, v_dot, row_len s Q hQ, s_max, max_self, v_getx, s_x, sqrt_num _ (mul_nonneg hs.le hs.le), Real.sqrt_mul_self hs.le]
    geo
    rfl
  · intro p
    rw [smul_rot s Q hQ]
    rcases hQ' with rfl | rfl
    · exact frustum_image hq hQ hs
    · rw [nneg_mul, frustum_neg]; exact frustum_image hq hQ hs

/-! The hypotheses are met by actual transforms: -/
example (c : Cfg) : ∃ a' r', BoundingSphere.TransformMatrix c (sphereOf ![1, 2, 3] 2) (mat (affine !![0, 2, 0; -1, 0, 0; 0, 0, 3] ![4, 5, 6])) = sphereOf a' r' ∧
    ∀ p ∈ ball ![1, 2, 3] 2, p ᵥ* !![0, 2, 0; -1, 0, 0; 0, 0, 3] + ![4, 5, 6] ∈ ball a' r' := by
  obtain ⟨a', r', h1, -, -, h2, -⟩ := C87_sphere c ![1, 2, 3] ![4, 5, 6] 2 !![0, 2, 0; -1, 0, 0; 0, 0, 3] (by norm_num)
    (by intro i j h; fin_cases i <;> fin_cases j <;> first | exact absurd rfl h | simp [dotProduct, Fin.sum_univ_three])
  exact ⟨a', r', h1, h2⟩
example (c : Cfg) : ∃ a' e' q', BoundingOrientedBox.TransformMatrix c (oboxOf ![1, 2, 3] 1 exQ) (mat (affine ((2 : ℝ) • rotM exQ) ![4, 5, 6])) = oboxOf a' e' q' ∧
    ∀ p, p ᵥ* ((2 : ℝ) • rotM exQ) + ![4, 5, 6] ∈ obox a' e' q' ↔ p ∈ obox ![1, 2, 3] 1 exQ := by
  obtain ⟨a', e', q', h1, -, h2⟩ := C87_orientedBox c ![1, 2, 3] 1 ![4, 5, 6] 2 exQ exQ exQ_unit exQ_unit (by norm_num)
  exact ⟨a', e', q', h1, h2⟩
example (c : Cfg) : ∃ a' e' q', BoundingOrientedBox.TransformMatrix c (oboxOf ![1, 2, 3] 1 1) (mat (affine (diagonal ![2, 3, 4] * rotM exQ) ![4, 5, 6])) = oboxOf a' e' q' ∧
    ∀ p, p ᵥ* (diagonal ![2, 3, 4] * rotM exQ) + ![4, 5, 6] ∈ obox a' e' q' ↔ p ∈ obox ![1, 2, 3] 1 1 := by
  obtain ⟨a', e', q', h1, -, h2⟩ := C87_orientedBoxAxes c ![1, 2, 3] 1 ![4, 5, 6] ![2, 3, 4] exQ exQ_unit (by intro i; fin_cases i <;> simp)
  exact ⟨a', e', q', h1, h2⟩

end DXM.Props
