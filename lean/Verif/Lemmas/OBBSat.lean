import Verif.Lemmas.Polytope
import Verif.Lemmas.Geo2
import Verif.Lemmas.Affine

/-
The fifteen-axis separation test of two oriented boxes: which axes suffice, and what the code computes.
-/

set_option linter.all false

namespace DXM.RG
open DXM.Spec DXM.E Matrix

/-- `m` strictly separates the two boxes. -/
noncomputable def osep (a e : Pt) (q : Quaternion ℝ) (b f : Pt) (r : Quaternion ℝ) (m : Pt) : Prop :=
  e ⬝ᵥ |rot (star q) m| + f ⬝ᵥ |rot (star r) m| < |m ⬝ᵥ (b - a)|

variable {a e b f : Pt} {q r : Quaternion ℝ}

theorem osep_smul (hq : Quaternion.normSq q = 1) (hr : Quaternion.normSq r = 1) {s : ℝ} (hs : s = 1 ∨ s = -1) (m : Pt) :
    osep a e q b f r (s • m) ↔ osep a e q b f r m := by
  unfold osep
  rw [rot_smul (nstar hq), rot_smul (nstar hr)]
  rcases hs with rfl | rfl
  · simp
  · rw [neg_one_smul, neg_one_smul, neg_one_smul, abs_neg, abs_neg, neg_dotProduct, abs_neg]
theorem osep_disj (hq : Quaternion.normSq q = 1) (hr : Quaternion.normSq r = 1) {m : Pt} (h : osep a e q b f r m) :
    ¬ (obox a e q ∩ obox b f r).Nonempty := by
  rintro ⟨p, h1, h2⟩
  have k1 := obox_radius hq m h1
  have k2 := obox_radius hr m h2
  unfold osep at h
  rw [dotProduct_sub] at h
  have := abs_sub_le (m ⬝ᵥ b) (m ⬝ᵥ p) (m ⬝ᵥ a)
  rw [abs_sub_comm (m ⬝ᵥ b) (m ⬝ᵥ p)] at this
  linarith
theorem osep_of_lt (hq : Quaternion.normSq q = 1) (hr : Quaternion.normSq r = 1) (he : ∀ i, 0 ≤ e i) (hf : ∀ i, 0 ≤ f i) {m : Pt}
    (h : ∀ x ∈ obox a e q, ∀ y ∈ obox b f r, m ⬝ᵥ x < m ⬝ᵥ y) : osep a e q b f r m := by
  obtain ⟨x, hx, h1⟩ := obox_extreme hq a e he m
  obtain ⟨y, hy, h2⟩ := obox_extreme hr b f hf (-m)
  have := h x hx y hy
  rw [rot_neg (nstar hr), neg_dotProduct, neg_dotProduct, abs_neg] at h2
  unfold osep
  rw [dotProduct_sub]
  refine lt_of_lt_of_le ?_ (le_abs_self _)
  linarith

theorem single_cross (i j : Fin 3) : (∃ k, ∃ s : ℝ, (s = 1 ∨ s = -1) ∧ crossProduct (Pi.single i 1 : Pt) (Pi.single j 1) = s • Pi.single k 1) ∨
    crossProduct (Pi.single i 1 : Pt) (Pi.single j 1) = 0 := by
  by_cases h : i = j
  · right; subst h; exact cross_self _
  · left
    fin_cases i <;> fin_cases j <;> simp at h
    · exact ⟨2, 1, Or.inl rfl, by rw [crossP]; ext k; fin_cases k <;> simp⟩
    · exact ⟨1, -1, Or.inr rfl, by rw [crossP]; ext k; fin_cases k <;> simp⟩
    · exact ⟨2, -1, Or.inr rfl, by rw [crossP]; ext k; fin_cases k <;> simp⟩
    · exact ⟨0, 1, Or.inl rfl, by rw [crossP]; ext k; fin_cases k <;> simp⟩
    · exact ⟨1, 1, Or.inl rfl, by rw [crossP]; ext k; fin_cases k <;> simp⟩
    · exact ⟨0, -1, Or.inr rfl, by rw [crossP]; ext k; fin_cases k <;> simp⟩
theorem row_cross (hq : Quaternion.normSq q = 1) (i j : Fin 3) : (∃ k, ∃ s : ℝ, (s = 1 ∨ s = -1) ∧ crossProduct (rotM q i) (rotM q j) = s • rotM q k) ∨
    crossProduct (rotM q i) (rotM q j) = 0 := by
  rcases single_cross i j with ⟨k, s, hs, h⟩ | h
  · left; refine ⟨k, s, hs, ?_⟩
    rw [row_eq hq, row_eq hq, row_eq hq, ← rot_cross hq, h, rot_smul hq]
  · right; rw [row_eq hq, row_eq hq, ← rot_cross hq, h, rot_zero hq]
theorem smul_cross (s t : ℝ) (x y : Pt) : crossProduct (s • x) (t • y) = (s * t) • crossProduct x y := by
  rw [LinearMap.map_smul₂, LinearMap.map_smul, smul_smul]
theorem sign_mul {s t : ℝ} (hs : s = 1 ∨ s = -1) (ht : t = 1 ∨ t = -1) : s * t = 1 ∨ s * t = -1 := by
  rcases hs with rfl | rfl <;> rcases ht with rfl | rfl <;> norm_num

theorem obb_sat (hq : Quaternion.normSq q = 1) (hr : Quaternion.normSq r = 1) (he : ∀ i, 0 ≤ e i) (hf : ∀ i, 0 ≤ f i) :
    ¬ (obox a e q ∩ obox b f r).Nonempty ↔
      (∃ i, osep a e q b f r (rotM q i)) ∨ (∃ j, osep a e q b f r (rotM r j)) ∨
      ∃ i j, osep a e q b f r (crossProduct (rotM q i) (rotM r j)) := by
  constructor
  · intro h
    obtain ⟨n, hn⟩ := exists_sep (obox_convex hq a e) (obox_compact hq a e) (obox_convex hr b f) (obox_compact hr b f)
      (Set.disjoint_iff_inter_eq_empty.2 (Set.not_nonempty_iff_eq_empty.1 h))
    obtain ⟨v, hv, s, hs, h1, h2⟩ := obox_support hq a e he n
    obtain ⟨w, hw, t, ht, k1, k2⟩ := obox_support hr b f hf (-n)
    obtain ⟨i, j, σ, hσ, g1, g2, g3⟩ := sat (obox a e q) (obox b f r) v w n (fun i => s i • rotM q i) (fun i => t i • rotM r i) h2 k2
      (fun u hu _ => rows_span hq hs u hu) h1 (fun i => by have := k1 i; rw [neg_dotProduct] at this; linarith) (hn v hv w hw)
    have g := osep_of_lt hq hr he hf g3
    rw [osep_smul hq hr hσ] at g
    have nz : ¬ osep a e q b f r 0 := by
      unfold osep; rw [rot_zero (nstar hq), rot_zero (nstar hr)]; simp
    rcases i with i | i <;> rcases j with j | j <;> simp only [Sum.elim_inl, Sum.elim_inr] at g <;>
      rw [smul_cross, osep_smul hq hr (sign_mul (by first | exact hs _ | exact ht _) (by first | exact hs _ | exact ht _))] at g
    · rcases row_cross hq i j with ⟨k, s', hs', hk⟩ | hk
      · rw [hk, osep_smul hq hr hs'] at g; exact Or.inl ⟨k, g⟩
      · rw [hk] at g; exact absurd g nz
    · exact Or.inr (Or.inr ⟨i, j, g⟩)
    · rw [← cross_anticomm, ← neg_one_smul ℝ, osep_smul hq hr (Or.inr rfl)] at g
      exact Or.inr (Or.inr ⟨j, i, g⟩)
    · rcases row_cross hr i j with ⟨k, s', hs', hk⟩ | hk
      · rw [hk, osep_smul hq hr hs'] at g; exact Or.inr (Or.inl ⟨k, g⟩)
      · rw [hk] at g; exact absurd g nz
  · rintro (⟨i, h⟩ | ⟨i, h⟩ | ⟨i, j, h⟩) <;> exact osep_disj hq hr h

/-! the axes in the frame of the first box -/
theorem osep_loc (hq : Quaternion.normSq q = 1) (m : Pt) :
    osep a e q b f r m ↔ e ⬝ᵥ |rot (star q) m| + f ⬝ᵥ |rot (star r) m| < |rot (star q) m ⬝ᵥ rot (star q) (b - a)| := by
  unfold osep; rw [rot_dot (nstar hq)]
theorem osep_a (hq : Quaternion.normSq q = 1) (hr : Quaternion.normSq r = 1) (i : Fin 3) :
    osep a e q b f r (rotM q i) ↔ e i + f ⬝ᵥ |rotM (star r * q) i| < |rot (star q) (b - a) i| := by
  have hQ : Quaternion.normSq (star r * q) = 1 := by rw [map_mul, nstar hr, hq, one_mul]
  rw [osep_loc hq, row_eq hq, rot_star_rot hq, row_eq hQ, rot_mul hq (nstar hr)]
  rw [single_one_dotProduct]
  have : |(Pi.single i 1 : Pt)| = Pi.single i 1 := by
    ext j; by_cases h : j = i
    · subst h; simp
    · simp [h]
  rw [this, dotProduct_single_one]
theorem star_Q : star (star r * q) = star q * r := by rw [star_mul, star_star]
theorem osep_b (hq : Quaternion.normSq q = 1) (hr : Quaternion.normSq r = 1) (j : Fin 3) :
    osep a e q b f r (rotM r j) ↔ e ⬝ᵥ |rotM (star (star r * q)) j| + f j < |rot (star q) (b - a) ⬝ᵥ rotM (star (star r * q)) j| := by
  have hQ : Quaternion.normSq (star q * r) = 1 := by rw [map_mul, nstar hq, hr, one_mul]
  rw [osep_loc hq, row_eq hr, rot_star_rot hr, star_Q, row_eq hQ, rot_mul hr (nstar hq)]
  have : |(Pi.single j 1 : Pt)| = Pi.single j 1 := by
    ext k; by_cases h : k = j
    · subst h; simp
    · simp [h]
  rw [this, dotProduct_single_one, dotProduct_comm (rot (star q) (b - a))]
theorem osep_ab (hq : Quaternion.normSq q = 1) (hr : Quaternion.normSq r = 1) (i j : Fin 3) :
    osep a e q b f r (crossProduct (rotM q i) (rotM r j)) ↔
      e ⬝ᵥ |crossProduct (Pi.single i 1) (rotM (star (star r * q)) j)| + f ⬝ᵥ |crossProduct (rotM (star r * q) i) (Pi.single j 1)| <
        |rot (star q) (b - a) ⬝ᵥ crossProduct (Pi.single i 1) (rotM (star (star r * q)) j)| := by
  have hQ : Quaternion.normSq (star q * r) = 1 := by rw [map_mul, nstar hq, hr, one_mul]
  have hQ' : Quaternion.normSq (star r * q) = 1 := by rw [map_mul, nstar hr, hq, one_mul]
  rw [osep_loc hq, row_eq hr, row_eq hq, star_Q, row_eq hQ, row_eq hQ', rot_mul hr (nstar hq), rot_mul hq (nstar hr),
    rot_cross (nstar hq), rot_cross (nstar hr), rot_star_rot hq, rot_star_rot hr, dotProduct_comm (rot (star q) (b - a))]
theorem cl0 (v : Pt) : crossProduct (Pi.single 0 1) v = ![0, (-v) 2, v 1] := by rw [crossP]; ext i; fin_cases i <;> simp
theorem cl1 (v : Pt) : crossProduct (Pi.single 1 1) v = ![v 2, 0, (-v) 0] := by rw [crossP]; ext i; fin_cases i <;> simp
theorem cl2 (v : Pt) : crossProduct (Pi.single 2 1) v = ![(-v) 1, v 0, 0] := by rw [crossP]; ext i; fin_cases i <;> simp
theorem cla0 (v : Pt) : |crossProduct (Pi.single 0 1) v| = ![0, |v| 2, |v| 1] := by rw [cl0]; ext i; fin_cases i <;> simp
theorem cla1 (v : Pt) : |crossProduct (Pi.single 1 1) v| = ![|v| 2, 0, |v| 0] := by rw [cl1]; ext i; fin_cases i <;> simp
theorem cla2 (v : Pt) : |crossProduct (Pi.single 2 1) v| = ![|v| 1, |v| 0, 0] := by rw [cl2]; ext i; fin_cases i <;> simp
theorem cra0 (v : Pt) : |crossProduct v (Pi.single 0 1)| = ![0, |v| 2, |v| 1] := by rw [← cross_anticomm, abs_neg, cla0]
theorem cra1 (v : Pt) : |crossProduct v (Pi.single 1 1)| = ![|v| 2, 0, |v| 0] := by rw [← cross_anticomm, abs_neg, cla1]
theorem cra2 (v : Pt) : |crossProduct v (Pi.single 2 1)| = ![|v| 1, |v| 0, 0] := by rw [← cross_anticomm, abs_neg, cla2]
end DXM.RG

namespace DXM.Geo
open DXM.E DXM.Spec DXM.RG Matrix

theorem rmt_r0 (c : Cfg) {q : Quaternion ℝ} (hq : Quaternion.normSq q = 1) : (XMMatrixTranspose c (XMMatrixRotationQuaternion c (quat q))).r0 = vec3 (rotM (star q) 0) (num 0) := by
  have : rotM (star q) = (rotM q)ᵀ := by
    ext i j; rw [row_eq (nstar hq), ← dot_row hq, dotProduct_single_one, transpose_apply]
  rw [XMMatrixRotationQuaternion_quat, XMMatrixTranspose_mat, affine_transpose, this]; simp [affine]
theorem rmt_r1 (c : Cfg) {q : Quaternion ℝ} (hq : Quaternion.normSq q = 1) : (XMMatrixTranspose c (XMMatrixRotationQuaternion c (quat q))).r1 = vec3 (rotM (star q) 1) (num 0) := by
  have : rotM (star q) = (rotM q)ᵀ := by
    ext i j; rw [row_eq (nstar hq), ← dot_row hq, dotProduct_single_one, transpose_apply]
  rw [XMMatrixRotationQuaternion_quat, XMMatrixTranspose_mat, affine_transpose, this]; simp [affine]
theorem rmt_r2 (c : Cfg) {q : Quaternion ℝ} (hq : Quaternion.normSq q = 1) : (XMMatrixTranspose c (XMMatrixRotationQuaternion c (quat q))).r2 = vec3 (rotM (star q) 2) (num 0) := by
  have : rotM (star q) = (rotM q)ᵀ := by
    ext i j; rw [row_eq (nstar hq), ← dot_row hq, dotProduct_single_one, transpose_apply]
  rw [XMMatrixRotationQuaternion_quat, XMMatrixTranspose_mat, affine_transpose, this]; simp [affine]
theorem sw3210 (c : Cfg) (a : Pt) : XMVectorSwizzleC c (vec3 a (num 0)) 3 2 1 0 = vec3 ![0, a 2, a 1] (num (a 0)) := by simp
theorem sw2301 (c : Cfg) (a : Pt) : XMVectorSwizzleC c (vec3 a (num 0)) 2 3 0 1 = vec3 ![a 2, 0, a 0] (num (a 1)) := by simp
theorem sw1032 (c : Cfg) (a : Pt) : XMVectorSwizzleC c (vec3 a (num 0)) 1 0 3 2 = vec3 ![a 1, a 0, 0] (num (a 2)) := by simp
theorem pm3610 (c : Cfg) (a b : Pt) (w : E) : XMVectorPermuteC c (vec3 a (num 0)) (vec3 b w) 3 6 1 0 = vec3 ![0, b 2, a 1] (num (a 0)) := by simp
theorem pm2341 (c : Cfg) (a b : Pt) (w : E) : XMVectorPermuteC c (vec3 a (num 0)) (vec3 b w) 2 3 4 1 = vec3 ![a 2, 0, b 0] (num (a 1)) := by simp
theorem pm5032 (c : Cfg) (a b : Pt) (w : E) : XMVectorPermuteC c (vec3 a (num 0)) (vec3 b w) 5 0 3 2 = vec3 ![b 1, a 0, 0] (num (a 2)) := by simp
end DXM.Geo
