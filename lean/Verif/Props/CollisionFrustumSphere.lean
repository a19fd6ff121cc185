import Verif.Props.CollisionFrustumTri
import Verif.Lemmas.Nearest

/-
C91: the frustum-sphere test.
-/

set_option linter.all false

namespace DXM.Geo
open DXM.E DXM.Spec DXM.RG DXM.Props Matrix Classical

/-- A face plane scaled to a unit normal. -/
noncomputable def npl (P : Pt × ℝ) : V4 E := vec3 ((len P.1)⁻¹ • P.1) (num (-((len P.1)⁻¹ * P.2)))

theorem len_pos {v : Pt} (h : v ≠ 0) : 0 < len v := Real.sqrt_pos.2 (RG.dot_self_pos h)
theorem len_sq (v : Pt) : len v * len v = v ⬝ᵥ v := Real.mul_self_sqrt (RG.dot_self_nonneg v)

theorem npl_unit (v : Pt) (d : ℝ) (h : v ⬝ᵥ v = 1) : npl (v, d) = vec3 v (num (-d)) := by
  have : len v = 1 := by rw [len, h, Real.sqrt_one]
  simp [npl, this]
theorem npl_zero (c : Cfg) (v : Pt) (h : v ≠ 0) : XMVector3Normalize c (vec3 v (num 0)) = npl (v, 0) := by
  rw [v_normalize c v h]; simp [npl]
/-- Signed distance to a plane. -/
theorem npl_dist (c : Cfg) (C : Pt) (P : Pt × ℝ) : XMVector4Dot c (vec3 C (num 1)) (npl P) = all ((len P.1)⁻¹ * (P.1 ⬝ᵥ C - P.2)) := by
  rw [npl]; geo
  congr 1
  rw [dotProduct_smul, smul_eq_mul, dotProduct_comm]; ring

theorem face_eval (c : Cfg) (C : Pt) (P : Pt × ℝ) (adj : List (Pt × ℝ)) (hP : P.1 ≠ 0) (ha : ∀ Q ∈ adj, Q.1 ≠ 0) :
    BoundingFrustum.faceTest c (vec3 C (num 1)) (npl P) (XMVector4Dot c (vec3 C (num 1)) (npl P)) (adj.map npl) =
      msk (P.2 < P.1 ⬝ᵥ C ∧ ∀ Q ∈ adj, Q.1 ⬝ᵥ (C - ((P.1 ⬝ᵥ C - P.2) / (P.1 ⬝ᵥ P.1)) • P.1) ≤ Q.2) := by
  have hl := len_pos hP
  unfold BoundingFrustum.faceTest
  rw [npl_dist]
  have e : XMVectorNegativeMultiplySubtract c (npl P) (all ((len P.1)⁻¹ * (P.1 ⬝ᵥ C - P.2))) (vec3 C (num 1)) =
      vec3 (C - ((P.1 ⬝ᵥ C - P.2) / (P.1 ⬝ᵥ P.1)) • P.1) (num (1 - -((len P.1)⁻¹ * P.2) * ((len P.1)⁻¹ * (P.1 ⬝ᵥ C - P.2)))) := by
    have e1 : ((len P.1)⁻¹ * (P.1 ⬝ᵥ C - P.2)) * (len P.1)⁻¹ = (P.1 ⬝ᵥ C - P.2) / (P.1 ⬝ᵥ P.1) := by
      rw [← len_sq]; field_simp
    rw [npl, v_nms_r, smul_smul, e1]
    geo
  rw [e]
  simp only [List.foldl_map]
  geo
  rw [fold_and _ _ (fun Q => Q.1 ⬝ᵥ (C - ((P.1 ⬝ᵥ C - P.2) / (P.1 ⬝ᵥ P.1)) • P.1) ≤ Q.2)]
  rotate_left
  · intro x Q hQ
    rw [npl_dist]
    geo
    congr 1
    have hl := len_pos (ha Q hQ)
    refine propext (and_congr Iff.rfl ?_)
    constructor
    · intro h; by_contra k; push Not at k; have := mul_pos (inv_pos.2 hl) (sub_pos.2 k); linarith
    · intro h; have := mul_nonneg (inv_pos.2 hl).le (sub_nonneg.2 h); linarith
  geo
  congr 1
  refine propext (and_congr ?_ (by simp))
  rw [mul_pos_iff_of_pos_left (inv_pos.2 hl), sub_pos]
end DXM.Geo

namespace DXM.Props
open DXM.E DXM.Spec DXM.RG DXM.Geo Matrix Classical

/-- Each face with its four neighbours. -/
def ffaces (r l t b n f : ℝ) : List ((Pt × ℝ) × List (Pt × ℝ)) :=
  let N : Pt × ℝ := (![0, 0, -1], -n)
  let F : Pt × ℝ := (![0, 0, 1], f)
  let R : Pt × ℝ := (![1, 0, -r], 0)
  let L : Pt × ℝ := (![-1, 0, l], 0)
  let T : Pt × ℝ := (![0, 1, -t], 0)
  let B : Pt × ℝ := (![0, -1, b], 0)
  [(N, [R, L, T, B]), (F, [R, L, T, B]), (R, [N, F, T, B]), (L, [N, F, T, B]), (T, [N, F, R, L]), (B, [N, F, R, L])]
/-- The twelve edges. -/
def fsegs (r l t b n f : ℝ) : List (Pt × Pt) :=
  [(n • ![r, t, 1], n • ![r, b, 1]), (n • ![l, t, 1], n • ![l, b, 1]), (n • ![r, t, 1], n • ![l, t, 1]), (n • ![r, b, 1], n • ![l, b, 1]),
   (f • ![r, t, 1], f • ![r, b, 1]), (f • ![l, t, 1], f • ![l, b, 1]), (f • ![r, t, 1], f • ![l, t, 1]), (f • ![r, b, 1], f • ![l, b, 1]),
   (n • ![r, t, 1], f • ![r, t, 1]), (n • ![r, b, 1], f • ![r, b, 1]), (n • ![l, t, 1], f • ![l, t, 1]), (n • ![l, b, 1], f • ![l, b, 1])]
theorem fplanes_ne (r l t b n f : ℝ) : ∀ P ∈ fplanes r l t b n f, P.1 ≠ 0 := by
  have h0 : ∀ v : Pt, v 0 ≠ 0 → v ≠ 0 := fun v h e => h (by rw [e]; rfl)
  have h1 : ∀ v : Pt, v 1 ≠ 0 → v ≠ 0 := fun v h e => h (by rw [e]; rfl)
  have h2 : ∀ v : Pt, v 2 ≠ 0 → v ≠ 0 := fun v h e => h (by rw [e]; rfl)
  simp only [fplanes, List.forall_mem_cons, List.not_mem_nil, IsEmpty.forall_iff, implies_true, and_true]
  exact ⟨h2 _ (by simp), h2 _ (by simp), h0 _ (by simp), h0 _ (by simp), h1 _ (by simp), h1 _ (by simp)⟩
theorem sat_if3 (a b d e g : Prop) (z : Bool) [Decidable a] [Decidable b] [Decidable d] [Decidable e] (hz : z = true ↔ e ∨ g) :
    ((if a then false else if b then true else if d then true else if e then true else z) = true) ↔ ¬ a ∧ (b ∨ d ∨ e ∨ g) := by
  by_cases a <;> by_cases b <;> by_cases d <;> by_cases e <;> simp [*]

set_option maxHeartbeats 800000 in
theorem fs_eval (c : Cfg) (o a : Pt) (R : ℝ) (hR : 0 ≤ R) (q : Quaternion ℝ) (r l t b n f : ℝ) (hs : ∀ s ∈ fsegs r l t b n f, s.1 ≠ s.2) :
    (BoundingFrustum.IntersectsSphere c (frustumOf o q r l t b n f) (sphereOf a R) = true) ↔
      let C := rot (star q) (a - o)
      (¬ ∃ P ∈ fplanes r l t b n f, R < (len P.1)⁻¹ * (P.1 ⬝ᵥ C - P.2)) ∧
      ((∀ P ∈ fplanes r l t b n f, (len P.1)⁻¹ * (P.1 ⬝ᵥ C - P.2) ≤ -R) ∨
       (∀ P ∈ fplanes r l t b n f, (len P.1)⁻¹ * (P.1 ⬝ᵥ C - P.2) ≤ 0) ∨
       (∃ F ∈ ffaces r l t b n f, F.1.2 < F.1.1 ⬝ᵥ C ∧ ∀ Q ∈ F.2, Q.1 ⬝ᵥ (C - ((F.1.1 ⬝ᵥ C - F.1.2) / (F.1.1 ⬝ᵥ F.1.1)) • F.1.1) ≤ Q.2) ∨
       (∃ s ∈ fsegs r l t b n f, ∃ y ∈ seg s.1 s.2, y ∈ ball C R)) := by
  have n1 : (Lane.cNeg1 : E) = num (-1) := by simp
  have hne := fplanes_ne r l t b n f
  have hne' := hne
  simp only [fplanes, List.forall_mem_cons, List.not_mem_nil, IsEmpty.forall_iff, implies_true, and_true] at hne'
  obtain ⟨hN, hF, hr, hl, ht, hb⟩ := hne'
  have eN : vec3 ![0, 0, -1] (num n) = npl (![0, 0, -1], -n) := by rw [npl_unit _ _ (by simp [dotProduct, Fin.sum_univ_three]), neg_neg]
  have eF : vec3 ![0, 0, 1] (num (-f)) = npl (![0, 0, 1], f) := by rw [npl_unit _ _ (by simp [dotProduct, Fin.sum_univ_three])]
  simp only [BoundingFrustum.IntersectsSphere, sphereOf, fr_o, fr_q, fr_n, fr_f, fr_r, fr_l, fr_t, fr_b, fr_rt, fr_rb, fr_lt, fr_lb]
  geo
  simp only [n1, v_set, eN, eF, npl_zero c _ hr, npl_zero c _ hl, npl_zero c _ ht, npl_zero c _ hb]
  set C := rot (star q) (a - o)
  have hB : [npl (![0, 0, -1], -n), npl (![0, 0, 1], f), npl (![1, 0, -r], 0), npl (![-1, 0, l], 0),
      npl (![0, 1, -t], 0), npl (![0, -1, b], 0)] = (fplanes r l t b n f).map npl := by
    simp only [fplanes, List.map_cons, List.map_nil]
  have hE : [(vec3 (n • ![r, t, 1]) (num (0 * n)), vec3 (n • ![r, b, 1]) (num (0 * n))),
                    (vec3 (n • ![l, t, 1]) (num (0 * n)), vec3 (n • ![l, b, 1]) (num (0 * n))),
                    (vec3 (n • ![r, t, 1]) (num (0 * n)), vec3 (n • ![l, t, 1]) (num (0 * n))),
                    (vec3 (n • ![r, b, 1]) (num (0 * n)), vec3 (n • ![l, b, 1]) (num (0 * n))),
                    (vec3 (f • ![r, t, 1]) (num (0 * f)), vec3 (f • ![r, b, 1]) (num (0 * f))),
                    (vec3 (f • ![l, t, 1]) (num (0 * f)), vec3 (f • ![l, b, 1]) (num (0 * f))),
                    (vec3 (f • ![r, t, 1]) (num (0 * f)), vec3 (f • ![l, t, 1]) (num (0 * f))),
                    (vec3 (f • ![r, b, 1]) (num (0 * f)), vec3 (f • ![l, b, 1]) (num (0 * f))),
                    (vec3 (n • ![r, t, 1]) (num (0 * n)), vec3 (f • ![r, t, 1]) (num (0 * f))),
                    (vec3 (n • ![r, b, 1]) (num (0 * n)), vec3 (f • ![r, b, 1]) (num (0 * f))),
                    (vec3 (n • ![l, t, 1]) (num (0 * n)), vec3 (f • ![l, t, 1]) (num (0 * f))),
                    (vec3 (n • ![l, b, 1]) (num (0 * n)), vec3 (f • ![l, b, 1]) (num (0 * f)))] =
      (fsegs r l t b n f).map fun s => (vec3 s.1 (num 0), vec3 s.2 (num 0)) := by
    simp only [fsegs, List.map_cons, List.map_nil, zero_mul]
  obtain ⟨X, hX, hface⟩ : ∃ X : Prop, (X ↔ ∃ F ∈ ffaces r l t b n f, F.1.2 < F.1.1 ⬝ᵥ C ∧ ∀ Q ∈ F.2, Q.1 ⬝ᵥ (C - ((F.1.1 ⬝ᵥ C - F.1.2) / (F.1.1 ⬝ᵥ F.1.1)) • F.1.1) ≤ Q.2) ∧
      (ffaces r l t b n f).foldl (fun s F => XMVectorOrInt s (BoundingFrustum.faceTest c (vec3 C (num 1)) (npl F.1) (XMVector4Dot c (vec3 C (num 1)) (npl F.1)) (F.2.map npl)))
        (XMVectorFalseInt) = msk X := by
    refine ⟨_, by rfl, ?_⟩
    rw [v_false, fold_or _ _ (fun F => F.1.2 < F.1.1 ⬝ᵥ C ∧ ∀ Q ∈ F.2, Q.1 ⬝ᵥ (C - ((F.1.1 ⬝ᵥ C - F.1.2) / (F.1.1 ⬝ᵥ F.1.1)) • F.1.1) ≤ Q.2)]
    · simp only [false_or]
    · intro x F hF
      have hF' : F.1.1 ≠ 0 ∧ ∀ Q ∈ F.2, Q.1 ≠ 0 := by
        revert F
        simp only [ffaces, List.forall_mem_cons, List.not_mem_nil, IsEmpty.forall_iff, implies_true, and_true]
        tauto
      rw [face_eval c C F.1 F.2 hF'.1 hF'.2]
      geo
  simp only [ffaces, List.foldl_cons, List.foldl_nil, List.map_cons, List.map_nil] at hface
  rw [← hX]
  simp only [hface, hB, hE, List.foldl_map]
  rw [v_false, fold_tri _ _ (fun P => R < (len P.1)⁻¹ * (P.1 ⬝ᵥ C - P.2)) (fun P => (len P.1)⁻¹ * (P.1 ⬝ᵥ C - P.2) ≤ -R) (fun P => (len P.1)⁻¹ * (P.1 ⬝ᵥ C - P.2) ≤ 0)]
  rotate_left
  · intro x y z P hP
    simp only [npl_dist]
    geo
  rw [fold_or _ _ (fun s => ∃ y ∈ seg s.1 s.2, y ∈ ball C R)]
  rotate_left
  · intro x s hs'
    simp only [BoundingFrustum.edgeTest]
    rw [v_segTest c _ _ _ _ _ _ (hs s hs') R hR]
    geo
  simp only [m_eq4, false_or, true_and]
  exact sat_if3 _ _ _ _ _ _ (m_eq4 c _)

/-- The code's edges join different corners. -/
theorem fsegs_ne {r l t b n f : ℝ} (hlr : l ≠ r) (hbt : b ≠ t) (hnf : n ≠ f) (hn : n ≠ 0) (hf : f ≠ 0) : ∀ s ∈ fsegs r l t b n f, s.1 ≠ s.2 := by
  have h0 : ∀ u v : Pt, u 0 ≠ v 0 → u ≠ v := fun u v h e => h (by rw [e])
  have h1 : ∀ u v : Pt, u 1 ≠ v 1 → u ≠ v := fun u v h e => h (by rw [e])
  have h2 : ∀ u v : Pt, u 2 ≠ v 2 → u ≠ v := fun u v h e => h (by rw [e])
  simp only [fsegs, List.forall_mem_cons, List.not_mem_nil, IsEmpty.forall_iff, implies_true, and_true]
  refine ⟨h1 _ _ ?_, h1 _ _ ?_, h0 _ _ ?_, h0 _ _ ?_, h1 _ _ ?_, h1 _ _ ?_, h0 _ _ ?_, h0 _ _ ?_, h2 _ _ ?_, h2 _ _ ?_, h2 _ _ ?_, h2 _ _ ?_⟩ <;>
    simp [*, Ne.symm hlr, Ne.symm hbt, eq_comm]
/-- A face of the code with its neighbours lies in the frustum. -/
theorem face_in {r l t b n f : ℝ} (hv : ValidFrustum r l t b n f) {F : (Pt × ℝ) × List (Pt × ℝ)} (hF : F ∈ ffaces r l t b n f) {u : Pt}
    (h1 : F.1.1 ⬝ᵥ u = F.1.2) (h2 : ∀ Q ∈ F.2, Q.1 ⬝ᵥ u ≤ Q.2) : u ∈ frustum0 r l t b n f := by
  revert F
  simp only [ffaces, List.forall_mem_cons, List.not_mem_nil, IsEmpty.forall_iff, implies_true, and_true, frustum0, Set.mem_setOf_eq]
  simp [dotProduct, Fin.sum_univ_three]
  rcases hv with ⟨g1, g2, g3, g4⟩ | ⟨g1, g2, g3, g4⟩
  · refine ⟨?_, ?_, ?_, ?_, ?_, ?_⟩ <;> intro k1 k2 k3 k4 k5 <;> (try have := mul_nonneg (sub_nonneg.2 g1) (show 0 ≤ u 2 by linarith)) <;>
      (try have := mul_nonneg (sub_nonneg.2 g2) (show 0 ≤ u 2 by linarith)) <;> refine ⟨?_, ?_, ?_, ?_, ?_, ?_⟩ <;> linarith
  · refine ⟨?_, ?_, ?_, ?_, ?_, ?_⟩ <;> intro k1 k2 k3 k4 k5 <;> (try have := mul_nonneg (sub_nonneg.2 g1) (show 0 ≤ -u 2 by linarith)) <;>
      (try have := mul_nonneg (sub_nonneg.2 g2) (show 0 ≤ -u 2 by linarith)) <;> refine ⟨?_, ?_, ?_, ?_, ?_, ?_⟩ <;> linarith
theorem seg_in {r l t b n f : ℝ} (hv : ValidFrustum r l t b n f) {s : Pt × Pt} (hs : s ∈ fsegs r l t b n f) : seg s.1 s.2 ⊆ frustum0 r l t b n f := by
  have hc := corner_in hv
  rintro _ ⟨x, x0, x1, rfl⟩
  have h : s.1 ∈ frustum0 r l t b n f ∧ s.2 ∈ frustum0 r l t b n f := by
    revert s
    simp only [fcorners, fsegs, List.forall_mem_cons, List.not_mem_nil, IsEmpty.forall_iff, implies_true, and_true] at hc ⊢
    tauto
  have := frustum0_convex h.1 h.2 (sub_nonneg.2 x1) x0 (by ring)
  convert this using 1
  rw [sub_smul, smul_sub, one_smul]; abel

theorem seg_lerp {a b u : Pt} (x : ℝ) (h0 : 0 ≤ x) (h1 : x ≤ 1) (e0 : u 0 = a 0 + x * (b 0 - a 0)) (e1 : u 1 = a 1 + x * (b 1 - a 1))
    (e2 : u 2 = a 2 + x * (b 2 - a 2)) : u ∈ seg a b := ⟨x, h0, h1, by funext i; fin_cases i <;> simp [e0, e1, e2]⟩
theorem seg_y {X Y Y' z : ℝ} {u : Pt} (h : 0 < (Y - Y') * z) (h0 : u 0 = X * z) (h2 : u 2 = z) (h1 : Y' * z ≤ u 1) (h1' : u 1 ≤ Y * z) :
    u ∈ seg (z • ![X, Y, 1]) (z • ![X, Y', 1]) := by
  refine seg_lerp ((Y * z - u 1) / ((Y - Y') * z)) (div_nonneg (by linarith) h.le) ((div_le_one h).2 (by linarith)) ?_ ?_ ?_
  · simp [h0]; ring
  · simp
    have : (Y * z - u 1) / ((Y - Y') * z) * ((Y - Y') * z) = Y * z - u 1 := div_mul_cancel₀ _ h.ne'
    linarith
  · simp [h2]
theorem seg_x {X X' Y z : ℝ} {u : Pt} (h : 0 < (X - X') * z) (h0 : u 1 = Y * z) (h2 : u 2 = z) (h1 : X' * z ≤ u 0) (h1' : u 0 ≤ X * z) :
    u ∈ seg (z • ![X, Y, 1]) (z • ![X', Y, 1]) := by
  refine seg_lerp ((X * z - u 0) / ((X - X') * z)) (div_nonneg (by linarith) h.le) ((div_le_one h).2 (by linarith)) ?_ ?_ ?_
  · simp
    have : (X * z - u 0) / ((X - X') * z) * ((X - X') * z) = X * z - u 0 := div_mul_cancel₀ _ h.ne'
    linarith
  · simp [h0]; ring
  · simp [h2]
theorem seg_z {X Y n f : ℝ} {u : Pt} (h : n < f) (h0 : u 0 = X * u 2) (h1 : u 1 = Y * u 2) (h2 : n ≤ u 2) (h2' : u 2 ≤ f) :
    u ∈ seg (n • ![X, Y, 1]) (f • ![X, Y, 1]) := by
  have e : (u 2 - n) / (f - n) * (f - n) = u 2 - n := div_mul_cancel₀ _ (by linarith)
  refine seg_lerp ((u 2 - n) / (f - n)) (div_nonneg (by linarith) (by linarith)) ((div_le_one (by linarith)).2 (by linarith)) ?_ ?_ ?_
  · simp only [Pi.smul_apply, smul_eq_mul, cons_val_zero, h0]; linear_combination X * -e
  · simp only [Pi.smul_apply, smul_eq_mul, cons_val_one, cons_val_zero, h1]; linear_combination Y * -e
  · simp; linear_combination -e

/-- A point of the frustum lies on at most one face or on an edge. -/
theorem face_or_edge {r l t b n f : ℝ} (hv : ValidFrustum r l t b n f) (hlr : l ≠ r) (hbt : b ≠ t) (hnf : n ≠ f) (hn : n ≠ 0) (hf : f ≠ 0)
    {u : Pt} (hu : u ∈ frustum0 r l t b n f) :
    (∃ s ∈ fsegs r l t b n f, u ∈ seg s.1 s.2) ∨
    (∀ P ∈ fplanes r l t b n f, P.1 ⬝ᵥ u ≠ P.2) ∨
    ∃ F ∈ ffaces r l t b n f, F.1.1 ⬝ᵥ u = F.1.2 ∧ ∀ P ∈ fplanes r l t b n f, P.1 ⬝ᵥ u = P.2 → P = F.1 := by
  obtain ⟨g0, g1, g2, g3, g4, g5⟩ := hu
  have hz : n < f ∧ 0 < (r - l) * u 2 ∧ 0 < (t - b) * u 2 := by
    rcases hv with ⟨k1, k2, k3, k4⟩ | ⟨k1, k2, k3, k4⟩
    · have k1 := lt_of_le_of_ne k1 hlr
      have k2 := lt_of_le_of_ne k2 hbt
      have k3 := lt_of_le_of_ne k3 hn.symm
      exact ⟨lt_of_le_of_ne k4 hnf, mul_pos (by linarith) (by linarith), mul_pos (by linarith) (by linarith)⟩
    · have k1 := lt_of_le_of_ne k1 hlr.symm
      have k2 := lt_of_le_of_ne k2 hbt.symm
      have k4 := lt_of_le_of_ne k4 hf
      exact ⟨lt_of_le_of_ne k3 hnf, mul_pos_of_neg_of_neg (by linarith) (by linarith), mul_pos_of_neg_of_neg (by linarith) (by linarith)⟩
  obtain ⟨hnf, hx, hy⟩ := hz
  by_cases hE : ∃ s ∈ fsegs r l t b n f, u ∈ seg s.1 s.2
  · exact Or.inl hE
  right
  simp only [fsegs, List.exists_mem_cons_iff, List.not_mem_nil, false_and, exists_false, or_false, not_or] at hE
  obtain ⟨q1, q2, q3, q4, q5, q6, q7, q8, q9, q10, q11, q12⟩ := hE
  have z1 : u 0 = r * u 2 → u 1 ≠ t * u 2 := fun a b => q9 (seg_z hnf a b g0 g1)
  have z2 : u 0 = r * u 2 → u 1 ≠ b * u 2 := fun a b => q10 (seg_z hnf a b g0 g1)
  have z3 : u 0 = l * u 2 → u 1 ≠ t * u 2 := fun a b => q11 (seg_z hnf a b g0 g1)
  have z4 : u 0 = l * u 2 → u 1 ≠ b * u 2 := fun a b => q12 (seg_z hnf a b g0 g1)
  have y1 : u 2 = n → u 0 ≠ r * u 2 := by rintro rfl a; exact q1 (seg_y hy a rfl g4 g5)
  have y2 : u 2 = n → u 0 ≠ l * u 2 := by rintro rfl a; exact q2 (seg_y hy a rfl g4 g5)
  have y3 : u 2 = f → u 0 ≠ r * u 2 := by rintro rfl a; exact q5 (seg_y hy a rfl g4 g5)
  have y4 : u 2 = f → u 0 ≠ l * u 2 := by rintro rfl a; exact q6 (seg_y hy a rfl g4 g5)
  have x1 : u 2 = n → u 1 ≠ t * u 2 := by rintro rfl a; exact q3 (seg_x hx a rfl g2 g3)
  have x2 : u 2 = n → u 1 ≠ b * u 2 := by rintro rfl a; exact q4 (seg_x hx a rfl g2 g3)
  have x3 : u 2 = f → u 1 ≠ t * u 2 := by rintro rfl a; exact q7 (seg_x hx a rfl g2 g3)
  have x4 : u 2 = f → u 1 ≠ b * u 2 := by rintro rfl a; exact q8 (seg_x hx a rfl g2 g3)
  have w1 : u 2 = n → u 2 ≠ f := by intro a b; linarith
  have w2 : u 0 = r * u 2 → u 0 ≠ l * u 2 := by intro a b; linarith
  have w3 : u 1 = t * u 2 → u 1 ≠ b * u 2 := by intro a b; linarith
  have p1 : (![0, 0, -1] : Pt) ⬝ᵥ u = -n ↔ u 2 = n := by simp [dotProduct, Fin.sum_univ_three]
  have p2 : (![0, 0, 1] : Pt) ⬝ᵥ u = f ↔ u 2 = f := by simp [dotProduct, Fin.sum_univ_three]
  have p3 : (![1, 0, -r] : Pt) ⬝ᵥ u = 0 ↔ u 0 = r * u 2 := by simp [dotProduct, Fin.sum_univ_three]; constructor <;> intro h <;> linarith
  have p4 : (![-1, 0, l] : Pt) ⬝ᵥ u = 0 ↔ u 0 = l * u 2 := by simp [dotProduct, Fin.sum_univ_three]; constructor <;> intro h <;> linarith
  have p5 : (![0, 1, -t] : Pt) ⬝ᵥ u = 0 ↔ u 1 = t * u 2 := by simp [dotProduct, Fin.sum_univ_three]; constructor <;> intro h <;> linarith
  have p6 : (![0, -1, b] : Pt) ⬝ᵥ u = 0 ↔ u 1 = b * u 2 := by simp [dotProduct, Fin.sum_univ_three]; constructor <;> intro h <;> linarith
  simp only [fplanes, ffaces, List.forall_mem_cons, List.not_mem_nil, IsEmpty.forall_iff, implies_true, and_true, List.exists_mem_cons_iff, false_and, exists_false, or_false,
    p1, p2, p3, p4, p5, p6, Ne]
  have hI : ∀ {a : Prop} {x : Pt × ℝ} (y : Pt × ℝ), ¬ a → (a → x = y) := fun y h k => absurd k h
  by_cases a1 : u 2 = n
  · exact Or.inr (Or.inl ⟨a1, trivial, hI _ (w1 a1), hI _ (y1 a1), hI _ (y2 a1), hI _ (x1 a1), hI _ (x2 a1)⟩)
  by_cases a2 : u 2 = f
  · exact Or.inr (Or.inr (Or.inl ⟨a2, hI _ a1, trivial, hI _ (y3 a2), hI _ (y4 a2), hI _ (x3 a2), hI _ (x4 a2)⟩))
  by_cases a3 : u 0 = r * u 2
  · exact Or.inr (Or.inr (Or.inr (Or.inl ⟨a3, hI _ a1, hI _ a2, trivial, hI _ (w2 a3), hI _ (z1 a3), hI _ (z2 a3)⟩)))
  by_cases a4 : u 0 = l * u 2
  · exact Or.inr (Or.inr (Or.inr (Or.inr (Or.inl ⟨a4, hI _ a1, hI _ a2, hI _ a3, trivial, hI _ (z3 a4), hI _ (z4 a4)⟩))))
  by_cases a5 : u 1 = t * u 2
  · exact Or.inr (Or.inr (Or.inr (Or.inr (Or.inr (Or.inl ⟨a5, hI _ a1, hI _ a2, hI _ a3, hI _ a4, trivial, hI _ (w3 a5)⟩)))))
  by_cases a6 : u 1 = b * u 2
  · exact Or.inr (Or.inr (Or.inr (Or.inr (Or.inr (Or.inr ⟨a6, hI _ a1, hI _ a2, hI _ a3, hI _ a4, hI _ a5⟩)))))
  exact Or.inl ⟨a1, a2, a3, a4, a5, a6⟩

/-- Intersection of a frustum and a sphere is exact, for frusta that are not flat and do not contain their apex. -/
theorem C91_sphere (c : Cfg) (o a : Pt) (R : ℝ) (q : Quaternion ℝ) (r l t b n f : ℝ) (hq : Quaternion.normSq q = 1) (hv : ValidFrustum r l t b n f)
    (hlr : l ≠ r) (hbt : b ≠ t) (hnf : n ≠ f) (hn : n ≠ 0) (hf : f ≠ 0) (hR : 0 ≤ R) :
    BoundingFrustum.IntersectsSphere c (frustumOf o q r l t b n f) (sphereOf a R) = true ↔
      (frustum o q r l t b n f ∩ ball a R).Nonempty := by
  rw [fs_eval c o a R hR q r l t b n f (fsegs_ne hlr hbt hnf hn hf), loc_nonempty hq (fun p => mem_frustum hq) (fun p => mem_ball_loc (a := o) hq)]
  dsimp only
  set C := rot (star q) (a - o)
  have hC : C ∈ ball C R := by rw [mem_ball, sub_self]; simpa [len] using hR
  have hface : ∀ F ∈ ffaces r l t b n f, F.1 ∈ fplanes r l t b n f ∧ ∀ Q ∈ F.2, Q ∈ fplanes r l t b n f := by
    simp only [fplanes, ffaces, List.forall_mem_cons, List.not_mem_nil, IsEmpty.forall_iff, implies_true, and_true]
    simp
  constructor
  · rintro ⟨h1, h2 | h2 | ⟨F, hF, h2, h3⟩ | ⟨s, hs, y, hy, h2⟩⟩
    · refine ⟨C, mem_frustum0.2 fun P hP => ?_, hC⟩
      have hl := inv_pos.2 (Geo.len_pos (fplanes_ne _ _ _ _ _ _ P hP))
      by_contra k; push Not at k
      have := h2 P hP; have := mul_pos hl (sub_pos.2 k); linarith
    · refine ⟨C, mem_frustum0.2 fun P hP => ?_, hC⟩
      have hl := inv_pos.2 (Geo.len_pos (fplanes_ne _ _ _ _ _ _ P hP))
      by_contra k; push Not at k
      have := h2 P hP; have := mul_pos hl (sub_pos.2 k); linarith
    · have hP := (hface F hF).1
      have hne := fplanes_ne _ _ _ _ _ _ F.1 hP
      have hN := RG.dot_self_pos hne
      refine ⟨_, face_in hv hF ?_ h3, ?_⟩
      · rw [dotProduct_sub, dotProduct_smul, smul_eq_mul, div_mul_cancel₀ _ hN.ne']; ring
      · rw [mem_ball, sub_sub_cancel_left, len_neg, Spec.len_smul]
        have h1' : ¬ R < (len F.1.1)⁻¹ * (F.1.1 ⬝ᵥ C - F.1.2) := fun k => h1 ⟨_, hP, k⟩
        push Not at h1'
        rw [abs_of_pos (div_pos (sub_pos.2 h2) hN), ← Geo.len_sq]
        have hl := Geo.len_pos hne
        refine le_trans (le_of_eq ?_) h1'
        field_simp
    · exact ⟨y, seg_in hv hs hy, h2⟩
  · rintro ⟨y, hy, hyb⟩
    have hout : ∀ P ∈ fplanes r l t b n f, (len P.1)⁻¹ * (P.1 ⬝ᵥ C - P.2) ≤ R := by
      intro P hP
      have hl := Geo.len_pos (fplanes_ne _ _ _ _ _ _ P hP)
      have k1 := mem_frustum0.1 hy P hP
      have k2 := cs P.1 (C - y)
      rw [mem_ball, len_sub_comm] at hyb
      rw [dotProduct_sub] at k2
      rw [inv_mul_le_iff₀ hl]
      have := mul_le_mul_of_nonneg_left hyb hl.le
      linarith
    refine ⟨fun ⟨P, hP, k⟩ => absurd (hout P hP) (not_le.2 k), Or.inr ?_⟩
    by_cases hin : C ∈ frustum0 r l t b n f
    · left; intro P hP
      have hl := inv_pos.2 (Geo.len_pos (fplanes_ne _ _ _ _ _ _ P hP))
      have := mul_nonneg hl.le (sub_nonneg.2 (mem_frustum0.1 hin P hP)); linarith
    right
    obtain ⟨p, hp, hm, hvar⟩ := nearest (frustum0_convex (r := r) (l := l) (t := t) (b := b) (n := n) (f := f)) (frustum0_compact hv) ⟨y, hy⟩ C
    have hpb : p ∈ ball C R := by
      rw [mem_ball, len_sub_comm] at hyb ⊢; exact (hm y hy).trans hyb
    have hd0 : C - p ≠ 0 := fun k => hin (by rw [sub_eq_zero.1 k]; exact hp)
    have hvar' : ∀ u : Pt, (∀ P ∈ fplanes r l t b n f, P.1 ⬝ᵥ u ≤ P.2) → (C - p) ⬝ᵥ (u - p) ≤ 0 := fun u hu => hvar u (mem_frustum0.2 hu)
    rcases face_or_edge hv hlr hbt hnf hn hf hp with ⟨s, hs, h⟩ | h | ⟨F, hF, h1, h2⟩
    · exact Or.inr ⟨s, hs, p, h, hpb⟩
    · have := tangent (v := C - p) (mem_frustum0.1 hp) hvar' fun P hP e => absurd e (h P hP)
      have := RG.dot_self_pos hd0; linarith
    · left
      have hN := RG.dot_self_pos (fplanes_ne _ _ _ _ _ _ F.1 (hface F hF).1)
      obtain ⟨k, hk, e⟩ := one_active (mem_frustum0.1 hp) hvar' (fplanes_ne _ _ _ _ _ _ F.1 (hface F hF).1) h2 hd0
      have e1 : F.1.1 ⬝ᵥ C = F.1.2 + k * (F.1.1 ⬝ᵥ F.1.1) := by
        have : C = p + k • F.1.1 := by rw [← e]; abel
        rw [this, dotProduct_add, dotProduct_smul, smul_eq_mul, h1]
      have e2 : (F.1.1 ⬝ᵥ C - F.1.2) / (F.1.1 ⬝ᵥ F.1.1) = k := by rw [e1]; field_simp; ring
      refine ⟨F, hF, by rw [e1]; have := mul_pos hk hN; linarith, ?_⟩
      rw [e2, ← e, sub_sub_cancel]
      exact fun Q hQ => mem_frustum0.1 hp Q ((hface F hF).2 Q hQ)
end DXM.Props
