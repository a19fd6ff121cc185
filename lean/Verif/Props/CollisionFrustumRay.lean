import Verif.Props.CollisionRay
import Verif.Props.CollisionFrustum

/-
C92: ray against frustum.
-/

set_option linter.all false

namespace DXM.Props
open DXM.E DXM.Spec DXM.RG DXM.Geo Matrix Classical

theorem v_planeDotCoord (c : Cfg) (n p : Pt) (d : ℝ) (w : E) : XMPlaneDotCoord c (vec3 n (num d)) (vec3 p w) = all (n ⬝ᵥ p + d) := by
  have h : XMVectorSelect g_XMOne (vec3 p w) g_XMSelect1110 = vec3 p (num 1) := by simp
  rw [XMPlaneDotCoord, h, v_dot4, mul_one]

/-- The rate at which the point at parameter `t` approaches the plane with normal `v`, as a fraction of `len v`. -/
noncomputable def approach (v d : Pt) : ℝ := (v ⬝ᵥ d) / len v

/-- One step and the whole plane loop: the parameters at which the line is behind every plane, within the given range. -/
theorem rayLoop_spec (c : Cfg) (o : Pt) (q : Quaternion ℝ) (r l t b n f : ℝ) (hq : Quaternion.normSq q = 1) (p d : Pt) (w w' : E) (Ps : List (Pt × ℝ))
    (hv : ∀ P ∈ Ps, P.1 ≠ 0) (hd : ∀ P ∈ Ps, P.1 ⬝ᵥ rot (star q) d = 0 ∨ rayEps < |approach P.1 (rot (star q) d)|) (tn tf : ℝ) (htf : tn ≤ tf) :
    (BoundingFrustum.rayLoop c (frustumOf o q r l t b n f) (vec3 p w) (vec3 d w') (Ps.map fun P => vec3 P.1 (num (-P.2))) (num tn) (num tf) = none ∧
      ¬ ∃ s, tn ≤ s ∧ s ≤ tf ∧ ∀ P ∈ Ps, P.1 ⬝ᵥ (rot (star q) (p + s • d - o)) ≤ P.2) ∨
    ∃ tn' tf', BoundingFrustum.rayLoop c (frustumOf o q r l t b n f) (vec3 p w) (vec3 d w') (Ps.map fun P => vec3 P.1 (num (-P.2))) (num tn) (num tf) =
        some (num tn', num tf') ∧ tn' ≤ tf' ∧
      ∀ s, (tn' ≤ s ∧ s ≤ tf') ↔ (tn ≤ s ∧ s ≤ tf ∧ ∀ P ∈ Ps, P.1 ⬝ᵥ (rot (star q) (p + s • d - o)) ≤ P.2) := by
  have hs := nstar hq
  induction Ps generalizing tn tf with
  | nil => right; exact ⟨tn, tf, rfl, htf, fun s => by simp⟩
  | cons P Ps ih =>
    obtain ⟨v, e⟩ := P
    have ihr := ih (fun P hP => hv P (by simp [hP])) (fun P hP => hd P (by simp [hP]))
    have v0 : v ≠ 0 := hv (v, e) (by simp)
    have hL : 0 < len v := lt_of_le_of_ne (len_nonneg v) (fun k => v0 (len_eq_zero.1 k.symm))
    have hLi := inv_pos.2 hL
    have d0 := hd (v, e) (by simp)
    dsimp only at d0
    set A := v ⬝ᵥ rot (star q) d with hA
    set B := v ⬝ᵥ rot (star q) (p - o) - e with hB
    have line : ∀ s, v ⬝ᵥ rot (star q) (p + s • d - o) ≤ e ↔ B + s * A ≤ 0 := by
      intro s
      have : p + s • d - o = (p - o) + s • d := by abel
      rw [this, rot_add hs, rot_smul hs, dotProduct_add, dotProduct_smul, smul_eq_mul, ← hA]
      constructor <;> intro h <;> linarith
    have eD : XMVector3Dot c (vec3 ((len v)⁻¹ • rot q v) (num ((len v)⁻¹ * (-e - rot q v ⬝ᵥ o)))) (vec3 d w') = all ((len v)⁻¹ * A) := by
      rw [v_dot, smul_dotProduct, smul_eq_mul]
      congr 2
      rw [hA, ← rot_dot hq v, rot_rot_star hq]
    have eN : XMPlaneDotCoord c (vec3 ((len v)⁻¹ • rot q v) (num ((len v)⁻¹ * (-e - rot q v ⬝ᵥ o)))) (vec3 p w) = all ((len v)⁻¹ * B) := by
      rw [v_planeDotCoord, smul_dotProduct, smul_eq_mul]
      congr 1
      rw [hB, ← rot_dot hq v, rot_rot_star hq, dotProduct_sub]; ring
    have z0 : (g_XMZero : V4 E) = all 0 := by simp [g_XMZero]
    rw [List.map_cons]
    simp only [BoundingFrustum.rayLoop, world_plane c o v q r l t b n f _ hq v0, eD, eN, z0, s_abs, v_rayEps, p_le, p_gt, v_getx, s_x, neg_num, s_c0]
    have ap : approach v (rot (star q) d) = (len v)⁻¹ * A := by rw [approach, div_eq_inv_mul]
    simp only [List.forall_mem_cons, line]
    by_cases hA0 : A = 0
    · have h1 : |(len v)⁻¹ * A| ≤ rayEps := by rw [hA0, mul_zero, abs_zero]; exact rayEps_pos.le
      rw [if_pos h1, hA0]
      simp only [mul_zero, add_zero]
      by_cases hB0 : 0 < B
      · rw [if_pos (mul_pos hLi hB0)]
        left
        exact ⟨rfl, fun ⟨s, _, _, h, _⟩ => by linarith⟩
      · rw [if_neg (by rw [mul_pos_iff_of_pos_left hLi]; exact hB0)]
        have hB1 : B ≤ 0 := not_lt.1 hB0
        simpa only [hB1, true_and] using ihr tn tf htf
    · have h1 : ¬ |(len v)⁻¹ * A| ≤ rayEps := by
        rw [ap] at d0
        rcases d0 with h | h
        · exact absurd h hA0
        · exact not_le.2 h
      have hLA : (len v)⁻¹ * A ≠ 0 := mul_ne_zero hLi.ne' hA0
      rw [if_neg h1, div_num _ _ hLA]
      have eT : -((len v)⁻¹ * B) / ((len v)⁻¹ * A) = -B / A := by field_simp
      rw [eT]
      set T := -B / A with hT
      have hTA : T * A = -B := by rw [hT, div_mul_cancel₀ _ hA0]
      simp only [lt_num, gt_num, decide_eq_true_eq]
      by_cases hneg : A < 0
      · have k1 : (len v)⁻¹ * A < 0 := mul_neg_of_pos_of_neg hLi hneg
        have half : ∀ s, B + s * A ≤ 0 ↔ T ≤ s := by
          intro s
          rw [show B + s * A = (s - T) * A by rw [sub_mul, hTA]; ring]
          constructor
          · intro h; by_contra hc; exact absurd (mul_pos_of_neg_of_neg (by linarith : s - T < 0) hneg) (not_lt.2 h)
          · intro h; exact mul_nonpos_of_nonneg_of_nonpos (by linarith) hneg.le
        simp only [k1, if_true, half]
        by_cases hf : tf < T
        · rw [if_pos hf]
          left
          exact ⟨rfl, fun ⟨s, _, h2, h3, _⟩ => by linarith⟩
        · rw [if_neg hf]
          have em : (if tn < T then num T else num tn : E) = num (max tn T) := by
            by_cases h : tn < T
            · rw [if_pos h, max_eq_right h.le]
            · rw [if_neg h, max_eq_left (not_lt.1 h)]
          rw [em]
          have := ihr (max tn T) tf (max_le htf (not_lt.1 hf))
          have eq : ∀ s (X : Prop), (max tn T ≤ s ∧ s ≤ tf ∧ X) ↔ (tn ≤ s ∧ s ≤ tf ∧ T ≤ s ∧ X) := by
            intro s X; rw [max_le_iff]; tauto
          simpa only [eq] using this
      · have hpos : 0 < A := lt_of_le_of_ne (not_lt.1 hneg) (Ne.symm hA0)
        have k1 : ¬ (len v)⁻¹ * A < 0 := not_lt.2 (mul_pos hLi hpos).le
        have half : ∀ s, B + s * A ≤ 0 ↔ s ≤ T := by
          intro s
          rw [show B + s * A = (s - T) * A by rw [sub_mul, hTA]; ring]
          constructor
          · intro h; by_contra hc; exact absurd (mul_pos (by linarith : 0 < s - T) hpos) (not_lt.2 h)
          · intro h; exact mul_nonpos_of_nonpos_of_nonneg (by linarith) hpos.le
        simp only [k1, if_false, half]
        by_cases hf : T < tn
        · rw [if_pos hf]
          left
          exact ⟨rfl, fun ⟨s, h1, _, h3, _⟩ => by linarith⟩
        · rw [if_neg hf]
          have em : (if T < tf then num T else num tf : E) = num (min tf T) := by
            by_cases h : T < tf
            · rw [if_pos h, min_eq_right h.le]
            · rw [if_neg h, min_eq_left (not_lt.1 h)]
          rw [em]
          have := ihr tn (min tf T) (le_min htf (not_lt.1 hf))
          have eq : ∀ s (X : Prop), (tn ≤ s ∧ s ≤ min tf T ∧ X) ↔ (tn ≤ s ∧ s ≤ tf ∧ s ≤ T ∧ X) := by
            intro s X; rw [le_min_iff]; tauto
          simpa only [eq] using this

/-- Exact for directions that are parallel to a face or approach it faster than 1e-20 per unit of the parameter, when the frustum is not met
beyond the largest binary32 number: a hit reports the first parameter in the frustum (0 from inside), a miss reports 0. -/
theorem C92_ray (c : Cfg) (o : Pt) (q : Quaternion ℝ) (r l t b n f : ℝ) (hq : Quaternion.normSq q = 1) (p d : Pt) (w w' : E)
    (hd : ∀ v ∈ [![0, 0, -1], ![0, 0, 1], ![1, 0, -r], ![-1, 0, l], ![0, 1, -t], ![0, -1, b]],
      v ⬝ᵥ rot (star q) d = 0 ∨ rayEps < |approach v (rot (star q) d)|)
    (hmax : ∀ s : ℝ, p + s • d ∈ frustum o q r l t b n f → s ≤ fltMax) :
    if (ray p d ∩ frustum o q r l t b n f).Nonempty then
      ∃ s : ℝ, BoundingFrustum.IntersectsRay c (frustumOf o q r l t b n f) (vec3 p w) (vec3 d w') = (true, num s) ∧ 0 ≤ s ∧
        p + s • d ∈ frustum o q r l t b n f ∧ ∀ s' : ℝ, 0 ≤ s' → p + s' • d ∈ frustum o q r l t b n f → s ≤ s'
    else BoundingFrustum.IntersectsRay c (frustumOf o q r l t b n f) (vec3 p w) (vec3 d w') = (false, num 0) := by
  have hM := fltMax_pos
  have b1 : (Lane.ofBits 0xFF7FFFFF#32 : E) = num (-fltMax) := by simp [E.ofBits_eq, E.ofBits, E.valQ, fltMax] <;> norm_num
  have b2 : (Lane.ofBits 0x7F7FFFFF#32 : E) = num fltMax := by simp [E.ofBits_eq, E.ofBits, E.valQ, fltMax] <;> norm_num
  have mem : ∀ s : ℝ, p + s • d ∈ frustum o q r l t b n f ↔ ∀ P ∈ fplanes r l t b n f, P.1 ⬝ᵥ (rot (star q) (p + s • d - o)) ≤ P.2 := by
    intro s; rw [mem_frustum hq, mem_frustum0]
  have hits : (ray p d ∩ frustum o q r l t b n f).Nonempty ↔ ∃ s : ℝ, 0 ≤ s ∧ p + s • d ∈ frustum o q r l t b n f := by
    constructor
    · rintro ⟨_, ⟨s, hs, rfl⟩, h⟩; exact ⟨s, hs, h⟩
    · rintro ⟨s, hs, h⟩; exact ⟨_, ⟨s, hs, rfl⟩, h⟩
  have p0 : p + (0 : ℝ) • d = p := by simp
  unfold BoundingFrustum.IntersectsRay
  rw [C90_containsPoint c o p q r l t b n f w hq, b1, b2, fr_planes]
  by_cases hin : p ∈ frustum o q r l t b n f
  · rw [if_pos (hits.2 ⟨0, le_rfl, by rw [p0]; exact hin⟩)]
    refine ⟨0, ?_, le_rfl, by rw [p0]; exact hin, fun s' h _ => h⟩
    simp [hin]
  · rw [if_neg hin]
    simp only [reduceCtorEq, if_false]
    have hv : ∀ P ∈ fplanes r l t b n f, P.1 ≠ 0 := by
      intro P hP
      simp only [fplanes, List.mem_cons, List.not_mem_nil, or_false] at hP
      rcases hP with rfl | rfl | rfl | rfl | rfl | rfl
      · exact fun h => by simpa using congrFun h 2
      · exact fun h => by simpa using congrFun h 2
      · exact fun h => by simpa using congrFun h 0
      · exact fun h => by simpa using congrFun h 0
      · exact fun h => by simpa using congrFun h 1
      · exact fun h => by simpa using congrFun h 1
    have hd' : ∀ P ∈ fplanes r l t b n f, P.1 ⬝ᵥ rot (star q) d = 0 ∨ rayEps < |approach P.1 (rot (star q) d)| := by
      intro P hP
      apply hd
      simp only [fplanes, List.mem_cons, List.not_mem_nil, or_false] at hP ⊢
      rcases hP with rfl | rfl | rfl | rfl | rfl | rfl <;> simp
    rcases rayLoop_spec c o q r l t b n f hq p d w w' (fplanes r l t b n f) hv hd' (-fltMax) fltMax (by linarith) with ⟨h1, h2⟩ | ⟨tn, tf, h1, h2, h3⟩
    · rw [h1, if_neg, s_c0]
      rw [hits]
      rintro ⟨s, hs, h⟩
      exact h2 ⟨s, by linarith, hmax s h, (mem s).1 h⟩
    · rw [h1]
      simp only [← mem] at h3
      simp only [s_c0, ge_num, decide_eq_true_eq]
      by_cases h0 : 0 ≤ tn
      · have := (h3 tn).1 ⟨le_rfl, h2⟩
        rw [if_pos (hits.2 ⟨tn, h0, this.2.2⟩)]
        refine ⟨tn, by simp [h0], h0, this.2.2, ?_⟩
        intro s' hs' h
        exact ((h3 s').2 ⟨by linarith, hmax s' h, h⟩).1
      · have ht : tf < 0 := by
          by_contra hc
          have := (h3 0).1 ⟨by linarith, not_lt.1 hc⟩
          rw [p0] at this
          exact hin this.2.2
        rw [if_neg]
        · simp [h0, not_le.2 ht]
        · rw [hits]
          rintro ⟨s, hs, h⟩
          have := (h3 s).2 ⟨by linarith, hmax s h, h⟩
          linarith [this.2]

theorem len_face (x : ℝ) : len ![1, 0, x] ≤ 1 + |x| ∧ len ![0, 1, x] ≤ 1 + |x| ∧ len ![-1, 0, x] ≤ 1 + |x| ∧ len ![0, -1, x] ≤ 1 + |x| := by
  have : √(1 + x * x) ≤ 1 + |x| := by
    rw [Real.sqrt_le_left (by positivity)]; nlinarith [abs_nonneg x, abs_mul_abs_self x]
  refine ⟨?_, ?_, ?_, ?_⟩ <;> simpa [len, dotProduct, Fin.sum_univ_three] using this

theorem slow_enough {v d : Pt} (hv : 0 < len v) (hl : len v ≤ 2) (hd : 1 ≤ |v ⬝ᵥ d|) : rayEps < |approach v d| := by
  have : rayEps < 1/2 := by unfold rayEps; norm_num
  unfold approach
  rw [abs_div, abs_of_pos hv, lt_div_iff₀ hv]
  nlinarith [rayEps_pos]

/-- A ray from the apex along the axis enters at the near plane. -/
example (c : Cfg) : BoundingFrustum.IntersectsRay c (frustumOf 0 1 1 (-1) 1 (-1) 1 10) (vec3 0 (num 0)) (vec3 ![0, 0, 1] (num 0)) = (true, num 1) := by
  have hin : ∀ s : ℝ, 0 + s • (![0, 0, 1] : Pt) ∈ frustum 0 1 1 (-1) 1 (-1) 1 10 ↔ 1 ≤ s ∧ s ≤ 10 := by
    intro s
    rw [mem_frustum (by simp)]
    simp only [star_one, rot_one, sub_zero, zero_add]
    simp [frustum0]
    intro h1 h2
    linarith
  have h := C92_ray c 0 1 1 (-1) 1 (-1) 1 10 (by simp) 0 ![0, 0, 1] (num 0) (num 0) (by
    intro v hv
    right
    rw [star_one, rot_one]
    simp only [List.mem_cons, List.not_mem_nil, or_false] at hv
    have e2 : √(2 : ℝ) ≤ 2 := by rw [Real.sqrt_le_left] <;> norm_num
    have e3 : √((1 : ℝ) + 1) ≤ 2 := by rw [Real.sqrt_le_left] <;> norm_num
    rcases hv with rfl | rfl | rfl | rfl | rfl | rfl <;>
      exact slow_enough (by simp [len, dotProduct, Fin.sum_univ_three] <;> positivity) (by simp [len, dotProduct, Fin.sum_univ_three]; try assumption) (by simp [dotProduct, Fin.sum_univ_three]))
    (by intro s hs; rw [hin] at hs; unfold fltMax; linarith [hs.2])
  rw [if_pos ⟨0 + (1 : ℝ) • ![0, 0, 1], ⟨1, zero_le_one, rfl⟩, (hin 1).2 ⟨le_rfl, by norm_num⟩⟩] at h
  obtain ⟨s, h1, h2, h3, h4⟩ := h
  have a := (hin s).1 h3
  have b := h4 1 zero_le_one ((hin 1).2 ⟨le_rfl, by norm_num⟩)
  rw [h1, show s = 1 by linarith [a.1]]

/-- The threshold matters: the same ray with the direction scaled to 1e-20 is reported as a miss. -/
theorem C92_slow_fails (c : Cfg) : BoundingFrustum.IntersectsRay c (frustumOf 0 1 1 (-1) 1 (-1) 1 10) (vec3 0 (num 0)) (vec3 ![0, 0, rayEps] (num 0)) = (false, num 0) ∧
    (ray 0 ![0, 0, rayEps] ∩ frustum 0 1 1 (-1) 1 (-1) 1 10).Nonempty := by
  have hp := rayEps_pos
  constructor
  · unfold BoundingFrustum.IntersectsRay
    have h0 : (0 : Pt) ∉ frustum 0 1 1 (-1) 1 (-1) 1 10 := by
      rw [mem_frustum (by simp)]
      simp only [star_one, rot_one, sub_zero, zero_add]
      simp [frustum0]
    rw [C90_containsPoint c _ _ _ _ _ _ _ _ _ _ (by simp), if_neg h0, fr_planes]
    have z0 : (g_XMZero : V4 E) = all 0 := by simp [g_XMZero]
    have e0 : (![0, 0, -1] : Pt) ≠ 0 := fun h => by simpa using congrFun h 2
    have l0 : len (![0, 0, -1] : Pt) = 1 := by simp [len, dotProduct, Fin.sum_univ_three]
    rw [fplanes, List.map_cons]
    generalize List.map (fun P : Pt × ℝ => (vec3 P.1 (num (-P.2)) : V4 E)) _ = R
    generalize (Lane.ofBits 0xFF7FFFFF#32 : E) = x
    generalize (Lane.ofBits 0x7F7FFFFF#32 : E) = y
    rw [BoundingFrustum.rayLoop]
    dsimp only
    rw [world_plane c 0 _ 1 1 (-1) 1 (-1) 1 10 _ (by simp) e0, l0, v_dot, v_planeDotCoord, s_abs, v_rayEps, z0]
    simp only [p_le, p_gt, rot_one, s_c0]
    rw [if_neg (by simp), if_pos, if_pos]
    · simp [dotProduct, Fin.sum_univ_three]
    · simp [dotProduct, Fin.sum_univ_three, abs_of_pos hp]
  · refine ⟨![0, 0, 1], ⟨rayEps⁻¹, (inv_pos.2 hp).le, ?_⟩, ?_⟩
    · ext i; fin_cases i <;> simp [hp.ne']
    · rw [mem_frustum (by simp)]
      simp only [star_one, rot_one, sub_zero, zero_add]
      simp [frustum0]

end DXM.Props
