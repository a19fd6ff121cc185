import Verif.Props.CollisionOBB

/-
C79: rays against boxes and oriented boxes.
-/

set_option linter.all false

namespace DXM.Props
open DXM.E DXM.Spec DXM.RG DXM.Geo Matrix Classical

/-- The threshold below which the code treats a direction component as parallel to a slab: the binary32 number nearest 1e-20. -/
noncomputable def rayEps : ℝ := 12379400 / 2^90
/-- The largest finite binary32 number. -/
noncomputable def fltMax : ℝ := 340282346638528859811704183484516925440
theorem rayEps_pos : 0 < rayEps := by unfold rayEps; positivity
theorem fltMax_pos : 0 < fltMax := by unfold fltMax; positivity
end DXM.Props
namespace DXM.Geo
open DXM.E DXM.Spec DXM.Props DXM.RG Matrix Classical
theorem v_rayEps : (g_RayEpsilon : V4 E) = all rayEps := by
  have : (Lane.ofBits 0x1E3CE508#32 : E) = num rayEps := by simp [E.ofBits_eq, E.ofBits, E.valQ, rayEps] <;> norm_num
  simp [g_RayEpsilon, this]
theorem v_rayNegEps : (g_RayNegEpsilon : V4 E) = all (-rayEps) := by
  have : (Lane.ofBits 0x9E3CE508#32 : E) = num (-rayEps) := by simp [E.ofBits_eq, E.ofBits, E.valQ, rayEps] <;> norm_num
  simp [g_RayNegEpsilon, this]
theorem v_fltMax : (g_FltMax : V4 E) = all fltMax := by simp [g_FltMax, fltMax]
theorem v_fltMin : (g_FltMin : V4 E) = all (-fltMax) := by
  have : (Lane.ofBits 0xFF7FFFFF#32 : E) = num (-fltMax) := by simp [E.ofBits_eq, E.ofBits, E.valQ, fltMax] <;> norm_num
  simp [g_FltMin, this]
theorem v_abs' (c : Cfg) (a : Pt) (w : E) : ∃ w', XMVectorAbs c (vec3 a w) = vec3 |a| w' := by
  have h : ∀ r : ℝ, (Lane.maxps (Lane.sub (num 0) (num r)) (num r) : E) = num |r| := by
    intro r; simp [abs_eq_max_neg, max_comm]
  by_cases hs : c.sse
  · refine ⟨Lane.maxps (Lane.sub (num 0) w) w, ?_⟩
    have e0 : (Lane.ofBits 0#32 : E) = num 0 := by simp
    simp only [XMVectorAbs, hs, if_true, SSE.max, SSE.sub, V4.map2, SSE.setzero, V4.splat, vec3, Lane.c0, e0, h, Pi.abs_apply]
  · exact ⟨_, by simp [XMVectorAbs, hs, V4.map]; rfl⟩
theorem v_max_s (a : Pt) (b : ℝ) (w : E) : XMVectorMax (vec3 a w) (all b) = vec3 (fun i => max (a i) b) (Lane.maxps w (num b)) := by
  simp [XMVectorMax]
theorem v_min_s (a : Pt) (b : ℝ) (w : E) : XMVectorMin (vec3 a w) (all b) = vec3 (fun i => min (a i) b) (Lane.minps w (num b)) := by
  simp [XMVectorMin]
theorem v_le_s (a : Pt) (b : ℝ) (w : E) : XMVectorLessOrEqual (vec3 a w) (all b) = msk3 (fun i => a i ≤ b) (dm (Lane.le w (num b) = true)) := by
  simp [XMVectorLessOrEqual, msk3, mask_dm, mask_dm']
theorem sel_lane_t (p : Prop) (a b : E) (h : p) : (Lane.bor (Lane.bandn (dm p) a) (Lane.band b (dm p)) : E) = b := by
  rw [dm_t h]; simp
theorem sel_lane_f (p : Prop) (a b : E) (h : ¬ p) : (Lane.bor (Lane.bandn (dm p) a) (Lane.band b (dm p)) : E) = a := by
  rw [dm_f h]; simp

/-- The common tail of the two slab tests. -/
noncomputable def slabBody (c : Cfg) (AxisDotOrigin vExtents AxisDotDirection : V4 E) : Bool × E :=
  let IsParallel := XMVectorLessOrEqual (XMVectorAbs c AxisDotDirection) g_RayEpsilon
  let InverseAxisDotDirection := XMVectorReciprocal AxisDotDirection
  let t1 := XMVectorMultiply (XMVectorSubtract AxisDotOrigin vExtents) InverseAxisDotDirection
  let t2 := XMVectorMultiply (XMVectorAdd AxisDotOrigin vExtents) InverseAxisDotDirection
  let t_min := XMVectorSelect (XMVectorMin t1 t2) g_FltMin IsParallel
  let t_max := XMVectorSelect (XMVectorMax t1 t2) g_FltMax IsParallel
  let t_min := XMVectorMax t_min (XMVectorSplatY c t_min)
  let t_min := XMVectorMax t_min (XMVectorSplatZ c t_min)
  let t_max := XMVectorMin t_max (XMVectorSplatY c t_max)
  let t_max := XMVectorMin t_max (XMVectorSplatZ c t_max)
  let NoIntersection := XMVectorGreater (XMVectorSplatX c t_min) (XMVectorSplatX c t_max)
  let NoIntersection := XMVectorOrInt NoIntersection (XMVectorLess (XMVectorSplatX c t_max) XMVectorZero)
  let ParallelOverlap := XMVectorInBounds c AxisDotOrigin vExtents
  let NoIntersection := XMVectorOrInt NoIntersection (XMVectorAndCInt IsParallel ParallelOverlap)
  if !XMVector3AnyTrue c NoIntersection then (true, t_min.x) else (false, Lane.c0)

/-- Entry and exit parameters of one slab as computed. -/
noncomputable def slabLo (T e d : ℝ) : ℝ := if |d| ≤ rayEps then -fltMax else min ((T - e) * d⁻¹) ((T + e) * d⁻¹)
noncomputable def slabHi (T e d : ℝ) : ℝ := if |d| ≤ rayEps then fltMax else max ((T - e) * d⁻¹) ((T + e) * d⁻¹)

theorem ex_w {V : V4 E} {f : Pt} (h0 : V.x = num (f 0)) (h1 : V.y = num (f 1)) (h2 : V.z = num (f 2)) : ∃ w, V = vec3 f w := by
  obtain ⟨x, y, z, w⟩ := V
  simp only at h0 h1 h2
  subst h0 h1 h2
  exact ⟨w, rfl⟩
theorem slab_sel (c : Cfg) (T e d : Pt) (wT we wd v : E) :
    (∃ w, XMVectorSelect (XMVectorMin (XMVectorMultiply (XMVectorSubtract (vec3 T wT) (vec3 e we)) (XMVectorReciprocal (vec3 d wd)))
        (XMVectorMultiply (XMVectorAdd (vec3 T wT) (vec3 e we)) (XMVectorReciprocal (vec3 d wd)))) g_FltMin (msk3 (fun i => |d i| ≤ rayEps) v) =
      vec3 (fun i => slabLo (T i) (e i) (d i)) w) ∧
    (∃ w, XMVectorSelect (XMVectorMax (XMVectorMultiply (XMVectorSubtract (vec3 T wT) (vec3 e we)) (XMVectorReciprocal (vec3 d wd)))
        (XMVectorMultiply (XMVectorAdd (vec3 T wT) (vec3 e we)) (XMVectorReciprocal (vec3 d wd)))) g_FltMax (msk3 (fun i => |d i| ≤ rayEps) v) =
      vec3 (fun i => slabHi (T i) (e i) (d i)) w) := by
  have h1 : ∀ T e d : ℝ, (Lane.bor (Lane.bandn (dm (|d| ≤ rayEps)) (Lane.minps (Lane.mul (Lane.sub (num T) (num e)) (Lane.div (num 1) (num d)))
      (Lane.mul (Lane.add (num T) (num e)) (Lane.div (num 1) (num d))))) (Lane.band (num (-fltMax)) (dm (|d| ≤ rayEps))) : E) = num (slabLo T e d) := by
    intro T e d
    by_cases h : |d| ≤ rayEps
    · rw [sel_lane_t _ _ _ h]; simp [slabLo, h]
    · rw [sel_lane_f _ _ _ h]
      have : d ≠ 0 := by rintro rfl; exact h (by simpa using rayEps_pos.le)
      simp [slabLo, h, div_num, this]
  have h2 : ∀ T e d : ℝ, (Lane.bor (Lane.bandn (dm (|d| ≤ rayEps)) (Lane.maxps (Lane.mul (Lane.sub (num T) (num e)) (Lane.div (num 1) (num d)))
      (Lane.mul (Lane.add (num T) (num e)) (Lane.div (num 1) (num d))))) (Lane.band (num fltMax) (dm (|d| ≤ rayEps))) : E) = num (slabHi T e d) := by
    intro T e d
    by_cases h : |d| ≤ rayEps
    · rw [sel_lane_t _ _ _ h]; simp [slabHi, h]
    · rw [sel_lane_f _ _ _ h]
      have : d ≠ 0 := by rintro rfl; exact h (by simpa using rayEps_pos.le)
      simp [slabHi, h, div_num, this]
  have e1 : (Lane.ofBits 0x3F800000#32 : E) = num 1 := by simp
  constructor
  · rw [v_fltMin]
    refine ex_w ?_ ?_ ?_ <;>
    simp only [XMVectorSelect, XMVectorMin, XMVectorMultiply, XMVectorSubtract, XMVectorAdd, XMVectorReciprocal, SSE.or, SSE.andnot, SSE.and, SSE.min,
      SSE.mul, SSE.sub, SSE.add, SSE.div, V4.map2, V4.splat, vec3, all, msk3, Lane.c1, e1, h1]
  · rw [v_fltMax]
    refine ex_w ?_ ?_ ?_ <;>
    simp only [XMVectorSelect, XMVectorMax, XMVectorMultiply, XMVectorSubtract, XMVectorAdd, XMVectorReciprocal, SSE.or, SSE.andnot, SSE.and, SSE.max,
      SSE.mul, SSE.sub, SSE.add, SSE.div, V4.map2, V4.splat, vec3, all, msk3, Lane.c1, e1, h2]

theorem slab_eval (c : Cfg) (T e d : Pt) (wT we wd : E) :
    let lo := max (max (slabLo (T 0) (e 0) (d 0)) (slabLo (T 1) (e 1) (d 1))) (slabLo (T 2) (e 2) (d 2))
    let hi := min (min (slabHi (T 0) (e 0) (d 0)) (slabHi (T 1) (e 1) (d 1))) (slabHi (T 2) (e 2) (d 2))
    slabBody c (vec3 T wT) (vec3 e we) (vec3 d wd) =
      if hi < lo ∨ hi < 0 ∨ ∃ i, |d i| ≤ rayEps ∧ ¬ |T i| ≤ e i then (false, num 0) else (true, num lo) := by
  intro lo hi
  unfold slabBody
  obtain ⟨w1, h1⟩ := v_abs' c d wd
  simp only [h1, v_rayEps, v_le_s, Pi.abs_apply]
  obtain ⟨⟨w2, h2⟩, ⟨w3, h3⟩⟩ := slab_sel c T e d wT we wd (dm (Lane.le w1 (num rayEps) = true))
  simp only [h2, h3]
  simp only [v_max_s, v_min_s, v_splatx, v_splaty, v_splatz]
  geo
  have e1 : ∀ a b d : ℝ, max (max a b) (max d b) = max (max a b) d := by intro a b d; rw [max_comm d b, ← max_assoc, max_assoc a b b, max_self]
  have e2 : ∀ a b d : ℝ, min (min a b) (min d b) = min (min a b) d := by intro a b d; rw [min_comm d b, ← min_assoc, min_assoc a b b, min_self]
  have hc : ∀ b : Bool, ∀ p : Prop, (b = true ↔ p) → ∀ [Decidable p] (x y : Bool × E), (if b = false then x else y) = if p then y else x := by
    intro b p h _ x y; cases b <;> simp_all
  rw [hc _ _ (m3_any c _ _)]
  simp only [e1, e2, vec3]
  refine if_congr ?_ rfl rfl
  simp only [exists_or, exists_const]
  show (hi < lo ∨ hi < 0) ∨ _ ↔ _
  rw [or_assoc]

theorem slab_lane {T e d t : ℝ} (hd : d = 0 ∨ rayEps < |d|) (he : 0 ≤ e) :
    |t * d - T| ≤ e ↔ (|d| ≤ rayEps → |T| ≤ e) ∧ (¬ |d| ≤ rayEps → slabLo T e d ≤ t ∧ t ≤ slabHi T e d) := by
  rcases hd with rfl | hd
  · simp [rayEps_pos.le]
  · have h : ¬ |d| ≤ rayEps := not_le.2 hd
    simp only [h, false_imp_iff, not_false_iff, true_imp_iff, true_and, slabLo, slabHi, if_false]
    have h0 : d ≠ 0 := by rintro rfl; exact h (by simpa using rayEps_pos.le)
    rw [abs_le]
    rcases lt_or_gt_of_ne h0 with hn | hp
    · have hi := inv_lt_zero.2 hn
      rw [min_eq_right (by nlinarith), max_eq_left (by nlinarith)]
      rw [← div_eq_mul_inv, ← div_eq_mul_inv, div_le_iff_of_neg hn, le_div_iff_of_neg hn]
      constructor <;> rintro ⟨h1, h2⟩ <;> constructor <;> linarith
    · have hi := inv_pos.2 hp
      rw [min_eq_left (by nlinarith), max_eq_right (by nlinarith)]
      rw [← div_eq_mul_inv, ← div_eq_mul_inv, div_le_iff₀ hp, le_div_iff₀ hp]
      constructor <;> rintro ⟨h1, h2⟩ <;> constructor <;> linarith
theorem slab_range {T e d : ℝ} (he : 0 ≤ e) (hr : d ≠ 0 → |T| + e ≤ fltMax * |d|) : -fltMax ≤ slabLo T e d ∧ slabLo T e d ≤ fltMax ∧ -fltMax ≤ slabHi T e d ∧ slabHi T e d ≤ fltMax := by
  unfold slabLo slabHi
  have := fltMax_pos
  split_ifs with h
  · refine ⟨?_, ?_, ?_, ?_⟩ <;> linarith
  · have h0 : d ≠ 0 := by rintro rfl; exact h (by simpa using rayEps_pos.le)
    have hd : 0 < |d| := abs_pos.2 h0
    have hr := hr h0
    have k : ∀ x, |x| ≤ |T| + e → -fltMax ≤ x * d⁻¹ ∧ x * d⁻¹ ≤ fltMax := by
      intro x hx
      rw [← abs_le, ← div_eq_mul_inv, abs_div, div_le_iff₀ hd]; linarith
    have k1 := k (T - e) ((abs_sub _ _).trans (by rw [abs_of_nonneg he]))
    have k2 := k (T + e) ((abs_add_le _ _).trans (by rw [abs_of_nonneg he]))
    refine ⟨le_min k1.1 k2.1, min_le_of_left_le k1.2, le_max_of_le_left k1.1, max_le k1.2 k2.2⟩

/-- What the slab test computes. -/
theorem slab_correct (c : Cfg) (T e d : Pt) (wT we wd : E) (he : ∀ i, 0 ≤ e i) (hd : ∀ i, d i = 0 ∨ rayEps < |d i|)
    (hr : ∀ i, d i ≠ 0 → |T i| + e i ≤ fltMax * |d i|) :
    ((slabBody c (vec3 T wT) (vec3 e we) (vec3 d wd)).1 = true ↔ ∃ t, 0 ≤ t ∧ ∀ i, |t * d i - T i| ≤ e i) ∧
    ((slabBody c (vec3 T wT) (vec3 e we) (vec3 d wd)).1 = false → slabBody c (vec3 T wT) (vec3 e we) (vec3 d wd) = (false, num 0)) ∧
    ((slabBody c (vec3 T wT) (vec3 e we) (vec3 d wd)).1 = true → d ≠ 0 → ∃ t, slabBody c (vec3 T wT) (vec3 e we) (vec3 d wd) = (true, num t) ∧
      (∀ i, |t * d i - T i| ≤ e i) ∧ ∀ t', (∀ i, |t' * d i - T i| ≤ e i) → t ≤ t') := by
  have h := slab_eval c T e d wT we wd
  dsimp only at h
  rw [h]; clear h
  simp only [slab_lane (hd _) (he _)]
  have hR := fun i => slab_range (he i) (hr i)
  have hlo : ∀ x, max (max (slabLo (T 0) (e 0) (d 0)) (slabLo (T 1) (e 1) (d 1))) (slabLo (T 2) (e 2) (d 2)) ≤ x ↔ ∀ i, slabLo (T i) (e i) (d i) ≤ x := by
    intro x; rw [all3]; simp only [max_le_iff, and_assoc]
  have hhi : ∀ x, x ≤ min (min (slabHi (T 0) (e 0) (d 0)) (slabHi (T 1) (e 1) (d 1))) (slabHi (T 2) (e 2) (d 2)) ↔ ∀ i, x ≤ slabHi (T i) (e i) (d i) := by
    intro x; rw [all3]; simp only [le_min_iff, and_assoc]
  set lo := max (max (slabLo (T 0) (e 0) (d 0)) (slabLo (T 1) (e 1) (d 1))) (slabLo (T 2) (e 2) (d 2))
  set hi := min (min (slabHi (T 0) (e 0) (d 0)) (slabHi (T 1) (e 1) (d 1))) (slabHi (T 2) (e 2) (d 2))
  have hP : ∀ i, |d i| ≤ rayEps → slabLo (T i) (e i) (d i) = -fltMax ∧ slabHi (T i) (e i) (d i) = fltMax := by
    intro i h; simp [slabLo, slabHi, h]
  refine ⟨?_, ?_, ?_⟩
  · by_cases hz : hi < lo ∨ hi < 0 ∨ ∃ i, |d i| ≤ rayEps ∧ ¬ |T i| ≤ e i
    · rw [if_pos hz]
      simp only [Bool.false_eq_true, false_iff]
      rintro ⟨t, ht, hm⟩
      rcases hz with hz | hz | ⟨i, h1, h2⟩
      · refine absurd hz (not_lt.2 ?_)
        rw [hlo]; intro i; rw [hhi]; intro j
        by_cases hi' : |d i| ≤ rayEps
        · rw [(hP i hi').1]; exact (hR j).2.2.1
        · by_cases hj' : |d j| ≤ rayEps
          · rw [(hP j hj').2]; exact (hR i).2.1
          · exact ((hm i).2 hi').1.trans ((hm j).2 hj').2
      · refine absurd hz (not_lt.2 ?_)
        rw [hhi]; intro j
        by_cases hj' : |d j| ≤ rayEps
        · rw [(hP j hj').2]; exact fltMax_pos.le
        · exact ht.trans ((hm j).2 hj').2
      · exact h2 ((hm i).1 h1)
    · rw [if_neg hz]
      push Not at hz
      obtain ⟨h1, h2, h3⟩ := hz
      simp only [true_iff]
      refine ⟨max lo 0, le_max_right .., fun i => ⟨h3 i, fun _ => ⟨((hlo lo).1 le_rfl i).trans (le_max_left ..), ?_⟩⟩⟩
      exact max_le ((hhi lo).1 h1 i) ((hhi 0).1 h2 i)
  · split_ifs <;> simp
  · split_ifs with hz
    · simp
    · push Not at hz
      obtain ⟨h1, h2, h3⟩ := hz
      intro _ hne
      refine ⟨lo, rfl, fun i => ⟨h3 i, fun _ => ⟨(hlo lo).1 le_rfl i, (hhi lo).1 h1 i⟩⟩, ?_⟩
      intro t' hm
      obtain ⟨j, hj⟩ : ∃ j, d j ≠ 0 := by by_contra hcon; push Not at hcon; exact hne (funext hcon)
      have hj' : ¬ |d j| ≤ rayEps := not_le.2 ((hd j).resolve_left hj)
      rw [hlo]; intro i
      by_cases hi' : |d i| ≤ rayEps
      · rw [(hP i hi').1]; exact (hR j).1.trans ((hm j).2 hj').1
      · exact ((hm i).2 hi').1
end DXM.Geo

namespace DXM.Props
open DXM.E DXM.Spec DXM.RG DXM.Geo Matrix Classical

theorem line_box (a e o d : Pt) (t : ℝ) : o + t • d ∈ box a e ↔ ∀ i, |t * d i - (a - o) i| ≤ e i := by
  refine forall_congr' fun i => ?_
  rw [show (o + t • d) i - a i = t * d i - (a - o) i by simp; ring]
theorem ray_box (a e o d : Pt) : (ray o d ∩ box a e).Nonempty ↔ ∃ t, 0 ≤ t ∧ ∀ i, |t * d i - (a - o) i| ≤ e i := by
  constructor
  · rintro ⟨p, ⟨t, ht, rfl⟩, hp⟩; exact ⟨t, ht, (line_box ..).1 hp⟩
  · rintro ⟨t, ht, h⟩; exact ⟨_, ⟨t, ht, rfl⟩, (line_box ..).2 h⟩

/-- A ray is reported to hit the box exactly when it does; a miss reports distance 0; on a hit with a nonzero direction the distance is the
parameter at which the ray's line enters the box (negative when the origin is inside).  Each direction component is zero or above the
threshold 1e-20, and the slab parameters are in the range of binary32. -/
theorem C79_box (c : Cfg) (a e o d : Pt) (w w' : E) (he : ∀ i, 0 ≤ e i) (hd : ∀ i, d i = 0 ∨ rayEps < |d i|)
    (hr : ∀ i, d i ≠ 0 → |a i - o i| + e i ≤ fltMax * |d i|) :
    ((BoundingBox.IntersectsRay c (boxOf a e) (vec3 o w) (vec3 d w')).1 = true ↔ (ray o d ∩ box a e).Nonempty) ∧
    ((BoundingBox.IntersectsRay c (boxOf a e) (vec3 o w) (vec3 d w')).1 = false →
      BoundingBox.IntersectsRay c (boxOf a e) (vec3 o w) (vec3 d w') = (false, num 0)) ∧
    ((BoundingBox.IntersectsRay c (boxOf a e) (vec3 o w) (vec3 d w')).1 = true → d ≠ 0 →
      ∃ t, BoundingBox.IntersectsRay c (boxOf a e) (vec3 o w) (vec3 d w') = (true, num t) ∧ o + t • d ∈ box a e ∧ ∀ t', o + t' • d ∈ box a e → t ≤ t') := by
  simp only [ray_box, line_box]
  have : BoundingBox.IntersectsRay c (boxOf a e) (vec3 o w) (vec3 d w') = slabBody c (vec3 (a - o) (Lane.sub (num 0) w)) (vec3 e (num 0)) (vec3 d w') := by
    rw [← v_load3 e, ← v_sub, ← v_load3 a]; rfl
  rw [this]
  exact slab_correct c (a - o) e d _ _ _ he hd hr

/-- From outside, the reported distance is the first point of the ray in the box. -/
theorem C79_boxFirst (c : Cfg) (a e o d : Pt) (w w' : E) (he : ∀ i, 0 ≤ e i) (hd : ∀ i, d i = 0 ∨ rayEps < |d i|)
    (hr : ∀ i, d i ≠ 0 → |a i - o i| + e i ≤ fltMax * |d i|) (ho : o ∉ box a e) (hit : (ray o d ∩ box a e).Nonempty) :
    ∃ t, BoundingBox.IntersectsRay c (boxOf a e) (vec3 o w) (vec3 d w') = (true, num t) ∧ 0 < t ∧ o + t • d ∈ box a e ∧
      ∀ t', 0 ≤ t' → o + t' • d ∈ box a e → t ≤ t' := by
  obtain ⟨h1, -, h3⟩ := C79_box c a e o d w w' he hd hr
  have hne : d ≠ 0 := by
    rintro rfl
    obtain ⟨p, ⟨t, ht, rfl⟩, hp⟩ := hit
    exact ho (by simpa using hp)
  obtain ⟨t, k1, k2, k3⟩ := h3 (h1.2 hit) hne
  refine ⟨t, k1, ?_, k2, fun t' _ => k3 t'⟩
  obtain ⟨p, ⟨s, hs, rfl⟩, hp⟩ := hit
  by_contra hcon
  push Not at hcon
  apply ho
  rw [line_box] at hp k2
  intro i
  have a1 := hp i; have a2 := k2 i
  rw [Pi.sub_apply] at a1 a2
  have e1 : o i - a i = 0 * d i - (a i - o i) := by ring
  rw [e1]
  rw [abs_le] at a1 a2 ⊢
  rcases le_total 0 (d i) with hdi | hdi
  · have b1 := mul_nonneg hs hdi
    have b2 := mul_nonneg (neg_nonneg.2 hcon) hdi
    constructor <;> linarith
  · have b1 := mul_nonneg hs (neg_nonneg.2 hdi)
    have b2 := mul_nonneg (neg_nonneg.2 hcon) (neg_nonneg.2 hdi)
    constructor <;> linarith

example (c : Cfg) : ∃ t, BoundingBox.IntersectsRay c (boxOf 0 1) (vec3 ![-5, 0, 1/2] (num 0)) (vec3 ![2, 1/10, 0] (num 0)) = (true, num t) ∧ 0 < t := by
  have hp : rayEps < 1/10 := by unfold rayEps; norm_num
  obtain ⟨t, h, h0, -⟩ := C79_boxFirst c 0 1 ![-5, 0, 1/2] ![2, 1/10, 0] (num 0) (num 0) (by intro i; simp)
    (by intro i; fin_cases i
        · right; simp; linarith
        · right; simpa using hp
        · left; simp)
    (by intro i; fin_cases i <;> simp [fltMax] <;> norm_num [abs_of_pos]) (by
      intro h; have := h 0; norm_num at this)
    ⟨![0, 1/4, 1/2], ⟨5/2, by norm_num, by ext i; fin_cases i <;> norm_num⟩, by intro i; fin_cases i <;> norm_num [abs_of_pos]⟩
  exact ⟨t, h, h0⟩
/-- When the origin is inside, the distance is the (negative) parameter of the entry point behind it. -/
example (c : Cfg) : BoundingBox.IntersectsRay c (boxOf 0 1) (vec3 0 (num 0)) (vec3 ![1, 0, 0] (num 0)) = (true, num (-1)) := by
  have hp : rayEps < 1 := by unfold rayEps; norm_num
  obtain ⟨h1, -, h3⟩ := C79_box c 0 1 0 ![1, 0, 0] (num 0) (num 0) (by intro i; simp)
    (by intro i; fin_cases i
        · right; simpa using hp
        · left; simp
        · left; simp)
    (by intro i; fin_cases i <;> simp [fltMax])
  obtain ⟨t, k1, k2, k3⟩ := h3 (h1.2 ⟨0, ⟨0, le_rfl, by simp⟩, by intro i; simp⟩) (by intro h; simpa using congrFun h 0)
  rw [k1]
  have a1 := k3 (-1) (by intro i; fin_cases i <;> simp)
  have a2 := (abs_le.1 (k2 0)).1
  simp at a2
  rw [le_antisymm a1 a2]

/-- Oriented boxes: the same, with the threshold on the components of the direction along the box's axes. -/
theorem C79_orientedBox (c : Cfg) (a e o d : Pt) (q : Quaternion ℝ) (w w' : E) (hq : Quaternion.normSq q = 1) (he : ∀ i, 0 ≤ e i)
    (hd : ∀ i, rot (star q) d i = 0 ∨ rayEps < |rot (star q) d i|)
    (hr : ∀ i, rot (star q) d i ≠ 0 → |rot (star q) (a - o) i| + e i ≤ fltMax * |rot (star q) d i|) :
    ((BoundingOrientedBox.IntersectsRay c (oboxOf a e q) (vec3 o w) (vec3 d w')).1 = true ↔ (ray o d ∩ obox a e q).Nonempty) ∧
    ((BoundingOrientedBox.IntersectsRay c (oboxOf a e q) (vec3 o w) (vec3 d w')).1 = false →
      BoundingOrientedBox.IntersectsRay c (oboxOf a e q) (vec3 o w) (vec3 d w') = (false, num 0)) ∧
    ((BoundingOrientedBox.IntersectsRay c (oboxOf a e q) (vec3 o w) (vec3 d w')).1 = true → d ≠ 0 →
      ∃ t, BoundingOrientedBox.IntersectsRay c (oboxOf a e q) (vec3 o w) (vec3 d w') = (true, num t) ∧
        o + t • d ∈ obox a e q ∧ ∀ t', o + t' • d ∈ obox a e q → t ≤ t') := by
  have hl : ∀ t : ℝ, o + t • d ∈ obox a e q ↔ ∀ i, |t * rot (star q) d i - rot (star q) (a - o) i| ≤ e i := by
    intro t
    rw [mem_obox' hq]
    refine forall_congr' fun i => ?_
    rw [show o + t • d - a = t • d - (a - o) by abel, rot_sub (nstar hq), rot_smul (nstar hq), Pi.sub_apply, Pi.smul_apply, smul_eq_mul]
  have hray : (ray o d ∩ obox a e q).Nonempty ↔ ∃ t, 0 ≤ t ∧ ∀ i, |t * rot (star q) d i - rot (star q) (a - o) i| ≤ e i := by
    constructor
    · rintro ⟨p, ⟨t, ht, rfl⟩, hp⟩; exact ⟨t, ht, (hl t).1 hp⟩
    · rintro ⟨t, ht, h⟩; exact ⟨_, ⟨t, ht, rfl⟩, (hl t).2 h⟩
  simp only [hray, hl]
  have hz : d ≠ 0 ↔ rot (star q) d ≠ 0 := by
    refine not_congr ⟨fun h => by rw [h, rot_zero (nstar hq)], fun h => ?_⟩
    rw [← rot_rot_star hq d, h, rot_zero hq]
  rw [hz]
  have : ∃ x y, BoundingOrientedBox.IntersectsRay c (oboxOf a e q) (vec3 o w) (vec3 d w') =
      slabBody c (vec3 (rot (star q) (a - o)) x) (vec3 e (num 0)) (vec3 (rot (star q) d) y) := by
    have hs : ∀ x y z : ℝ, XMVectorSelect (XMVectorSelect (all x) (all y) ⟨Lane.ofBits 0#32, Lane.ofBits 0xFFFFFFFF#32, Lane.ofBits 0#32, Lane.ofBits 0#32⟩)
        (all z) ⟨Lane.ofBits 0#32, Lane.ofBits 0#32, Lane.ofBits 0xFFFFFFFF#32, Lane.ofBits 0#32⟩ = vec3 ![x, y, z] (num x) := by
      intro x y z; simp [XMVectorSelect]
    refine ⟨num (rotM q 0 ⬝ᵥ (a - o)), num (rotM q 0 ⬝ᵥ d), ?_⟩
    rw [← rows_eq hq, ← rows_eq hq, ← hs, ← hs]
    simp only [← v_dot c _ _ (num 0) (Lane.sub (num 0) w), ← v_dot c _ _ (num 0) w', ← rm_r0 c, ← rm_r1 c, ← rm_r2 c, ← v_load3 e, ← v_sub, ← v_load3 a]
    rfl
  obtain ⟨x, y, this⟩ := this
  rw [this]
  exact slab_correct c _ e _ _ _ _ he hd hr

example (c : Cfg) : (BoundingOrientedBox.IntersectsRay c (oboxOf ![1, 2, 3] 1 exQ) (vec3 ![1, 2, 10] (num 0)) (vec3 ![0, 0, -1] (num 0))).1 = true := by
  have hs : ∀ u, rot (star exQ) u = ![-7/25 * u 0 + 24/25 * u 1, -24/25 * u 0 - 7/25 * u 1, u 2] := by
    intro u
    have := rot_star_rot exQ_unit ![-7/25 * u 0 + 24/25 * u 1, -24/25 * u 0 - 7/25 * u 1, u 2]
    rw [← this, exQ_rot]
    congr 1
    ext i; fin_cases i <;> simp <;> ring
  have hp : rayEps < 1 := by unfold rayEps; norm_num
  rw [(C79_orientedBox c _ _ _ _ _ _ _ exQ_unit (by intro i; simp) ?_ ?_).1]
  · refine ⟨![1, 2, 3], ⟨7, by norm_num, by ext i; fin_cases i <;> norm_num⟩, ?_⟩
    rw [mem_obox exQ_unit, sub_self, rot_zero (nstar exQ_unit)]; intro i; simp
  · intro i; rw [hs]; fin_cases i
    · left; simp
    · left; simp
    · right; simpa using hp
  · intro i; rw [hs, hs]; fin_cases i <;> simp [fltMax] <;> norm_num [abs_of_pos]
end DXM.Props
