import Verif.Lemmas.SpecSimp
import Verif.Lemmas.Quat
import Verif.Spec.Geometry
import Verif.Props.Movement
import Verif.Props.Vector
import Verif.Props.Quat

/-
Vector-level evaluation of the model on exact-real lanes: 3-D vectors stay `vec3 a w`, replicated scalars stay `all r`,
comparison results stay `msk p` / `msk3 p w`.  The tactic `geo` rewrites a collision function to a proposition about real vectors.
-/

set_option linter.all false

namespace DXM.Geo
open DXM.E DXM.Spec Matrix Classical

/-- A comparison result as a lane. -/
noncomputable def dm (p : Prop) : E := if p then ones else num 0
theorem dm_t {p : Prop} (h : p) : dm p = ones := if_pos h
theorem dm_f {p : Prop} (h : ¬ p) : dm p = num 0 := if_neg h
theorem mask_dm (p : Prop) [Decidable p] : (Lane.mask (decide p) : E) = dm p := by
  by_cases h : p <;> simp [dm, h, Lane.mask]
theorem mask_dm' (b : Bool) : (Lane.mask b : E) = dm (b = true) := by cases b <;> simp [dm, Lane.mask]
theorem bor_ones_ones : (Lane.bor ones ones : E) = ones := by show E.or ones ones = _; simp [E.or]
/-- The same comparison result in every lane. -/
noncomputable def msk (p : Prop) : V4 E := .splat (dm p)
/-- Comparison results in lanes x, y, z. -/
noncomputable def msk3 (p : Fin 3 → Prop) (w : E) : V4 E := ⟨dm (p 0), dm (p 1), dm (p 2), w⟩

theorem v_load3 (a : Pt) : load3 (f3 a) = vec3 a (num 0) := by simp [load3, f3]
theorem v_store3 (a : Pt) (w : E) : store3 (vec3 a w) = f3 a := by simp [store3, f3]
theorem v_rep (r : ℝ) : XMVectorReplicate (num r) = all r := by simp [XMVectorReplicate]
theorem v_zero : (XMVectorZero : V4 E) = all 0 := by simp [XMVectorZero]
theorem v_one (c : Cfg) : (XMVectorSplatOne c : V4 E) = all 1 := by simp
theorem v_true : (XMVectorTrueInt : V4 E) = msk True := by simp [msk, XMVectorTrueInt, Lane.mask, dm_t]

theorem v_sub (a b : Pt) (w w' : E) : XMVectorSubtract (vec3 a w) (vec3 b w') = vec3 (a - b) (Lane.sub w w') := by
  simp [XMVectorSubtract]
theorem v_add (a b : Pt) (w w' : E) : XMVectorAdd (vec3 a w) (vec3 b w') = vec3 (a + b) (Lane.add w w') := by
  simp [XMVectorAdd]
theorem v_mul (a b : Pt) (w w' : E) : XMVectorMultiply (vec3 a w) (vec3 b w') = vec3 (a * b) (Lane.mul w w') := by
  simp [XMVectorMultiply]
theorem v_smul_l (t : ℝ) (a : Pt) (w : E) : XMVectorMultiply (all t) (vec3 a w) = vec3 (t • a) (Lane.mul (num t) w) := by
  simp [XMVectorMultiply]
theorem v_smul_r (t : ℝ) (a : Pt) (w : E) : XMVectorMultiply (vec3 a w) (all t) = vec3 (t • a) (Lane.mul w (num t)) := by
  simp [XMVectorMultiply, mul_comm]
theorem v_scale (c : Cfg) (t : ℝ) (a : Pt) (w : E) : XMVectorScale c (vec3 a w) (num t) = vec3 (t • a) (Lane.mul w (num t)) := by
  simp [mul_comm]
theorem v_neg (c : Cfg) (a : Pt) (w : E) : XMVectorNegate c (vec3 a w) = vec3 (-a) (Lane.neg w) := by simp
theorem v_muladd (c : Cfg) (a b d : Pt) (w w' w'' : E) :
    XMVectorMultiplyAdd c (vec3 a w) (vec3 b w') (vec3 d w'') = vec3 (a * b + d) (Lane.add (Lane.mul w w') w'') := by simp
theorem v_smuladd (c : Cfg) (t : ℝ) (b d : Pt) (w' w'' : E) :
    XMVectorMultiplyAdd c (all t) (vec3 b w') (vec3 d w'') = vec3 (t • b + d) (Lane.add (Lane.mul (num t) w') w'') := by simp
theorem v_smuladd_r (c : Cfg) (t : ℝ) (b d : Pt) (w' w'' : E) :
    XMVectorMultiplyAdd c (vec3 b w') (all t) (vec3 d w'') = vec3 (t • b + d) (Lane.add (Lane.mul w' (num t)) w'') := by simp [mul_comm]
theorem v_nms_r (c : Cfg) (t : ℝ) (b d : Pt) (w' w'' : E) :
    XMVectorNegativeMultiplySubtract c (vec3 b w') (all t) (vec3 d w'') = vec3 (d - t • b) (Lane.sub w'' (Lane.mul w' (num t))) := by
  simp [mul_comm]
theorem v_abs (c : Cfg) (a : Pt) (r : ℝ) : XMVectorAbs c (vec3 a (num r)) = vec3 |a| (num |r|) := by simp
theorem v_min (a b : Pt) (w w' : E) : XMVectorMin (vec3 a w) (vec3 b w') = vec3 (a ⊓ b) (Lane.minps w w') := by
  simp [XMVectorMin]
theorem v_max (a b : Pt) (w w' : E) : XMVectorMax (vec3 a w) (vec3 b w') = vec3 (a ⊔ b) (Lane.maxps w w') := by
  simp [XMVectorMax]
theorem v_dot (c : Cfg) (a b : Pt) (w w' : E) : XMVector3Dot c (vec3 a w) (vec3 b w') = all (a ⬝ᵥ b) := by
  simp [dot3]
theorem v_dot4 (c : Cfg) (a b : Pt) (s t : ℝ) : XMVector4Dot c (vec3 a (num s)) (vec3 b (num t)) = all (a ⬝ᵥ b + s * t) := by
  simp [dot3]
theorem v_lensq (c : Cfg) (a : Pt) (w : E) : XMVector3LengthSq c (vec3 a w) = all (a ⬝ᵥ a) := by simp [dot3]
theorem v_len (c : Cfg) (a : Pt) (w : E) : XMVector3Length c (vec3 a w) = all (len a) := by simp [len, dot3]
/-! replicated scalars -/
theorem s_sub (a b : ℝ) : XMVectorSubtract (all a) (all b) = all (a - b) := by simp [XMVectorSubtract]
theorem s_add (a b : ℝ) : XMVectorAdd (all a) (all b) = all (a + b) := by simp [XMVectorAdd]
theorem s_mul (a b : ℝ) : XMVectorMultiply (all a) (all b) = all (a * b) := by simp [XMVectorMultiply]
theorem s_neg (c : Cfg) (a : ℝ) : XMVectorNegate c (all a) = all (-a) := by simp
theorem s_abs (c : Cfg) (a : ℝ) : XMVectorAbs c (all a) = all |a| := by simp
theorem s_scale (c : Cfg) (t a : ℝ) : XMVectorScale c (all a) (num t) = all (t * a) := by simp [mul_comm]
theorem s_min (a b : ℝ) : XMVectorMin (all a) (all b) = all (min a b) := by simp [XMVectorMin]
theorem s_max (a b : ℝ) : XMVectorMax (all a) (all b) = all (max a b) := by simp [XMVectorMax]
theorem s_muladd (c : Cfg) (a b d : ℝ) : XMVectorMultiplyAdd c (all a) (all b) (all d) = all (a * b + d) := by simp
theorem s_nms (c : Cfg) (a b d : ℝ) : XMVectorNegativeMultiplySubtract c (all a) (all b) (all d) = all (d - a * b) := by simp
theorem s_recip (a : ℝ) (h : a ≠ 0) : XMVectorReciprocal (all a) = all a⁻¹ := by simp [XMVectorReciprocal, div_num, h]
theorem s_div (a b : ℝ) (h : b ≠ 0) : XMVectorDivide (all a) (all b) = all (a / b) := by simp [XMVectorDivide, div_num, h]
theorem s_sqrt (a : ℝ) (h : 0 ≤ a) : XMVectorSqrt (all a) = all √a := by simp [XMVectorSqrt, sqrt_num, h]
theorem s_x (a : ℝ) : (all a).x = num a := rfl
theorem v_div (a : Pt) (w : E) (t : ℝ) (h : t ≠ 0) : XMVectorDivide (vec3 a w) (all t) = vec3 (t⁻¹ • a) (Lane.div w (num t)) := by
  simp [XMVectorDivide, div_num, h, div_eq_inv_mul]
theorem v_getx (v : V4 E) : XMVectorGetX v = v.x := rfl
theorem v_splatw (c : Cfg) (a : Pt) (r : ℝ) : XMVectorSplatW c (vec3 a (num r)) = all r := by simp
theorem v_splatx (c : Cfg) (a : Pt) (w : E) : XMVectorSplatX c (vec3 a w) = all (a 0) := by simp
theorem v_splaty (c : Cfg) (a : Pt) (w : E) : XMVectorSplatY c (vec3 a w) = all (a 1) := by simp
theorem v_splatz (c : Cfg) (a : Pt) (w : E) : XMVectorSplatZ c (vec3 a w) = all (a 2) := by simp

/-! comparisons -/
theorem s_gt (a b : ℝ) : XMVectorGreater (all a) (all b) = msk (b < a) := by simp [XMVectorGreater, msk, mask_dm]
theorem s_ge (a b : ℝ) : XMVectorGreaterOrEqual (all a) (all b) = msk (b ≤ a) := by simp [XMVectorGreaterOrEqual, msk, mask_dm]
theorem s_lt (a b : ℝ) : XMVectorLess (all a) (all b) = msk (a < b) := by simp [XMVectorLess, msk, mask_dm]
theorem s_le (a b : ℝ) : XMVectorLessOrEqual (all a) (all b) = msk (a ≤ b) := by simp [XMVectorLessOrEqual, msk, mask_dm]
theorem v_gt (a b : Pt) (w w' : E) : XMVectorGreater (vec3 a w) (vec3 b w') = msk3 (fun i => b i < a i) (dm (Lane.gt w w' = true)) := by
  simp [XMVectorGreater, msk3, mask_dm, mask_dm']
theorem v_lt (a b : Pt) (w w' : E) : XMVectorLess (vec3 a w) (vec3 b w') = msk3 (fun i => a i < b i) (dm (Lane.lt w w' = true)) := by
  simp [XMVectorLess, msk3, mask_dm, mask_dm']
theorem v_le (a b : Pt) (w w' : E) : XMVectorLessOrEqual (vec3 a w) (vec3 b w') = msk3 (fun i => a i ≤ b i) (dm (Lane.le w w' = true)) := by
  simp [XMVectorLessOrEqual, msk3, mask_dm, mask_dm']
theorem v_gt_s (a : Pt) (b : ℝ) (w : E) : XMVectorGreater (vec3 a w) (all b) = msk3 (fun i => b < a i) (dm (Lane.gt w (num b) = true)) := by
  simp [XMVectorGreater, msk3, mask_dm, mask_dm']
theorem v_add_s (a : Pt) (b : ℝ) (w : E) : XMVectorAdd (vec3 a w) (all b) = vec3 (fun i => a i + b) (Lane.add w (num b)) := by
  simp [XMVectorAdd]
theorem v_sub_s (a : Pt) (b : ℝ) (w : E) : XMVectorSubtract (vec3 a w) (all b) = vec3 (fun i => a i - b) (Lane.sub w (num b)) := by
  simp [XMVectorSubtract]
theorem b_mask (p q : Prop) : (Lane.band (dm p) (dm q) : E) = dm (p ∧ q) := by
  by_cases hp : p <;> by_cases hq : q <;> simp [hp, hq, dm_t, dm_f]
theorem o_mask (p q : Prop) : (Lane.bor (dm p) (dm q) : E) = dm (p ∨ q) := by
  by_cases hp : p <;> by_cases hq : q <;> simp [hp, hq, dm_t, dm_f, bor_ones_ones]
theorem n_mask (p q : Prop) : (Lane.bandn (dm p) (dm q) : E) = dm (q ∧ ¬ p) := by
  by_cases hp : p <;> by_cases hq : q <;> simp [hp, hq, dm_t, dm_f]
theorem m_and (p q : Prop) : XMVectorAndInt (msk p) (msk q) = msk (p ∧ q) := by 
  simp only [XMVectorAndInt, msk, SSE.and, V4.splat, V4.map2, b_mask]
theorem m_or (p q : Prop) : XMVectorOrInt (msk p) (msk q) = msk (p ∨ q) := by
  simp only [XMVectorOrInt, msk, SSE.or, V4.splat, V4.map2, o_mask]
theorem m_andc (p q : Prop) : XMVectorAndCInt (msk p) (msk q) = msk (p ∧ ¬ q) := by
  simp only [XMVectorAndCInt, msk, SSE.andnot, V4.splat, V4.map2, n_mask]
theorem m3_and (p q : Fin 3 → Prop) (w w' : E) : XMVectorAndInt (msk3 p w) (msk3 q w') = msk3 (fun i => p i ∧ q i) (Lane.band w w') := by
  simp only [XMVectorAndInt, msk3, SSE.and, V4.map2, b_mask]
theorem m3_or (p q : Fin 3 → Prop) (w w' : E) : XMVectorOrInt (msk3 p w) (msk3 q w') = msk3 (fun i => p i ∨ q i) (Lane.bor w w') := by
  simp only [XMVectorOrInt, msk3, SSE.or, V4.map2, o_mask]
theorem m3_andc (p q : Fin 3 → Prop) (w w' : E) : XMVectorAndCInt (msk3 p w) (msk3 q w') = msk3 (fun i => p i ∧ ¬ q i) (Lane.bandn w' w) := by
  simp only [XMVectorAndCInt, msk3, SSE.andnot, V4.map2, n_mask]
theorem m3_s_and (p : Prop) (q : Fin 3 → Prop) (w' : E) : XMVectorAndInt (msk p) (msk3 q w') = msk3 (fun i => p ∧ q i) (Lane.band (dm p) w') := by
  simp only [XMVectorAndInt, msk, msk3, SSE.and, V4.map2, V4.splat, b_mask]
theorem m3_s_or (p : Prop) (q : Fin 3 → Prop) (w' : E) : XMVectorOrInt (msk p) (msk3 q w') = msk3 (fun i => p ∨ q i) (Lane.bor (dm p) w') := by
  simp only [XMVectorOrInt, msk, msk3, SSE.or, V4.map2, V4.splat, o_mask]
theorem ieq_t (p : Prop) : Lane.ieq (dm p) (dm True) = true ↔ p := by
  by_cases hp : p <;> simp [hp, dm_t, dm_f]
theorem m_eq4 (c : Cfg) (p : Prop) : XMVector4EqualInt c (msk p) (msk True) = true ↔ p := by
  unfold XMVector4EqualInt msk; by_cases hp : p <;> by_cases hs : c.sse <;> simp [hp, hs, SSE.mm, dm_t, dm_f]
theorem m_ne4 (c : Cfg) (p : Prop) : XMVector4NotEqualInt c (msk p) (msk True) = true ↔ ¬ p := by
  unfold XMVector4NotEqualInt msk; by_cases hp : p <;> by_cases hs : c.sse <;> simp [hp, hs, SSE.mm, dm_t, dm_f]
theorem m_eq3 (c : Cfg) (p : Prop) : XMVector3EqualInt c (msk p) (msk True) = true ↔ p := by
  unfold XMVector3EqualInt msk; by_cases hp : p <;> by_cases hs : c.sse <;> simp [hp, hs, SSE.mm, dm_t, dm_f]
theorem all3 (p : Fin 3 → Prop) : (∀ i, p i) ↔ p 0 ∧ p 1 ∧ p 2 := by simp [Fin.forall_fin_succ]
theorem ex3 (p : Fin 3 → Prop) : (∃ i, p i) ↔ p 0 ∨ p 1 ∨ p 2 := by simp [Fin.exists_fin_succ]
theorem m3_eq3 (c : Cfg) (p : Fin 3 → Prop) (w : E) : XMVector3EqualInt c (msk3 p w) (msk True) = true ↔ ∀ i, p i := by
  rw [all3]
  unfold XMVector3EqualInt msk3 msk
  by_cases h0 : p 0 <;> by_cases h1 : p 1 <;> by_cases h2 : p 2 <;> by_cases hs : c.sse <;> cases hw : Lane.ieq w ones <;>
    simp [h0, h1, h2, hs, hw, SSE.mm, dm_t, dm_f]
theorem m3_any (c : Cfg) (p : Fin 3 → Prop) (w : E) : XMVector3AnyTrue c (msk3 p w) = true ↔ ∃ i, p i := by
  rw [ex3]
  unfold XMVector3AnyTrue msk3 XMVector4EqualIntR
  by_cases h0 : p 0 <;> by_cases h1 : p 1 <;> by_cases h2 : p 2 <;> by_cases hs : c.sse <;>
    simp [h0, h1, h2, hs, SSE.mm, v_true, msk, dm_t, dm_f] <;> decide
theorem m3_all (c : Cfg) (p : Fin 3 → Prop) (w : E) : XMVector3AllTrue c (msk3 p w) = true ↔ ∀ i, p i := by
  rw [all3]
  unfold XMVector3AllTrue msk3 XMVector4EqualIntR
  by_cases h0 : p 0 <;> by_cases h1 : p 1 <;> by_cases h2 : p 2 <;> by_cases hs : c.sse <;>
    simp [h0, h1, h2, hs, SSE.mm, v_true, msk, dm_t, dm_f] <;> decide
theorem m_any (c : Cfg) (p : Prop) : XMVector3AnyTrue c (msk p) = true ↔ p := by
  have := m3_any c (fun _ => p) (dm p)
  simpa [msk3, msk] using this
theorem m_all (c : Cfg) (p : Prop) : XMVector3AllTrue c (msk p) = true ↔ p := by
  have := m3_all c (fun _ => p) (dm p)
  simpa [msk3, msk] using this
theorem p_le (c : Cfg) (a b : ℝ) : XMVector3LessOrEqual c (all a) (all b) = true ↔ a ≤ b := by
  unfold XMVector3LessOrEqual; by_cases h : a ≤ b <;> by_cases hs : c.sse <;> simp [h, hs, SSE.mm]
theorem p_gt (c : Cfg) (a b : ℝ) : XMVector3Greater c (all a) (all b) = true ↔ b < a := by
  unfold XMVector3Greater; by_cases h : b < a <;> by_cases hs : c.sse <;> simp [h, hs, SSE.mm]
theorem sel (p : Prop) (a b : Pt) (w w' : E) :
    XMVectorSelect (vec3 a w) (vec3 b w') (msk p) = vec3 (if p then b else a) (if p then w' else w) := by
  by_cases hp : p <;> simp [XMVectorSelect, msk, hp, dm_t, dm_f]
theorem sel_s (p : Prop) (a b : ℝ) : XMVectorSelect (all a) (all b) (msk p) = all (if p then b else a) := by
  by_cases hp : p <;> simp [XMVectorSelect, msk, hp, dm_t, dm_f]
theorem sel_v (p : Prop) (a b : V4 E) : XMVectorSelect a b (msk p) = if p then b else a := by
  by_cases hp : p <;> simp [XMVectorSelect, msk, hp, dm_t, dm_f]
theorem sel3 (p : Fin 3 → Prop) (m : Prop) (a b : Pt) (w w' : E) :
    XMVectorSelect (vec3 a w) (vec3 b w') (msk3 p (dm m)) = vec3 (fun i => if p i then b i else a i) (if m then w' else w) := by
  by_cases h0 : p 0 <;> by_cases h1 : p 1 <;> by_cases h2 : p 2 <;> by_cases hm : m <;> simp [XMVectorSelect, msk3, h0, h1, h2, hm, dm_t, dm_f]

/-! insertion -/
theorem ins_w (c : Cfg) (a : Pt) (w : E) (r : ℝ) : insertC c (vec3 a w) (all r) 0 0 0 1 = vec3 a (num r) := by
  have := Props.C04_insert c true (vec3 a w) (all r) 0 false false false true
  simp only [if_true, if_false, Bool.false_eq_true] at this
  have h : insertC c (vec3 a w) (all r) 0 0 0 1 = Outcome.getD (vec3 a w) (XMVectorInsert c true (vec3 a w) (all r) ((0 : Fin 4) : ℕ) 0 0 0 1) := rfl
  rw [h]
  erw [this]
  simp [Outcome.getD, Spec.cyc]

/-! rotation -/
theorem rot_quat (q : Quaternion ℝ) (v : Pt) : quat (q * pureQ v * star q) = vec3 (rot q v) (num 0) := by
  have h : ∀ p : Quaternion ℝ, p.re = 0 → (q * p * star q).re = 0 := by
    intro p hp
    simp only [Quaternion.re_mul, Quaternion.imI_mul, Quaternion.imJ_mul, Quaternion.imK_mul, Quaternion.re_star, Quaternion.imI_star,
      Quaternion.imJ_star, Quaternion.imK_star, hp]
    ring
  have := h (pureQ v) rfl
  simp [rot, this]
theorem v_rot (c : Cfg) (q : Quaternion ℝ) (v : Pt) (w : E) : XMVector3Rotate c (vec3 v w) (quat q) = vec3 (rot q v) (num 0) := by
  rw [Props.C35_rotate, rot_quat]
theorem v_irot (c : Cfg) (q : Quaternion ℝ) (v : Pt) (w : E) : XMVector3InverseRotate c (vec3 v w) (quat q) = vec3 (rot (star q) v) (num 0) := by
  have := rot_quat (star q) v
  rw [Props.C35_inverseRotate]; rwa [star_star] at this

theorem mm7 (p : Fin 3 → Prop) (x : E) : ((SSE.movemask (msk3 p x) &&& 7) == 7) = true ↔ ∀ i, p i := by
  rw [all3]
  unfold msk3
  by_cases h0 : p 0 <;> by_cases h1 : p 1 <;> by_cases h2 : p 2 <;> cases hx : Lane.sgn x <;>
    simp [SSE.movemask, hx, h0, h1, h2, dm_t, dm_f, SSE.mm]
theorem v_inb3 (c : Cfg) (a b : Pt) (w w' : E) : XMVector3InBounds c (vec3 a w) (vec3 b w') = true ↔ ∀ i, |a i| ≤ b i := by
  have h : ∀ x y : ℝ, |x| ≤ y ↔ x ≤ y ∧ -y ≤ x := fun x y => by rw [abs_le, and_comm]
  unfold XMVector3InBounds
  split_ifs
  · rw [show SSE.and (SSE.cmple (vec3 a w) (vec3 b w')) (SSE.cmple (SSE.mul (vec3 b w') g_XMNegativeOne) (vec3 a w)) =
      msk3 (fun i => |a i| ≤ b i) (Lane.band (Lane.mask (Lane.le w w')) (Lane.mask (Lane.le (Lane.mul w' (num (-1))) w))) by
        simp [SSE.and, SSE.cmple, SSE.mul, V4.map2, mask_dm, mask_dm', msk3, h, b_mask], mm7]
  · rw [all3]; simp [h]; tauto
theorem v_inb (c : Cfg) (a b : Pt) (w w' : E) : XMVectorInBounds c (vec3 a w) (vec3 b w') =
    msk3 (fun i => |a i| ≤ b i) (XMVectorInBounds c ⟨num 0, num 0, num 0, w⟩ ⟨num 0, num 0, num 0, w'⟩).w := by
  have h : ∀ x y : ℝ, |x| ≤ y ↔ x ≤ y ∧ -y ≤ x := fun x y => by rw [abs_le, and_comm]
  simp only [h, XMVectorInBounds, msk3, ← b_mask]
  split_ifs
  · simp [mask_dm, mask_dm']
  · simp [mask_dm, mask_dm', Bool.and_eq_true, b_mask]
theorem v_cross (c : Cfg) (a b : Pt) (w w' : E) : XMVector3Cross c (vec3 a w) (vec3 b w') = vec3 (crossProduct a b) (num 0) := by
  simp [cross_apply]
theorem sel_0 (p : Fin 3 → Prop) (m : Prop) (x : ℝ) (b : Pt) (w' : E) :
    XMVectorSelect (all x) (vec3 b w') (msk3 p (dm m)) = vec3 (fun i => if p i then b i else x) (if m then w' else num x) := by
  have := sel3 p m (fun _ => x) b (num x) w'
  simpa using this
theorem sel_1 (p : Fin 3 → Prop) (m : Prop) (x : ℝ) (b : Pt) (w' : E) :
    XMVectorSelect (vec3 b w') (all x) (msk3 p (dm m)) = vec3 (fun i => if p i then x else b i) (if m then num x else w') := by
  have := sel3 p m b (fun _ => x) w' (num x)
  simpa using this
theorem v_transform (c : Cfg) (v : Pt) (w : E) (A : Matrix (Fin 4) (Fin 4) ℝ) :
    XMVector3Transform c (vec3 v w) (mat A) = vec3 (fun j => v 0 * A 0 j.castSucc + v 1 * A 1 j.castSucc + v 2 * A 2 j.castSucc + A 3 j.castSucc)
      (num (v 0 * A 0 3 + v 1 * A 1 3 + v 2 * A 2 3 + A 3 3)) := by
  simp

theorem s_c0 : (Lane.c0 : E) = num 0 := by simp
theorem s_c1 : (Lane.c1 : E) = num 1 := by simp
theorem s_half : (Lane.cHalf : E) = num (1/2) := by simp
theorem plane_res (c : Cfg) (p q : Prop) [Decidable p] [Decidable q] :
    planeResult c (msk p, msk q) = if p then .FRONT else if q then .BACK else .INTERSECTING := by
  simp only [planeResult, v_true, m_eq4]
theorem box_res (f : V4 E → V4 E × V4 E) (c : Cfg) (o i : Fin 6 → Prop) (P : Fin 6 → V4 E) (h : ∀ k, f (P k) = (msk (o k), msk (i k))) :
    (sixPlanes c f (P 0) (P 1) (P 2) (P 3) (P 4) (P 5) = .DISJOINT ↔ ∃ k, o k) ∧
    (sixPlanes c f (P 0) (P 1) (P 2) (P 3) (P 4) (P 5) = .CONTAINS ↔ (¬ ∃ k, o k) ∧ ∀ k, i k) := by
  have e : (o 0 ∨ o 1) = (o 0 ∨ o 1) := rfl
  simp only [sixPlanes, h, v_true, m_or, m_and, m_eq4, Fin.forall_fin_succ, Fin.exists_fin_succ]
  constructor <;> split_ifs <;> simp_all <;> tauto

end DXM.Geo

/-- Evaluate model vector code on real vectors. -/
macro "geo" : tactic => `(tactic| simp only [DXM.Geo.v_load3, DXM.Geo.v_store3, DXM.Geo.v_rep, DXM.Geo.v_zero, DXM.Geo.v_one, DXM.Geo.v_true,
  DXM.Geo.v_sub, DXM.Geo.v_add, DXM.Geo.v_mul, DXM.Geo.v_smul_l, DXM.Geo.v_smul_r, DXM.Geo.v_scale, DXM.Geo.v_neg, DXM.Geo.v_muladd,
  DXM.Geo.v_smuladd, DXM.Geo.v_smuladd_r, DXM.Geo.v_nms_r, DXM.Geo.v_abs, DXM.Geo.v_min, DXM.Geo.v_max, DXM.Geo.v_dot, DXM.Geo.v_dot4,
  DXM.Geo.v_lensq, DXM.Geo.v_len, DXM.Geo.s_sub, DXM.Geo.s_add, DXM.Geo.s_mul, DXM.Geo.s_neg, DXM.Geo.s_abs, DXM.Geo.s_scale, DXM.Geo.s_min,
  DXM.Geo.s_max, DXM.Geo.s_muladd, DXM.Geo.s_nms, DXM.Geo.s_x, DXM.Geo.v_getx, DXM.Geo.v_splatw, DXM.Geo.v_splatx, DXM.Geo.v_splaty,
  DXM.Geo.v_splatz, DXM.Geo.s_gt, DXM.Geo.s_ge, DXM.Geo.s_lt, DXM.Geo.s_le, DXM.Geo.v_gt, DXM.Geo.v_lt, DXM.Geo.v_le, DXM.Geo.v_gt_s,
  DXM.Geo.v_add_s, DXM.Geo.v_sub_s, DXM.Geo.m_and, DXM.Geo.m_or, DXM.Geo.m_andc, DXM.Geo.m3_and, DXM.Geo.m3_or, DXM.Geo.m3_andc,
  DXM.Geo.m3_s_and, DXM.Geo.m3_s_or, DXM.Geo.m_eq4, DXM.Geo.m_ne4, DXM.Geo.m_eq3, DXM.Geo.m3_eq3, DXM.Geo.m3_any, DXM.Geo.m3_all,
  DXM.Geo.m_any, DXM.Geo.m_all, DXM.Geo.p_le, DXM.Geo.p_gt, DXM.Geo.sel, DXM.Geo.sel_s, DXM.Geo.ins_w, DXM.Geo.v_rot, DXM.Geo.v_irot,
  DXM.Geo.v_inb3, DXM.Geo.v_inb, DXM.Geo.v_cross, DXM.Geo.sel3, DXM.Geo.sel_0, DXM.Geo.sel_1, DXM.Geo.v_transform, DXM.Geo.s_c0, DXM.Geo.s_c1, DXM.Geo.s_half, DXM.E.add_num, DXM.E.sub_num, DXM.E.mul_num, DXM.E.neg_num, DXM.E.abs_num, DXM.E.lt_num,
  DXM.E.le_num, DXM.E.ge_num, DXM.E.gt_num, DXM.E.minps_num, DXM.E.maxps_num, decide_eq_true_eq, Bool.and_eq_true, Bool.or_eq_true,
  Bool.not_eq_true', Bool.not_eq_true, Bool.not_eq_eq_eq_not, Bool.not_true, Bool.not_eq_false, eq_self_iff_true])
