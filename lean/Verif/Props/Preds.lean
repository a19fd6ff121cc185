import Verif.Props.Compare
import Verif.Props.Plane
import Verif.Lemmas.Integral
import Verif.Model.Matrix

/-
C103: equality of quaternions, planes and matrices.
-/

set_option linter.all false

namespace DXM.Props
open DXM.Spec DXM.E

section bits
variable {P : Env}

/-- C103: quaternion, plane and matrix equality is IEEE equality of every component. -/
theorem C103_equal (c : Cfg) (A B : V4 (F32 P)) (M N : M4 (F32 P)) :
    (XMQuaternionEqual c A B = true ↔ AllLanes 4 FEq A B) ∧
    (XMQuaternionNotEqual c A B = true ↔ ¬ AllLanes 4 FEq A B) ∧
    (XMPlaneEqual c A B = true ↔ AllLanes 4 FEq A B) ∧
    (XMPlaneNotEqual c A B = true ↔ ¬ AllLanes 4 FEq A B) ∧
    (XMMatrix.eq c M N = true ↔ ∀ i j : Fin 4, FEq ((M.row i).lane j).bits ((N.row i).lane j).bits) := by
  have h := C09_vector4 c A B
  refine ⟨h.1, h.2.2.2.2.2.2.1, h.1, h.2.2.2.2.2.2.1, ?_⟩
  have e : ∀ A B : V4 (F32 P), XMVector.eq c A B = true ↔ ∀ j : Fin 4, FEq (A.lane j).bits (B.lane j).bits := fun A B =>
    (C09_vector4 c A B).1.trans ⟨fun h j => h j j.isLt, fun h j _ => h j⟩
  unfold XMMatrix.eq
  simp only [Bool.and_eq_true, e]
  constructor
  · rintro ⟨⟨⟨h0, h1⟩, h2⟩, h3⟩ i
    fin_cases i
    · exact h0
    · exact h1
    · exact h2
    · exact h3
  · exact fun h => ⟨⟨⟨h 0, h 1⟩, h 2⟩, h 3⟩

theorem feq_fin {a b : BitVec 32} (hb : IsFinite b) : FEq a b ↔ IsFinite a ∧ value a = value b := by
  have nb : ¬ IsNaN b := fun h => hb h.1
  have ib : ¬ IsInf b := fun h => hb h.1
  unfold FEq evalue
  rw [if_neg ib]
  constructor
  · rintro ⟨h1, -, h2⟩
    by_cases hi : IsInf a
    · rw [if_pos hi] at h2
      split_ifs at h2
      · exact absurd h2 (EReal.bot_ne_coe _)
      · exact absurd h2 (EReal.top_ne_coe _)
    · rw [if_neg hi] at h2
      refine ⟨fun h => ?_, by exact_mod_cast h2⟩
      by_cases hf : fracField a = 0
      · exact hi ⟨h, hf⟩
      · exact h1 ⟨h, hf⟩
  · rintro ⟨h1, h2⟩
    refine ⟨fun h => h1 h.1, nb, ?_⟩
    rw [if_neg (fun h => h1 h.1), h2]

/-- C103: the identity test accepts exactly the patterns of the number quaternion (0, 0, 0, 1). -/
theorem C103_identity (c : Cfg) (Q : V4 (F32 P)) :
    XMQuaternionIsIdentity c Q = true ↔
      (∀ i, IsFinite (Q.lane i).bits) ∧ ∀ i, value (Q.lane i).bits = (![0, 0, 0, 1] : Fin 4 → ℝ) i := by
  have h0 : value 0#32 = 0 := by simp [value, signBit, expField, fracField]
  have h1 : value 0x3F800000#32 = 1 := by simp [value, signBit, expField, fracField]
  have f0 : IsFinite 0#32 := by decide
  have f1 : IsFinite 0x3F800000#32 := by decide
  refine (C09_vector4 c Q g_XMIdentityR3).1.trans ?_
  rw [all4]
  show FEq _ 0#32 ∧ FEq _ 0#32 ∧ FEq _ 0#32 ∧ FEq _ 0x3F800000#32 ↔ _
  rw [feq_fin f0, feq_fin f0, feq_fin f0, feq_fin f1, h0, h1]
  simp only [Fin.forall_fin_succ]
  simp [V4.lane]
  tauto

example : AllLanes 4 FEq (⟨Lane.ofBits 0x80000000#32, Lane.ofBits 0#32, Lane.ofBits 0#32, Lane.ofBits 0x3F800000#32⟩ : V4 (F32 P)) g_XMIdentityR3 := by
  rw [all4]
  show FEq 0x80000000#32 0#32 ∧ FEq 0#32 0#32 ∧ FEq 0#32 0#32 ∧ FEq 0x3F800000#32 0x3F800000#32
  refine ⟨?_, ?_, ?_, ?_⟩ <;> (rw [← IEEE.eq_iff]; decide)

/-- C103: equality fails to be reflexive exactly on NaN components. -/
theorem C103_refl (c : Cfg) (A : V4 (F32 P)) :
    (XMQuaternionEqual c A A = true ↔ ∀ i, ¬ IsNaN (A.lane i).bits) := by
  rw [(C103_equal c A A ⟨A, A, A, A⟩ ⟨A, A, A, A⟩).1]
  exact ⟨fun h i => (h i i.isLt).1, fun h i _ => ⟨h i, h i, rfl⟩⟩

end bits

/-- C103: planes compare near-equal when their unit-normal forms agree to the tolerance in every coefficient. -/
theorem C103_planeNear (c : Cfg) (p q e : Fin 4 → ℝ) (hp : normal p ≠ 0) (hq : normal q ≠ 0) :
    XMPlaneNearEqual c (vec4 p) (vec4 q) (vec4 e) = true ↔ ∀ i, |((len (normal p))⁻¹ • p) i - ((len (normal q))⁻¹ • q) i| ≤ e i := by
  unfold XMPlaneNearEqual
  rw [(C61_normalize c p hp).1, (C61_normalize c q hq).1]
  have hm : ∀ b : Bool, Lane.sgn (Lane.mask b : E) = b := by
    intro b; cases b
    · exact LawfulLane.sgn_zero
    · exact LawfulLane.sgn_ones
  generalize (len (normal p))⁻¹ • p = a
  generalize (len (normal q))⁻¹ • q = b
  unfold XMVector4NearEqual
  split_ifs <;> simp [vec4, Fin.forall_fin_succ, and_assoc, SSE.mm_eq_15, hm, max_neg_self', abs_le, sub_nonneg, add_comm]

/-- C103: near-equality of planes does not depend on the positive scale of the coefficients. -/
theorem C103_planeNear_scale (c : Cfg) (p q e : Fin 4 → ℝ) (s t : ℝ) (hs : 0 < s) (ht : 0 < t) (hp : normal p ≠ 0) (hq : normal q ≠ 0) :
    XMPlaneNearEqual c (vec4 (s • p)) (vec4 (t • q)) (vec4 e) = XMPlaneNearEqual c (vec4 p) (vec4 q) (vec4 e) := by
  have key : ∀ (s : ℝ) (p : Fin 4 → ℝ), 0 < s → normal p ≠ 0 → normal (s • p) ≠ 0 ∧ (len (normal (s • p)))⁻¹ • (s • p) = (len (normal p))⁻¹ • p := by
    intro s p hs hp
    have e1 : normal (s • p) = s • normal p := by ext i; fin_cases i <;> simp [normal]
    have e2 : len (s • normal p) = s * len (normal p) := by
      unfold len; rw [smul_dotProduct, dotProduct_smul, smul_eq_mul, smul_eq_mul, ← mul_assoc, Real.sqrt_mul (by positivity), Real.sqrt_mul_self hs.le]
    have hl := len_pos hp
    refine ⟨by rw [e1]; exact smul_ne_zero hs.ne' hp, ?_⟩
    rw [e1, e2, smul_smul]; congr 1; field_simp
  obtain ⟨a1, a2⟩ := key s p hs hp
  obtain ⟨b1, b2⟩ := key t q ht hq
  rw [Bool.eq_iff_iff, C103_planeNear c _ _ _ a1 b1, C103_planeNear c _ _ _ hp hq, a2, b2]

example : normal ![0, 2, 0, 6] ≠ 0 ∧ ∀ i, |((len (normal ![0, 2, 0, 6]))⁻¹ • ![0, 2, 0, 6]) i - (![0, 1, 0, 3] : Fin 4 → ℝ) i| ≤ 0 := by
  have : len (normal ![0, 2, 0, 6]) = 2 := by
    rw [len_normal]; simp
  refine ⟨fun h => by simpa [normal] using congrFun h 1, fun i => ?_⟩
  rw [this]
  fin_cases i <;> norm_num

end DXM.Props
