import Verif.Lemmas.F32Lane
import Verif.Props.Bits

/-
C08, C09, C10: comparison masks, predicates and comparison records, on all bit patterns (interpretation I).
-/

set_option linter.all false

namespace DXM.Props
open DXM.Spec
variable {P : Env}

open Classical in
/-- A truth value as a lane: all ones or all zeros. -/
noncomputable def maskOf (p : Prop) : BitVec 32 := if p then 0xFFFFFFFF#32 else 0#32

theorem mask_of {b : Bool} {p : Prop} (h : b = true ↔ p) : (Lane.mask b : F32 P).bits = maskOf p := by
  rw [F32.bits_mask]; unfold maskOf
  by_cases hp : p
  · rw [if_pos hp, if_pos (h.2 hp)]
  · rw [if_neg hp, if_neg (fun hb => hp (h.1 hb))]

theorem fne_iff (a b : F32 P) : Lane.ne a b = true ↔ ¬ FEq a.bits b.bits := by
  unfold Lane.ne; rw [F32.eq_eq, ← IEEE.eq_iff]; simp

/-- C08: the comparison functions return, lane by lane, all ones when the IEEE comparison holds and zero otherwise. -/
theorem C08_masks (V1 V2 : V4 (F32 P)) (i : Fin 4) :
    ((XMVectorEqual V1 V2).lane i).bits = maskOf (FEq (V1.lane i).bits (V2.lane i).bits) ∧
    ((XMVectorNotEqual V1 V2).lane i).bits = maskOf (¬ FEq (V1.lane i).bits (V2.lane i).bits) ∧
    ((XMVectorGreater V1 V2).lane i).bits = maskOf (FLt (V2.lane i).bits (V1.lane i).bits) ∧
    ((XMVectorGreaterOrEqual V1 V2).lane i).bits = maskOf (FLe (V2.lane i).bits (V1.lane i).bits) ∧
    ((XMVectorLess V1 V2).lane i).bits = maskOf (FLt (V1.lane i).bits (V2.lane i).bits) ∧
    ((XMVectorLessOrEqual V1 V2).lane i).bits = maskOf (FLe (V1.lane i).bits (V2.lane i).bits) := by
  refine ⟨?_, ?_, ?_, ?_, ?_, ?_⟩
  · rw [← mask_of (P := P) (IEEE.eq_iff _ _)]; fin_cases i <;> rfl
  · rw [← mask_of (P := P) (fne_iff _ _)]; fin_cases i <;> rfl
  · rw [← mask_of (P := P) (IEEE.lt_iff _ _)]; fin_cases i <;> rfl
  · rw [← mask_of (P := P) (IEEE.le_iff _ _)]; fin_cases i <;> rfl
  · rw [← mask_of (P := P) (IEEE.lt_iff _ _)]; fin_cases i <;> rfl
  · rw [← mask_of (P := P) (IEEE.le_iff _ _)]; fin_cases i <;> rfl

/-- C08: what the IEEE order says: +0 equals -0, NaN is unordered with everything (itself included), infinities are the extremes. -/
theorem C08_special (a b : BitVec 32) :
    FEq 0x00000000#32 0x80000000#32 ∧ (IsNaN a ∨ IsNaN b → ¬ FEq a b ∧ ¬ FLt a b ∧ ¬ FLe a b) ∧
    (¬ IsNaN a → FLe a 0x7F800000#32 ∧ FLe 0xFF800000#32 a) ∧ (IsFinite a → FLt a 0x7F800000#32 ∧ FLt 0xFF800000#32 a) := by
  have k1 : IEEE.key 0x7F800000#32 = 0x7F800000 := by decide
  have k2 : IEEE.key 0xFF800000#32 = -0x7F800000 := by decide
  have n1 : IEEE.isNaN 0x7F800000#32 = false := by decide
  have n2 : IEEE.isNaN 0xFF800000#32 = false := by decide
  refine ⟨?_, ?_, ?_, ?_⟩
  · rw [← IEEE.eq_iff]; decide
  · intro h; refine ⟨fun g => ?_, fun g => ?_, fun g => ?_⟩ <;> rcases h with h | h
    · exact g.1 h
    · exact g.2.1 h
    · exact g.1 h
    · exact g.2.1 h
    · exact g.1 h
    · exact g.2.1 h
  · intro h
    rw [← IEEE.isNaN_iff] at h
    have h' : IEEE.am a ≤ 0x7F800000 := by unfold IEEE.isNaN at h; simpa using h
    rw [← IEEE.le_iff, ← IEEE.le_iff]; unfold IEEE.le; rw [k1, k2, n1, n2]
    unfold IEEE.key; split_ifs <;> simp [h] <;> omega
  · intro h
    have h1 := (IEEE.finite_iff a).1 h
    have h2 := (IEEE.finite_iff' a).1 h
    rw [← IEEE.lt_iff, ← IEEE.lt_iff]; unfold IEEE.lt; rw [k1, k2, n1, n2, h2.1]
    unfold IEEE.key; split_ifs <;> simp <;> omega

/-- C08: on non-NaN lanes the masks are a total preorder: LessOrEqual one way or the other, transitive; Less is its strict part
and Equal its symmetric part. -/
theorem C08_preorder (a b d : BitVec 32) (ha : ¬ IsNaN a) (hb : ¬ IsNaN b) (hd : ¬ IsNaN d) :
    (FLe a b ∨ FLe b a) ∧ (FLe a b → FLe b d → FLe a d) ∧ (FLt a b ↔ FLe a b ∧ ¬ FLe b a) ∧ (FEq a b ↔ FLe a b ∧ FLe b a) := by
  unfold FLe FLt FEq
  refine ⟨?_, ?_, ?_, ?_⟩
  · rcases le_total (evalue a) (evalue b) with h | h
    · exact Or.inl ⟨ha, hb, h⟩
    · exact Or.inr ⟨hb, ha, h⟩
  · rintro ⟨_, _, h1⟩ ⟨_, _, h2⟩; exact ⟨ha, hd, h1.trans h2⟩
  · constructor
    · rintro ⟨_, _, h⟩; exact ⟨⟨ha, hb, h.le⟩, fun g => absurd g.2.2 (not_le.2 h)⟩
    · rintro ⟨_, h⟩; exact ⟨ha, hb, not_le.1 fun g => h ⟨hb, ha, g⟩⟩
  · constructor
    · rintro ⟨_, _, h⟩; exact ⟨⟨ha, hb, h.le⟩, ⟨hb, ha, h.ge⟩⟩
    · rintro ⟨⟨_, _, h1⟩, ⟨_, _, h2⟩⟩; exact ⟨ha, hb, le_antisymm h1 h2⟩

example : ¬ IsNaN 0x3F800000#32 := by decide
example : ((XMVectorLess (.splat (F32.ofBV 0xBF800000#32)) (.splat (F32.ofBV 0x80000000#32)) : V4 (F32 P0)).lane 3).bits = 0xFFFFFFFF#32 := by decide
example : ((XMVectorEqual (.splat (F32.ofBV 0x7FC00000#32)) (.splat (F32.ofBV 0x7FC00000#32)) : V4 (F32 P0)).lane 3).bits = 0#32 := by decide

/-- The relation `R` holds on the first `n` lanes. -/
def AllLanes (n : ℕ) (R : BitVec 32 → BitVec 32 → Prop) (A B : V4 (F32 P)) : Prop :=
  ∀ i : Fin 4, i.val < n → R (A.lane i).bits (B.lane i).bits

theorem all2 {R : BitVec 32 → BitVec 32 → Prop} {A B : V4 (F32 P)} : AllLanes 2 R A B ↔ R A.x.bits B.x.bits ∧ R A.y.bits B.y.bits := by
  unfold AllLanes; simp [Fin.forall_fin_succ]
theorem all3 {R : BitVec 32 → BitVec 32 → Prop} {A B : V4 (F32 P)} :
    AllLanes 3 R A B ↔ R A.x.bits B.x.bits ∧ R A.y.bits B.y.bits ∧ R A.z.bits B.z.bits := by
  unfold AllLanes; simp [Fin.forall_fin_succ]
theorem all4 {R : BitVec 32 → BitVec 32 → Prop} {A B : V4 (F32 P)} :
    AllLanes 4 R A B ↔ R A.x.bits B.x.bits ∧ R A.y.bits B.y.bits ∧ R A.z.bits B.z.bits ∧ R A.w.bits B.w.bits := by
  unfold AllLanes; simp [Fin.forall_fin_succ]

theorem gt_iff' (a b : F32 P) : Lane.gt a b = true ↔ FLt b.bits a.bits := IEEE.lt_iff _ _
theorem ge_iff' (a b : F32 P) : Lane.ge a b = true ↔ FLe b.bits a.bits := IEEE.le_iff _ _
theorem lt_iff' (a b : F32 P) : Lane.lt a b = true ↔ FLt a.bits b.bits := IEEE.lt_iff _ _
theorem le_iff' (a b : F32 P) : Lane.le a b = true ↔ FLe a.bits b.bits := IEEE.le_iff _ _
theorem eq_iff' (a b : F32 P) : Lane.eq a b = true ↔ FEq a.bits b.bits := IEEE.eq_iff _ _
theorem ieq_iff' (a b : F32 P) : Lane.ieq a b = true ↔ a.bits = b.bits := by rw [F32.ieq_eq]; simp
theorem ieq_false (a b : F32 P) : Lane.ieq a b = false ↔ ¬ a.bits = b.bits := by rw [F32.ieq_eq]; simp
theorem ne_false (a b : F32 P) : Lane.ne a b = false ↔ FEq a.bits b.bits := by rw [Bool.eq_false_iff, ne_eq, fne_iff, not_not]
theorem eq_false' (a b : F32 P) : Lane.eq a b = false ↔ ¬ FEq a.bits b.bits := by rw [Bool.eq_false_iff, ne_eq, eq_iff']

/-- C09: the XMVector2 predicates look at the first two lanes only; every build. -/
theorem C09_vector2 (c : Cfg) (A B : V4 (F32 P)) :
    (XMVector2Equal c A B = true ↔ AllLanes 2 FEq A B) ∧
    (XMVector2Greater c A B = true ↔ AllLanes 2 (fun a b => FLt b a) A B) ∧
    (XMVector2GreaterOrEqual c A B = true ↔ AllLanes 2 (fun a b => FLe b a) A B) ∧
    (XMVector2Less c A B = true ↔ AllLanes 2 FLt A B) ∧
    (XMVector2LessOrEqual c A B = true ↔ AllLanes 2 FLe A B) ∧
    (XMVector2EqualInt c A B = true ↔ AllLanes 2 (· = ·) A B) ∧
    (XMVector2NotEqual c A B = true ↔ ¬ AllLanes 2 FEq A B) ∧
    (XMVector2NotEqualInt c A B = true ↔ ¬ AllLanes 2 (· = ·) A B) := by
  have e1 := SSE.mm_and3_eq_3
  have e2 := SSE.mm_and3_ne_3
  have e3 := SSE.mm_ne_0
  simp only [all2]
  refine ⟨?_, ?_, ?_, ?_, ?_, ?_, ?_, ?_⟩
  · unfold XMVector2Equal; split_ifs <;> simp only [SSE.movemask, SSE.cmpeq, SSE.cmpneq, SSE.cmpgt, SSE.cmpge, SSE.cmplt, SSE.cmple, SSE.cmpeq_epi32, V4.map2, Lane.sgn_mask, e1, e2, e3,
      Bool.and_eq_true, Bool.or_eq_true, Bool.not_eq_true', gt_iff', ge_iff', lt_iff', le_iff', eq_iff', eq_false', ieq_iff', ieq_false, fne_iff, and_assoc]
  · unfold XMVector2Greater; split_ifs <;> simp only [SSE.movemask, SSE.cmpeq, SSE.cmpneq, SSE.cmpgt, SSE.cmpge, SSE.cmplt, SSE.cmple, SSE.cmpeq_epi32, V4.map2, Lane.sgn_mask, e1, e2, e3,
      Bool.and_eq_true, Bool.or_eq_true, Bool.not_eq_true', gt_iff', ge_iff', lt_iff', le_iff', eq_iff', eq_false', ieq_iff', ieq_false, fne_iff, and_assoc]
  · unfold XMVector2GreaterOrEqual; split_ifs <;> simp only [SSE.movemask, SSE.cmpeq, SSE.cmpneq, SSE.cmpgt, SSE.cmpge, SSE.cmplt, SSE.cmple, SSE.cmpeq_epi32, V4.map2, Lane.sgn_mask, e1, e2, e3,
      Bool.and_eq_true, Bool.or_eq_true, Bool.not_eq_true', gt_iff', ge_iff', lt_iff', le_iff', eq_iff', eq_false', ieq_iff', ieq_false, fne_iff, and_assoc]
  · unfold XMVector2Less; split_ifs <;> simp only [SSE.movemask, SSE.cmpeq, SSE.cmpneq, SSE.cmpgt, SSE.cmpge, SSE.cmplt, SSE.cmple, SSE.cmpeq_epi32, V4.map2, Lane.sgn_mask, e1, e2, e3,
      Bool.and_eq_true, Bool.or_eq_true, Bool.not_eq_true', gt_iff', ge_iff', lt_iff', le_iff', eq_iff', eq_false', ieq_iff', ieq_false, fne_iff, and_assoc]
  · unfold XMVector2LessOrEqual; split_ifs <;> simp only [SSE.movemask, SSE.cmpeq, SSE.cmpneq, SSE.cmpgt, SSE.cmpge, SSE.cmplt, SSE.cmple, SSE.cmpeq_epi32, V4.map2, Lane.sgn_mask, e1, e2, e3,
      Bool.and_eq_true, Bool.or_eq_true, Bool.not_eq_true', gt_iff', ge_iff', lt_iff', le_iff', eq_iff', eq_false', ieq_iff', ieq_false, fne_iff, and_assoc]
  · unfold XMVector2EqualInt; split_ifs <;> simp only [SSE.movemask, SSE.cmpeq, SSE.cmpneq, SSE.cmpgt, SSE.cmpge, SSE.cmplt, SSE.cmple, SSE.cmpeq_epi32, V4.map2, Lane.sgn_mask, e1, e2, e3,
      Bool.and_eq_true, Bool.or_eq_true, Bool.not_eq_true', gt_iff', ge_iff', lt_iff', le_iff', eq_iff', eq_false', ieq_iff', ieq_false, fne_iff, and_assoc]
  · unfold XMVector2NotEqual; split_ifs <;> simp only [SSE.movemask, SSE.cmpeq, SSE.cmpneq, SSE.cmpgt, SSE.cmpge, SSE.cmplt, SSE.cmple, SSE.cmpeq_epi32, V4.map2, Lane.sgn_mask, e1, e2, e3,
      Bool.and_eq_true, Bool.or_eq_true, Bool.not_eq_true', gt_iff', ge_iff', lt_iff', le_iff', eq_iff', eq_false', ieq_iff', ieq_false, fne_iff, and_assoc] <;> tauto
  · unfold XMVector2NotEqualInt; split_ifs <;> simp only [SSE.movemask, SSE.cmpeq, SSE.cmpneq, SSE.cmpgt, SSE.cmpge, SSE.cmplt, SSE.cmple, SSE.cmpeq_epi32, V4.map2, Lane.sgn_mask, e1, e2, e3,
      Bool.and_eq_true, Bool.or_eq_true, Bool.not_eq_true', gt_iff', ge_iff', lt_iff', le_iff', eq_iff', eq_false', ieq_iff', ieq_false, fne_iff, and_assoc] <;> tauto
/-- C09: the XMVector3 predicates look at the first three lanes only; every build. -/
theorem C09_vector3 (c : Cfg) (A B : V4 (F32 P)) :
    (XMVector3Equal c A B = true ↔ AllLanes 3 FEq A B) ∧
    (XMVector3Greater c A B = true ↔ AllLanes 3 (fun a b => FLt b a) A B) ∧
    (XMVector3GreaterOrEqual c A B = true ↔ AllLanes 3 (fun a b => FLe b a) A B) ∧
    (XMVector3Less c A B = true ↔ AllLanes 3 FLt A B) ∧
    (XMVector3LessOrEqual c A B = true ↔ AllLanes 3 FLe A B) ∧
    (XMVector3EqualInt c A B = true ↔ AllLanes 3 (· = ·) A B) ∧
    (XMVector3NotEqual c A B = true ↔ ¬ AllLanes 3 FEq A B) ∧
    (XMVector3NotEqualInt c A B = true ↔ ¬ AllLanes 3 (· = ·) A B) := by
  have e1 := SSE.mm_and7_eq_7
  have e2 := SSE.mm_and7_ne_7
  have e3 := SSE.mm_ne_0
  simp only [all3]
  refine ⟨?_, ?_, ?_, ?_, ?_, ?_, ?_, ?_⟩
  · unfold XMVector3Equal; split_ifs <;> simp only [SSE.movemask, SSE.cmpeq, SSE.cmpneq, SSE.cmpgt, SSE.cmpge, SSE.cmplt, SSE.cmple, SSE.cmpeq_epi32, V4.map2, Lane.sgn_mask, e1, e2, e3,
      Bool.and_eq_true, Bool.or_eq_true, Bool.not_eq_true', gt_iff', ge_iff', lt_iff', le_iff', eq_iff', eq_false', ieq_iff', ieq_false, fne_iff, and_assoc]
  · unfold XMVector3Greater; split_ifs <;> simp only [SSE.movemask, SSE.cmpeq, SSE.cmpneq, SSE.cmpgt, SSE.cmpge, SSE.cmplt, SSE.cmple, SSE.cmpeq_epi32, V4.map2, Lane.sgn_mask, e1, e2, e3,
      Bool.and_eq_true, Bool.or_eq_true, Bool.not_eq_true', gt_iff', ge_iff', lt_iff', le_iff', eq_iff', eq_false', ieq_iff', ieq_false, fne_iff, and_assoc]
  · unfold XMVector3GreaterOrEqual; split_ifs <;> simp only [SSE.movemask, SSE.cmpeq, SSE.cmpneq, SSE.cmpgt, SSE.cmpge, SSE.cmplt, SSE.cmple, SSE.cmpeq_epi32, V4.map2, Lane.sgn_mask, e1, e2, e3,
      Bool.and_eq_true, Bool.or_eq_true, Bool.not_eq_true', gt_iff', ge_iff', lt_iff', le_iff', eq_iff', eq_false', ieq_iff', ieq_false, fne_iff, and_assoc]
  · unfold XMVector3Less; split_ifs <;> simp only [SSE.movemask, SSE.cmpeq, SSE.cmpneq, SSE.cmpgt, SSE.cmpge, SSE.cmplt, SSE.cmple, SSE.cmpeq_epi32, V4.map2, Lane.sgn_mask, e1, e2, e3,
      Bool.and_eq_true, Bool.or_eq_true, Bool.not_eq_true', gt_iff', ge_iff', lt_iff', le_iff', eq_iff', eq_false', ieq_iff', ieq_false, fne_iff, and_assoc]
  · unfold XMVector3LessOrEqual; split_ifs <;> simp only [SSE.movemask, SSE.cmpeq, SSE.cmpneq, SSE.cmpgt, SSE.cmpge, SSE.cmplt, SSE.cmple, SSE.cmpeq_epi32, V4.map2, Lane.sgn_mask, e1, e2, e3,
      Bool.and_eq_true, Bool.or_eq_true, Bool.not_eq_true', gt_iff', ge_iff', lt_iff', le_iff', eq_iff', eq_false', ieq_iff', ieq_false, fne_iff, and_assoc]
  · unfold XMVector3EqualInt; split_ifs <;> simp only [SSE.movemask, SSE.cmpeq, SSE.cmpneq, SSE.cmpgt, SSE.cmpge, SSE.cmplt, SSE.cmple, SSE.cmpeq_epi32, V4.map2, Lane.sgn_mask, e1, e2, e3,
      Bool.and_eq_true, Bool.or_eq_true, Bool.not_eq_true', gt_iff', ge_iff', lt_iff', le_iff', eq_iff', eq_false', ieq_iff', ieq_false, fne_iff, and_assoc]
  · unfold XMVector3NotEqual; split_ifs <;> simp only [SSE.movemask, SSE.cmpeq, SSE.cmpneq, SSE.cmpgt, SSE.cmpge, SSE.cmplt, SSE.cmple, SSE.cmpeq_epi32, V4.map2, Lane.sgn_mask, e1, e2, e3,
      Bool.and_eq_true, Bool.or_eq_true, Bool.not_eq_true', gt_iff', ge_iff', lt_iff', le_iff', eq_iff', eq_false', ieq_iff', ieq_false, fne_iff, and_assoc] <;> tauto
  · unfold XMVector3NotEqualInt; split_ifs <;> simp only [SSE.movemask, SSE.cmpeq, SSE.cmpneq, SSE.cmpgt, SSE.cmpge, SSE.cmplt, SSE.cmple, SSE.cmpeq_epi32, V4.map2, Lane.sgn_mask, e1, e2, e3,
      Bool.and_eq_true, Bool.or_eq_true, Bool.not_eq_true', gt_iff', ge_iff', lt_iff', le_iff', eq_iff', eq_false', ieq_iff', ieq_false, fne_iff, and_assoc] <;> tauto
/-- C09: the XMVector4 predicates look at the first four lanes only (all); every build. -/
theorem C09_vector4 (c : Cfg) (A B : V4 (F32 P)) :
    (XMVector4Equal c A B = true ↔ AllLanes 4 FEq A B) ∧
    (XMVector4Greater c A B = true ↔ AllLanes 4 (fun a b => FLt b a) A B) ∧
    (XMVector4GreaterOrEqual c A B = true ↔ AllLanes 4 (fun a b => FLe b a) A B) ∧
    (XMVector4Less c A B = true ↔ AllLanes 4 FLt A B) ∧
    (XMVector4LessOrEqual c A B = true ↔ AllLanes 4 FLe A B) ∧
    (XMVector4EqualInt c A B = true ↔ AllLanes 4 (· = ·) A B) ∧
    (XMVector4NotEqual c A B = true ↔ ¬ AllLanes 4 FEq A B) ∧
    (XMVector4NotEqualInt c A B = true ↔ ¬ AllLanes 4 (· = ·) A B) := by
  have e1 := SSE.mm_eq_15
  have e2 := SSE.mm_ne_15
  have e3 := SSE.mm_ne_0
  simp only [all4]
  refine ⟨?_, ?_, ?_, ?_, ?_, ?_, ?_, ?_⟩
  · unfold XMVector4Equal; split_ifs <;> simp only [SSE.movemask, SSE.cmpeq, SSE.cmpneq, SSE.cmpgt, SSE.cmpge, SSE.cmplt, SSE.cmple, SSE.cmpeq_epi32, V4.map2, Lane.sgn_mask, e1, e2, e3,
      Bool.and_eq_true, Bool.or_eq_true, Bool.not_eq_true', gt_iff', ge_iff', lt_iff', le_iff', eq_iff', eq_false', ieq_iff', ieq_false, fne_iff, and_assoc]
  · unfold XMVector4Greater; split_ifs <;> simp only [SSE.movemask, SSE.cmpeq, SSE.cmpneq, SSE.cmpgt, SSE.cmpge, SSE.cmplt, SSE.cmple, SSE.cmpeq_epi32, V4.map2, Lane.sgn_mask, e1, e2, e3,
      Bool.and_eq_true, Bool.or_eq_true, Bool.not_eq_true', gt_iff', ge_iff', lt_iff', le_iff', eq_iff', eq_false', ieq_iff', ieq_false, fne_iff, and_assoc]
  · unfold XMVector4GreaterOrEqual; split_ifs <;> simp only [SSE.movemask, SSE.cmpeq, SSE.cmpneq, SSE.cmpgt, SSE.cmpge, SSE.cmplt, SSE.cmple, SSE.cmpeq_epi32, V4.map2, Lane.sgn_mask, e1, e2, e3,
      Bool.and_eq_true, Bool.or_eq_true, Bool.not_eq_true', gt_iff', ge_iff', lt_iff', le_iff', eq_iff', eq_false', ieq_iff', ieq_false, fne_iff, and_assoc]
  · unfold XMVector4Less; split_ifs <;> simp only [SSE.movemask, SSE.cmpeq, SSE.cmpneq, SSE.cmpgt, SSE.cmpge, SSE.cmplt, SSE.cmple, SSE.cmpeq_epi32, V4.map2, Lane.sgn_mask, e1, e2, e3,
      Bool.and_eq_true, Bool.or_eq_true, Bool.not_eq_true', gt_iff', ge_iff', lt_iff', le_iff', eq_iff', eq_false', ieq_iff', ieq_false, fne_iff, and_assoc]
  · unfold XMVector4LessOrEqual; split_ifs <;> simp only [SSE.movemask, SSE.cmpeq, SSE.cmpneq, SSE.cmpgt, SSE.cmpge, SSE.cmplt, SSE.cmple, SSE.cmpeq_epi32, V4.map2, Lane.sgn_mask, e1, e2, e3,
      Bool.and_eq_true, Bool.or_eq_true, Bool.not_eq_true', gt_iff', ge_iff', lt_iff', le_iff', eq_iff', eq_false', ieq_iff', ieq_false, fne_iff, and_assoc]
  · unfold XMVector4EqualInt; split_ifs <;> simp only [SSE.movemask, SSE.cmpeq, SSE.cmpneq, SSE.cmpgt, SSE.cmpge, SSE.cmplt, SSE.cmple, SSE.cmpeq_epi32, V4.map2, Lane.sgn_mask, e1, e2, e3,
      Bool.and_eq_true, Bool.or_eq_true, Bool.not_eq_true', gt_iff', ge_iff', lt_iff', le_iff', eq_iff', eq_false', ieq_iff', ieq_false, fne_iff, and_assoc]
  · unfold XMVector4NotEqual; split_ifs <;> simp only [SSE.movemask, SSE.cmpeq, SSE.cmpneq, SSE.cmpgt, SSE.cmpge, SSE.cmplt, SSE.cmple, SSE.cmpeq_epi32, V4.map2, Lane.sgn_mask, e1, e2, e3,
      Bool.and_eq_true, Bool.or_eq_true, Bool.not_eq_true', gt_iff', ge_iff', lt_iff', le_iff', eq_iff', eq_false', ieq_iff', ieq_false, fne_iff, and_assoc] <;> tauto
  · unfold XMVector4NotEqualInt; split_ifs <;> simp only [SSE.movemask, SSE.cmpeq, SSE.cmpneq, SSE.cmpgt, SSE.cmpge, SSE.cmplt, SSE.cmple, SSE.cmpeq_epi32, V4.map2, Lane.sgn_mask, e1, e2, e3,
      Bool.and_eq_true, Bool.or_eq_true, Bool.not_eq_true', gt_iff', ge_iff', lt_iff', le_iff', eq_iff', eq_false', ieq_iff', ieq_false, fne_iff, and_assoc] <;> tauto

/-- C09: garbage in the lanes past the dimension does not matter. -/
theorem C09_garbage (c : Cfg) (A B A' B' : V4 (F32 P)) (hA : A.x = A'.x ∧ A.y = A'.y) (hB : B.x = B'.x ∧ B.y = B'.y) :
    XMVector2Equal c A B = XMVector2Equal c A' B' ∧ XMVector2Less c A B = XMVector2Less c A' B' ∧
    (A.z = A'.z → B.z = B'.z → XMVector3Equal c A B = XMVector3Equal c A' B' ∧ XMVector3Less c A B = XMVector3Less c A' B' ∧
      XMVector3GreaterOrEqual c A B = XMVector3GreaterOrEqual c A' B') := by
  refine ⟨?_, ?_, fun hz hz' => ⟨?_, ?_, ?_⟩⟩ <;> rw [Bool.eq_iff_iff]
  · rw [(C09_vector2 c A B).1, (C09_vector2 c A' B').1, all2, all2, hA.1, hA.2, hB.1, hB.2]
  · rw [(C09_vector2 c A B).2.2.2.1, (C09_vector2 c A' B').2.2.2.1, all2, all2, hA.1, hA.2, hB.1, hB.2]
  · rw [(C09_vector3 c A B).1, (C09_vector3 c A' B').1, all3, all3, hA.1, hA.2, hB.1, hB.2, hz, hz']
  · rw [(C09_vector3 c A B).2.2.2.1, (C09_vector3 c A' B').2.2.2.1, all3, all3, hA.1, hA.2, hB.1, hB.2, hz, hz']
  · rw [(C09_vector3 c A B).2.2.1, (C09_vector3 c A' B').2.2.1, all3, all3, hA.1, hA.2, hB.1, hB.2, hz, hz']

example : (⟨F32.ofBV 0#32, F32.ofBV 0#32, F32.ofBV 1#32, F32.ofBV 2#32⟩ : V4 (F32 P0)).x = (⟨F32.ofBV 0#32, F32.ofBV 0#32, F32.ofBV 3#32, F32.ofBV 0x7FC00000#32⟩ : V4 (F32 P0)).x := rfl

/-- The relation `R` holds on some of the first `n` lanes. -/
def AnyLane (n : ℕ) (R : BitVec 32 → BitVec 32 → Prop) (A B : V4 (F32 P)) : Prop :=
  ∃ i : Fin 4, i.val < n ∧ R (A.lane i).bits (B.lane i).bits

/-- The comparison record `cr`, read through the XMComparison functions, says that all / some / none of the lanes compare true. -/
structure Record (cr : Nat) (all any : Prop) : Prop where
  allTrue : XMComparisonAllTrue cr = true ↔ all
  anyTrue : XMComparisonAnyTrue cr = true ↔ any
  allFalse : XMComparisonAllFalse cr = true ↔ ¬ any
  anyFalse : XMComparisonAnyFalse cr = true ↔ ¬ all
  mixed : XMComparisonMixed cr = true ↔ (any ∧ ¬ all)

/-- A record with the bits the code sets. -/
theorem record_of {a f : Bool} {all any : Prop} (h1 : a = true ↔ all) (h2 : f = true ↔ ¬ any) (h3 : all → any) :
    Record (if a then XM_CRMASK_CR6TRUE else if f then XM_CRMASK_CR6FALSE else 0) all any := by
  have h2' : f = false ↔ any := by rw [Bool.eq_false_iff, ne_eq, h2, not_not]
  cases a <;> cases f <;> simp at h1 h2 h2' <;>
    first | exact ⟨by simp [*]; decide, by simp [*]; decide, by simp [*]; decide, by simp [*]; decide, by simp [*]; decide⟩
          | exact absurd (h3 h1) h2

theorem any2 {R : BitVec 32 → BitVec 32 → Prop} {A B : V4 (F32 P)} : AnyLane 2 R A B ↔ R A.x.bits B.x.bits ∨ R A.y.bits B.y.bits := by
  unfold AnyLane; simp [Fin.exists_fin_succ]
theorem any3 {R : BitVec 32 → BitVec 32 → Prop} {A B : V4 (F32 P)} :
    AnyLane 3 R A B ↔ R A.x.bits B.x.bits ∨ R A.y.bits B.y.bits ∨ R A.z.bits B.z.bits := by
  unfold AnyLane; simp [Fin.exists_fin_succ]
theorem any4 {R : BitVec 32 → BitVec 32 → Prop} {A B : V4 (F32 P)} :
    AnyLane 4 R A B ↔ R A.x.bits B.x.bits ∨ R A.y.bits B.y.bits ∨ R A.z.bits B.z.bits ∨ R A.w.bits B.w.bits := by
  unfold AnyLane; simp [Fin.exists_fin_succ]
theorem all_any {n : ℕ} (hn : 0 < n) {R : BitVec 32 → BitVec 32 → Prop} {A B : V4 (F32 P)} (h : AllLanes n R A B) : AnyLane n R A B :=
  ⟨0, hn, h 0 hn⟩

theorem recordR_of (c : Cfg) (R : BitVec 32 → BitVec 32 → Prop) (f : F32 P → F32 P → Bool) (hf : ∀ a b, f a b = true ↔ R a.bits b.bits) (A B : V4 (F32 P)) :
    Record (recordR c (.map2 (fun a b => (Lane.mask (f a b) : F32 P)) A B) (f A.x B.x) (f A.y B.y) (f A.z B.z) (f A.w B.w)) (AllLanes 4 R A B) (AnyLane 4 R A B) := by
  unfold recordR
  have hf' : ∀ a b, f a b = false ↔ ¬ R a.bits b.bits := fun a b => by rw [Bool.eq_false_iff, ne_eq, hf]
  have e1 := SSE.mm_eq_15
  have e0 := SSE.mm_eq_0
  by_cases hs : c.sse = true <;> [rw [if_pos hs]; rw [if_neg hs]] <;> refine record_of ?_ ?_ (all_any (by norm_num)) <;>
    simp only [all4, any4, SSE.movemask, V4.map2, Lane.sgn_mask, e1, e0, Bool.and_eq_true, Bool.not_eq_true', Bool.or_eq_false_iff, hf, hf', and_assoc, not_or]

/-- C10: the records of the four-lane functions, with NaN lanes allowed; every build. -/
theorem C10_vector (c : Cfg) (A B : V4 (F32 P)) :
    Record (XMVectorEqualR c A B).1 (AllLanes 4 FEq A B) (AnyLane 4 FEq A B) ∧
    Record (XMVectorGreaterR c A B).1 (AllLanes 4 (fun a b => FLt b a) A B) (AnyLane 4 (fun a b => FLt b a) A B) ∧
    Record (XMVectorGreaterOrEqualR c A B).1 (AllLanes 4 (fun a b => FLe b a) A B) (AnyLane 4 (fun a b => FLe b a) A B) ∧
    Record (XMVectorEqualIntR c A B).1 (AllLanes 4 (· = ·) A B) (AnyLane 4 (· = ·) A B) ∧
    (XMVectorEqualR c A B).2 = XMVectorEqual A B ∧ (XMVectorGreaterR c A B).2 = XMVectorGreater A B ∧
    (XMVectorGreaterOrEqualR c A B).2 = XMVectorGreaterOrEqual A B ∧ (XMVectorEqualIntR c A B).2 = XMVectorEqualInt A B := by
  refine ⟨recordR_of c FEq Lane.eq eq_iff' A B, recordR_of c _ Lane.gt gt_iff' A B, recordR_of c _ Lane.ge ge_iff' A B, ?_, rfl, rfl, rfl, ?_⟩
  · unfold XMVectorEqualIntR
    by_cases hs : c.sse = true <;> [rw [if_pos hs]; rw [if_neg hs]] <;> refine record_of ?_ ?_ (all_any (by norm_num)) <;>
      simp only [all4, any4, XMVectorEqualInt, SSE.cmpeq_epi32, SSE.movemask, V4.map2, Lane.sgn_mask, SSE.mm_eq_15, SSE.mm_eq_0, Lane.ieq_mask_ones, Lane.ieq_mask_zero, Lane.c0,
        Bool.and_eq_true, Bool.not_eq_true', ieq_iff', ieq_false, and_assoc, not_or]
  · unfold XMVectorEqualIntR; cases c.sse <;> rfl

theorem gt_false (a b : F32 P) : Lane.gt a b = false ↔ ¬ FLt b.bits a.bits := by rw [Bool.eq_false_iff, ne_eq, gt_iff']
theorem ge_false (a b : F32 P) : Lane.ge a b = false ↔ ¬ FLe b.bits a.bits := by rw [Bool.eq_false_iff, ne_eq, ge_iff']

/-- C10: the records of the XMVector2 equality functions; every build, NaN allowed. -/
theorem C10_equal2 (c : Cfg) (A B : V4 (F32 P)) :
    Record (XMVector2EqualR c A B) (AllLanes 2 FEq A B) (AnyLane 2 FEq A B) ∧
    Record (XMVector2EqualIntR c A B) (AllLanes 2 (· = ·) A B) (AnyLane 2 (· = ·) A B) := by
  constructor
  · unfold XMVector2EqualR
    by_cases hs : c.sse = true <;> [rw [if_pos hs]; rw [if_neg hs]] <;> refine record_of ?_ ?_ (all_any (by norm_num)) <;>
      simp only [all2, any2, SSE.movemask, SSE.cmpeq, SSE.cmpgt, SSE.cmpge, SSE.cmpeq_epi32, V4.map2, Lane.sgn_mask, SSE.mm_and3_eq_3, SSE.mm_and3_eq_0, Bool.and_eq_true, Bool.not_eq_true', gt_iff', gt_false, ge_iff', ge_false, lt_iff', le_iff', eq_iff', eq_false', ieq_iff', ieq_false, fne_iff, and_assoc, not_or]
  · unfold XMVector2EqualIntR
    by_cases hs : c.sse = true <;> [rw [if_pos hs]; rw [if_neg hs]] <;> refine record_of ?_ ?_ (all_any (by norm_num)) <;>
      simp only [all2, any2, SSE.movemask, SSE.cmpeq, SSE.cmpgt, SSE.cmpge, SSE.cmpeq_epi32, V4.map2, Lane.sgn_mask, SSE.mm_and3_eq_3, SSE.mm_and3_eq_0, Bool.and_eq_true, Bool.not_eq_true', gt_iff', gt_false, ge_iff', ge_false, lt_iff', le_iff', eq_iff', eq_false', ieq_iff', ieq_false, fne_iff, and_assoc, not_or]

/-- C10, partial: the records of the XMVector2 ordering functions, in every SSE build for all inputs, in the no-intrinsics build
when the lanes are not NaN (`C10_greater2_fails` shows that NaN breaks it). -/
theorem C10_greater2_partial (c : Cfg) (A B : V4 (F32 P)) (h : c.sse = true ∨ ∀ i : Fin 4, i.val < 2 → ¬ IsNaN (A.lane i).bits ∧ ¬ IsNaN (B.lane i).bits) :
    Record (XMVector2GreaterR c A B) (AllLanes 2 (fun a b => FLt b a) A B) (AnyLane 2 (fun a b => FLt b a) A B) ∧
    Record (XMVector2GreaterOrEqualR c A B) (AllLanes 2 (fun a b => FLe b a) A B) (AnyLane 2 (fun a b => FLe b a) A B) := by
  have key : ∀ a b : BitVec 32, ¬ IsNaN a ∧ ¬ IsNaN b → ((FLe a b ↔ ¬ FLt b a) ∧ (FLt a b ↔ ¬ FLe b a)) := by
    rintro a b ⟨ha, hb⟩; unfold FLe FLt
    have h1 : evalue a ≤ evalue b ↔ ¬ evalue b < evalue a := not_lt.symm
    have h2 : evalue a < evalue b ↔ ¬ evalue b ≤ evalue a := not_le.symm
    tauto
  constructor
  · unfold XMVector2GreaterR
    by_cases hs : c.sse = true
    · rw [if_pos hs]; refine record_of ?_ ?_ (all_any (by norm_num)) <;>
        simp only [all2, any2, SSE.movemask, SSE.cmpeq, SSE.cmpgt, SSE.cmpge, SSE.cmpeq_epi32, V4.map2, Lane.sgn_mask, SSE.mm_and3_eq_3, SSE.mm_and3_eq_0, Bool.and_eq_true, Bool.not_eq_true', gt_iff', gt_false, ge_iff', ge_false, lt_iff', le_iff', eq_iff', eq_false', ieq_iff', ieq_false, fne_iff, and_assoc, not_or]
    · rw [if_neg hs]
      have hn := h.resolve_left hs
      have k0 := (key _ _ (hn 0 (by decide))).1
      have k1 := (key _ _ (hn 1 (by decide))).1
      simp only [V4.lane_0, V4.lane_1, V4.lane_2, V4.lane_3] at *
      refine record_of ?_ ?_ (all_any (by norm_num))
      · simp only [all2, any2, SSE.movemask, SSE.cmpeq, SSE.cmpgt, SSE.cmpge, SSE.cmpeq_epi32, V4.map2, Lane.sgn_mask, SSE.mm_and3_eq_3, SSE.mm_and3_eq_0, Bool.and_eq_true, Bool.not_eq_true', gt_iff', gt_false, ge_iff', ge_false, lt_iff', le_iff', eq_iff', eq_false', ieq_iff', ieq_false, fne_iff, and_assoc, not_or]
      · simp only [all2, any2, SSE.movemask, SSE.cmpeq, SSE.cmpgt, SSE.cmpge, SSE.cmpeq_epi32, V4.map2, Lane.sgn_mask, SSE.mm_and3_eq_3, SSE.mm_and3_eq_0, Bool.and_eq_true, Bool.not_eq_true', gt_iff', gt_false, ge_iff', ge_false, lt_iff', le_iff', eq_iff', eq_false', ieq_iff', ieq_false, fne_iff, and_assoc, not_or, k0, k1]
  · unfold XMVector2GreaterOrEqualR
    by_cases hs : c.sse = true
    · rw [if_pos hs]; refine record_of ?_ ?_ (all_any (by norm_num)) <;>
        simp only [all2, any2, SSE.movemask, SSE.cmpeq, SSE.cmpgt, SSE.cmpge, SSE.cmpeq_epi32, V4.map2, Lane.sgn_mask, SSE.mm_and3_eq_3, SSE.mm_and3_eq_0, Bool.and_eq_true, Bool.not_eq_true', gt_iff', gt_false, ge_iff', ge_false, lt_iff', le_iff', eq_iff', eq_false', ieq_iff', ieq_false, fne_iff, and_assoc, not_or]
    · rw [if_neg hs]
      have hn := h.resolve_left hs
      have k0 := (key _ _ (hn 0 (by decide))).2
      have k1 := (key _ _ (hn 1 (by decide))).2
      simp only [V4.lane_0, V4.lane_1, V4.lane_2, V4.lane_3] at *
      refine record_of ?_ ?_ (all_any (by norm_num))
      · simp only [all2, any2, SSE.movemask, SSE.cmpeq, SSE.cmpgt, SSE.cmpge, SSE.cmpeq_epi32, V4.map2, Lane.sgn_mask, SSE.mm_and3_eq_3, SSE.mm_and3_eq_0, Bool.and_eq_true, Bool.not_eq_true', gt_iff', gt_false, ge_iff', ge_false, lt_iff', le_iff', eq_iff', eq_false', ieq_iff', ieq_false, fne_iff, and_assoc, not_or]
      · simp only [all2, any2, SSE.movemask, SSE.cmpeq, SSE.cmpgt, SSE.cmpge, SSE.cmpeq_epi32, V4.map2, Lane.sgn_mask, SSE.mm_and3_eq_3, SSE.mm_and3_eq_0, Bool.and_eq_true, Bool.not_eq_true', gt_iff', gt_false, ge_iff', ge_false, lt_iff', le_iff', eq_iff', eq_false', ieq_iff', ieq_false, fne_iff, and_assoc, not_or, k0, k1]

/-- C10: in the no-intrinsics build a NaN comparison is reported as mixed although no lane compares greater. -/
theorem C10_greater2_fails : ∃ A B : V4 (F32 P),
    ¬ Record (XMVector2GreaterR Cfg.noIntrinsics A B) (AllLanes 2 (fun a b => FLt b a) A B) (AnyLane 2 (fun a b => FLt b a) A B) ∧
    ¬ Record (XMVector2GreaterOrEqualR Cfg.noIntrinsics A B) (AllLanes 2 (fun a b => FLe b a) A B) (AnyLane 2 (fun a b => FLe b a) A B) := by
  have hn : IsNaN 0x7FC00000#32 := by decide
  refine ⟨.splat (F32.ofBV 0x7FC00000#32), .splat (F32.ofBV 0#32), fun h => ?_, fun h => ?_⟩
  · have := h.anyTrue.1 (by
      unfold XMVector2GreaterR
      rw [if_neg (by decide), if_neg, if_neg]
      · decide
      · simp only [Bool.and_eq_true, le_iff', and_assoc]; exact fun g => g.1.1 hn
      · simp only [Bool.and_eq_true, gt_iff', and_assoc]; exact fun g => g.1.2.1 hn)
    obtain ⟨i, _, hi⟩ := this
    rw [V4.lane_splat, V4.lane_splat] at hi
    exact hi.2.1 hn
  · have := h.anyTrue.1 (by
      unfold XMVector2GreaterOrEqualR
      rw [if_neg (by decide), if_neg, if_neg]
      · decide
      · simp only [Bool.and_eq_true, lt_iff', and_assoc]; exact fun g => g.1.1 hn
      · simp only [Bool.and_eq_true, ge_iff', and_assoc]; exact fun g => g.1.2.1 hn)
    obtain ⟨i, _, hi⟩ := this
    rw [V4.lane_splat, V4.lane_splat] at hi
    exact hi.2.1 hn

/-- C10: the records of the XMVector3 equality functions; every build, NaN allowed. -/
theorem C10_equal3 (c : Cfg) (A B : V4 (F32 P)) :
    Record (XMVector3EqualR c A B) (AllLanes 3 FEq A B) (AnyLane 3 FEq A B) ∧
    Record (XMVector3EqualIntR c A B) (AllLanes 3 (· = ·) A B) (AnyLane 3 (· = ·) A B) := by
  constructor
  · unfold XMVector3EqualR
    by_cases hs : c.sse = true <;> [rw [if_pos hs]; rw [if_neg hs]] <;> refine record_of ?_ ?_ (all_any (by norm_num)) <;>
      simp only [all3, any3, SSE.movemask, SSE.cmpeq, SSE.cmpgt, SSE.cmpge, SSE.cmpeq_epi32, V4.map2, Lane.sgn_mask, SSE.mm_and7_eq_7, SSE.mm_and7_eq_0, Bool.and_eq_true, Bool.not_eq_true', gt_iff', gt_false, ge_iff', ge_false, lt_iff', le_iff', eq_iff', eq_false', ieq_iff', ieq_false, fne_iff, and_assoc, not_or]
  · unfold XMVector3EqualIntR
    by_cases hs : c.sse = true <;> [rw [if_pos hs]; rw [if_neg hs]] <;> refine record_of ?_ ?_ (all_any (by norm_num)) <;>
      simp only [all3, any3, SSE.movemask, SSE.cmpeq, SSE.cmpgt, SSE.cmpge, SSE.cmpeq_epi32, V4.map2, Lane.sgn_mask, SSE.mm_and7_eq_7, SSE.mm_and7_eq_0, Bool.and_eq_true, Bool.not_eq_true', gt_iff', gt_false, ge_iff', ge_false, lt_iff', le_iff', eq_iff', eq_false', ieq_iff', ieq_false, fne_iff, and_assoc, not_or]

/-- C10, partial: the records of the XMVector3 ordering functions, in every SSE build for all inputs, in the no-intrinsics build
when the lanes are not NaN (`C10_greater3_fails` shows that NaN breaks it). -/
theorem C10_greater3_partial (c : Cfg) (A B : V4 (F32 P)) (h : c.sse = true ∨ ∀ i : Fin 4, i.val < 3 → ¬ IsNaN (A.lane i).bits ∧ ¬ IsNaN (B.lane i).bits) :
    Record (XMVector3GreaterR c A B) (AllLanes 3 (fun a b => FLt b a) A B) (AnyLane 3 (fun a b => FLt b a) A B) ∧
    Record (XMVector3GreaterOrEqualR c A B) (AllLanes 3 (fun a b => FLe b a) A B) (AnyLane 3 (fun a b => FLe b a) A B) := by
  have key : ∀ a b : BitVec 32, ¬ IsNaN a ∧ ¬ IsNaN b → ((FLe a b ↔ ¬ FLt b a) ∧ (FLt a b ↔ ¬ FLe b a)) := by
    rintro a b ⟨ha, hb⟩; unfold FLe FLt
    have h1 : evalue a ≤ evalue b ↔ ¬ evalue b < evalue a := not_lt.symm
    have h2 : evalue a < evalue b ↔ ¬ evalue b ≤ evalue a := not_le.symm
    tauto
  constructor
  · unfold XMVector3GreaterR
    by_cases hs : c.sse = true
    · rw [if_pos hs]; refine record_of ?_ ?_ (all_any (by norm_num)) <;>
        simp only [all3, any3, SSE.movemask, SSE.cmpeq, SSE.cmpgt, SSE.cmpge, SSE.cmpeq_epi32, V4.map2, Lane.sgn_mask, SSE.mm_and7_eq_7, SSE.mm_and7_eq_0, Bool.and_eq_true, Bool.not_eq_true', gt_iff', gt_false, ge_iff', ge_false, lt_iff', le_iff', eq_iff', eq_false', ieq_iff', ieq_false, fne_iff, and_assoc, not_or]
    · rw [if_neg hs]
      have hn := h.resolve_left hs
      have k0 := (key _ _ (hn 0 (by decide))).1
      have k1 := (key _ _ (hn 1 (by decide))).1
      have k2 := (key _ _ (hn 2 (by decide))).1
      simp only [V4.lane_0, V4.lane_1, V4.lane_2, V4.lane_3] at *
      refine record_of ?_ ?_ (all_any (by norm_num))
      · simp only [all3, any3, SSE.movemask, SSE.cmpeq, SSE.cmpgt, SSE.cmpge, SSE.cmpeq_epi32, V4.map2, Lane.sgn_mask, SSE.mm_and7_eq_7, SSE.mm_and7_eq_0, Bool.and_eq_true, Bool.not_eq_true', gt_iff', gt_false, ge_iff', ge_false, lt_iff', le_iff', eq_iff', eq_false', ieq_iff', ieq_false, fne_iff, and_assoc, not_or]
      · simp only [all3, any3, SSE.movemask, SSE.cmpeq, SSE.cmpgt, SSE.cmpge, SSE.cmpeq_epi32, V4.map2, Lane.sgn_mask, SSE.mm_and7_eq_7, SSE.mm_and7_eq_0, Bool.and_eq_true, Bool.not_eq_true', gt_iff', gt_false, ge_iff', ge_false, lt_iff', le_iff', eq_iff', eq_false', ieq_iff', ieq_false, fne_iff, and_assoc, not_or, k0, k1, k2]
  · unfold XMVector3GreaterOrEqualR
    by_cases hs : c.sse = true
    · rw [if_pos hs]; refine record_of ?_ ?_ (all_any (by norm_num)) <;>
        simp only [all3, any3, SSE.movemask, SSE.cmpeq, SSE.cmpgt, SSE.cmpge, SSE.cmpeq_epi32, V4.map2, Lane.sgn_mask, SSE.mm_and7_eq_7, SSE.mm_and7_eq_0, Bool.and_eq_true, Bool.not_eq_true', gt_iff', gt_false, ge_iff', ge_false, lt_iff', le_iff', eq_iff', eq_false', ieq_iff', ieq_false, fne_iff, and_assoc, not_or]
    · rw [if_neg hs]
      have hn := h.resolve_left hs
      have k0 := (key _ _ (hn 0 (by decide))).2
      have k1 := (key _ _ (hn 1 (by decide))).2
      have k2 := (key _ _ (hn 2 (by decide))).2
      simp only [V4.lane_0, V4.lane_1, V4.lane_2, V4.lane_3] at *
      refine record_of ?_ ?_ (all_any (by norm_num))
      · simp only [all3, any3, SSE.movemask, SSE.cmpeq, SSE.cmpgt, SSE.cmpge, SSE.cmpeq_epi32, V4.map2, Lane.sgn_mask, SSE.mm_and7_eq_7, SSE.mm_and7_eq_0, Bool.and_eq_true, Bool.not_eq_true', gt_iff', gt_false, ge_iff', ge_false, lt_iff', le_iff', eq_iff', eq_false', ieq_iff', ieq_false, fne_iff, and_assoc, not_or]
      · simp only [all3, any3, SSE.movemask, SSE.cmpeq, SSE.cmpgt, SSE.cmpge, SSE.cmpeq_epi32, V4.map2, Lane.sgn_mask, SSE.mm_and7_eq_7, SSE.mm_and7_eq_0, Bool.and_eq_true, Bool.not_eq_true', gt_iff', gt_false, ge_iff', ge_false, lt_iff', le_iff', eq_iff', eq_false', ieq_iff', ieq_false, fne_iff, and_assoc, not_or, k0, k1, k2]

/-- C10: in the no-intrinsics build a NaN comparison is reported as mixed although no lane compares greater. -/
theorem C10_greater3_fails : ∃ A B : V4 (F32 P),
    ¬ Record (XMVector3GreaterR Cfg.noIntrinsics A B) (AllLanes 3 (fun a b => FLt b a) A B) (AnyLane 3 (fun a b => FLt b a) A B) ∧
    ¬ Record (XMVector3GreaterOrEqualR Cfg.noIntrinsics A B) (AllLanes 3 (fun a b => FLe b a) A B) (AnyLane 3 (fun a b => FLe b a) A B) := by
  have hn : IsNaN 0x7FC00000#32 := by decide
  refine ⟨.splat (F32.ofBV 0x7FC00000#32), .splat (F32.ofBV 0#32), fun h => ?_, fun h => ?_⟩
  · have := h.anyTrue.1 (by
      unfold XMVector3GreaterR
      rw [if_neg (by decide), if_neg, if_neg]
      · decide
      · simp only [Bool.and_eq_true, le_iff', and_assoc]; exact fun g => g.1.1 hn
      · simp only [Bool.and_eq_true, gt_iff', and_assoc]; exact fun g => g.1.2.1 hn)
    obtain ⟨i, _, hi⟩ := this
    rw [V4.lane_splat, V4.lane_splat] at hi
    exact hi.2.1 hn
  · have := h.anyTrue.1 (by
      unfold XMVector3GreaterOrEqualR
      rw [if_neg (by decide), if_neg, if_neg]
      · decide
      · simp only [Bool.and_eq_true, lt_iff', and_assoc]; exact fun g => g.1.1 hn
      · simp only [Bool.and_eq_true, ge_iff', and_assoc]; exact fun g => g.1.2.1 hn)
    obtain ⟨i, _, hi⟩ := this
    rw [V4.lane_splat, V4.lane_splat] at hi
    exact hi.2.1 hn

/-- C10: the records of the XMVector4 equality functions; every build, NaN allowed. -/
theorem C10_equal4 (c : Cfg) (A B : V4 (F32 P)) :
    Record (XMVector4EqualR c A B) (AllLanes 4 FEq A B) (AnyLane 4 FEq A B) ∧
    Record (XMVector4EqualIntR c A B) (AllLanes 4 (· = ·) A B) (AnyLane 4 (· = ·) A B) := by
  constructor
  · unfold XMVector4EqualR
    by_cases hs : c.sse = true <;> [rw [if_pos hs]; rw [if_neg hs]] <;> refine record_of ?_ ?_ (all_any (by norm_num)) <;>
      simp only [all4, any4, SSE.movemask, SSE.cmpeq, SSE.cmpgt, SSE.cmpge, SSE.cmpeq_epi32, V4.map2, Lane.sgn_mask, SSE.mm_eq_15, SSE.mm_eq_0, Bool.and_eq_true, Bool.not_eq_true', gt_iff', gt_false, ge_iff', ge_false, lt_iff', le_iff', eq_iff', eq_false', ieq_iff', ieq_false, fne_iff, and_assoc, not_or]
  · unfold XMVector4EqualIntR
    by_cases hs : c.sse = true <;> [rw [if_pos hs]; rw [if_neg hs]] <;> refine record_of ?_ ?_ (all_any (by norm_num)) <;>
      simp only [all4, any4, SSE.movemask, SSE.cmpeq, SSE.cmpgt, SSE.cmpge, SSE.cmpeq_epi32, V4.map2, Lane.sgn_mask, SSE.mm_eq_15, SSE.mm_eq_0, Bool.and_eq_true, Bool.not_eq_true', gt_iff', gt_false, ge_iff', ge_false, lt_iff', le_iff', eq_iff', eq_false', ieq_iff', ieq_false, fne_iff, and_assoc, not_or]

/-- C10, partial: the records of the XMVector4 ordering functions, in every SSE build for all inputs, in the no-intrinsics build
when the lanes are not NaN (`C10_greater4_fails` shows that NaN breaks it). -/
theorem C10_greater4_partial (c : Cfg) (A B : V4 (F32 P)) (h : c.sse = true ∨ ∀ i : Fin 4, i.val < 4 → ¬ IsNaN (A.lane i).bits ∧ ¬ IsNaN (B.lane i).bits) :
    Record (XMVector4GreaterR c A B) (AllLanes 4 (fun a b => FLt b a) A B) (AnyLane 4 (fun a b => FLt b a) A B) ∧
    Record (XMVector4GreaterOrEqualR c A B) (AllLanes 4 (fun a b => FLe b a) A B) (AnyLane 4 (fun a b => FLe b a) A B) := by
  have key : ∀ a b : BitVec 32, ¬ IsNaN a ∧ ¬ IsNaN b → ((FLe a b ↔ ¬ FLt b a) ∧ (FLt a b ↔ ¬ FLe b a)) := by
    rintro a b ⟨ha, hb⟩; unfold FLe FLt
    have h1 : evalue a ≤ evalue b ↔ ¬ evalue b < evalue a := not_lt.symm
    have h2 : evalue a < evalue b ↔ ¬ evalue b ≤ evalue a := not_le.symm
    tauto
  constructor
  · unfold XMVector4GreaterR
    by_cases hs : c.sse = true
    · rw [if_pos hs]; refine record_of ?_ ?_ (all_any (by norm_num)) <;>
        simp only [all4, any4, SSE.movemask, SSE.cmpeq, SSE.cmpgt, SSE.cmpge, SSE.cmpeq_epi32, V4.map2, Lane.sgn_mask, SSE.mm_eq_15, SSE.mm_eq_0, Bool.and_eq_true, Bool.not_eq_true', gt_iff', gt_false, ge_iff', ge_false, lt_iff', le_iff', eq_iff', eq_false', ieq_iff', ieq_false, fne_iff, and_assoc, not_or]
    · rw [if_neg hs]
      have hn := h.resolve_left hs
      have k0 := (key _ _ (hn 0 (by decide))).1
      have k1 := (key _ _ (hn 1 (by decide))).1
      have k2 := (key _ _ (hn 2 (by decide))).1
      have k3 := (key _ _ (hn 3 (by decide))).1
      simp only [V4.lane_0, V4.lane_1, V4.lane_2, V4.lane_3] at *
      refine record_of ?_ ?_ (all_any (by norm_num))
      · simp only [all4, any4, SSE.movemask, SSE.cmpeq, SSE.cmpgt, SSE.cmpge, SSE.cmpeq_epi32, V4.map2, Lane.sgn_mask, SSE.mm_eq_15, SSE.mm_eq_0, Bool.and_eq_true, Bool.not_eq_true', gt_iff', gt_false, ge_iff', ge_false, lt_iff', le_iff', eq_iff', eq_false', ieq_iff', ieq_false, fne_iff, and_assoc, not_or]
      · simp only [all4, any4, SSE.movemask, SSE.cmpeq, SSE.cmpgt, SSE.cmpge, SSE.cmpeq_epi32, V4.map2, Lane.sgn_mask, SSE.mm_eq_15, SSE.mm_eq_0, Bool.and_eq_true, Bool.not_eq_true', gt_iff', gt_false, ge_iff', ge_false, lt_iff', le_iff', eq_iff', eq_false', ieq_iff', ieq_false, fne_iff, and_assoc, not_or, k0, k1, k2, k3]
  · unfold XMVector4GreaterOrEqualR
    by_cases hs : c.sse = true
    · rw [if_pos hs]; refine record_of ?_ ?_ (all_any (by norm_num)) <;>
        simp only [all4, any4, SSE.movemask, SSE.cmpeq, SSE.cmpgt, SSE.cmpge, SSE.cmpeq_epi32, V4.map2, Lane.sgn_mask, SSE.mm_eq_15, SSE.mm_eq_0, Bool.and_eq_true, Bool.not_eq_true', gt_iff', gt_false, ge_iff', ge_false, lt_iff', le_iff', eq_iff', eq_false', ieq_iff', ieq_false, fne_iff, and_assoc, not_or]
    · rw [if_neg hs]
      have hn := h.resolve_left hs
      have k0 := (key _ _ (hn 0 (by decide))).2
      have k1 := (key _ _ (hn 1 (by decide))).2
      have k2 := (key _ _ (hn 2 (by decide))).2
      have k3 := (key _ _ (hn 3 (by decide))).2
      simp only [V4.lane_0, V4.lane_1, V4.lane_2, V4.lane_3] at *
      refine record_of ?_ ?_ (all_any (by norm_num))
      · simp only [all4, any4, SSE.movemask, SSE.cmpeq, SSE.cmpgt, SSE.cmpge, SSE.cmpeq_epi32, V4.map2, Lane.sgn_mask, SSE.mm_eq_15, SSE.mm_eq_0, Bool.and_eq_true, Bool.not_eq_true', gt_iff', gt_false, ge_iff', ge_false, lt_iff', le_iff', eq_iff', eq_false', ieq_iff', ieq_false, fne_iff, and_assoc, not_or]
      · simp only [all4, any4, SSE.movemask, SSE.cmpeq, SSE.cmpgt, SSE.cmpge, SSE.cmpeq_epi32, V4.map2, Lane.sgn_mask, SSE.mm_eq_15, SSE.mm_eq_0, Bool.and_eq_true, Bool.not_eq_true', gt_iff', gt_false, ge_iff', ge_false, lt_iff', le_iff', eq_iff', eq_false', ieq_iff', ieq_false, fne_iff, and_assoc, not_or, k0, k1, k2, k3]

/-- C10: in the no-intrinsics build a NaN comparison is reported as mixed although no lane compares greater. -/
theorem C10_greater4_fails : ∃ A B : V4 (F32 P),
    ¬ Record (XMVector4GreaterR Cfg.noIntrinsics A B) (AllLanes 4 (fun a b => FLt b a) A B) (AnyLane 4 (fun a b => FLt b a) A B) ∧
    ¬ Record (XMVector4GreaterOrEqualR Cfg.noIntrinsics A B) (AllLanes 4 (fun a b => FLe b a) A B) (AnyLane 4 (fun a b => FLe b a) A B) := by
  have hn : IsNaN 0x7FC00000#32 := by decide
  refine ⟨.splat (F32.ofBV 0x7FC00000#32), .splat (F32.ofBV 0#32), fun h => ?_, fun h => ?_⟩
  · have := h.anyTrue.1 (by
      unfold XMVector4GreaterR
      rw [if_neg (by decide), if_neg, if_neg]
      · decide
      · simp only [Bool.and_eq_true, le_iff', and_assoc]; exact fun g => g.1.1 hn
      · simp only [Bool.and_eq_true, gt_iff', and_assoc]; exact fun g => g.1.2.1 hn)
    obtain ⟨i, _, hi⟩ := this
    rw [V4.lane_splat, V4.lane_splat] at hi
    exact hi.2.1 hn
  · have := h.anyTrue.1 (by
      unfold XMVector4GreaterOrEqualR
      rw [if_neg (by decide), if_neg, if_neg]
      · decide
      · simp only [Bool.and_eq_true, lt_iff', and_assoc]; exact fun g => g.1.1 hn
      · simp only [Bool.and_eq_true, ge_iff', and_assoc]; exact fun g => g.1.2.1 hn)
    obtain ⟨i, _, hi⟩ := this
    rw [V4.lane_splat, V4.lane_splat] at hi
    exact hi.2.1 hn


end DXM.Props
