import Verif.Lemmas.F32Val
import Verif.Props.Compare

/-
C11, C12, C13, C19, C68, the in-bounds record of C10 and the identity test of C43, on all bit patterns (interpretation I).
-/

set_option linter.all false

namespace DXM.Props
open DXM.Spec
variable {P : Env}

/-- `-e <= d <= e`, false if either is NaN. -/
def Within (d e : BitVec 32) : Prop := ¬ IsNaN d ∧ ¬ IsNaN e ∧ - evalue e ≤ evalue d ∧ evalue d ≤ evalue e

theorem within_neg {d d' e : BitVec 32} (h1 : IsNaN d' ↔ IsNaN d) (h2 : ¬ IsNaN d → evalue d' = - evalue d) : Within d' e ↔ Within d e := by
  unfold Within; rw [h1]
  by_cases h : IsNaN d
  · simp [h]
  · rw [h2 h, EReal.neg_le_neg_iff, EReal.neg_le]; tauto

theorem within_abs (d e : F32 P) : Lane.le (Lane.abs d) e = true ↔ Within d.bits e.bits := by
  rw [le_iff', F32.abs_eq, F32.bits_ofBV]; unfold FLe Within
  rw [IEEE.isNaN_am (IEEE.am_abs _)]
  by_cases h : IsNaN d.bits
  · simp [h]
  have h0 := IEEE.abs_nonneg' h
  rcases IEEE.evalue_abs d.bits with g | g <;> rw [g] at h0 ⊢
  · refine ⟨fun ⟨a, b, c⟩ => ⟨a, b, ?_, c⟩, fun ⟨a, b, _, c⟩ => ⟨a, b, c⟩⟩
    have : - evalue e.bits ≤ 0 := by rw [EReal.neg_le, neg_zero]; exact h0.trans c
    exact this.trans h0
  · refine ⟨fun ⟨a, b, c⟩ => ⟨a, b, EReal.neg_le.1 c, ?_⟩, fun ⟨a, b, c, _⟩ => ⟨a, b, EReal.neg_le.1 c⟩⟩
    have h1 : evalue d.bits ≤ 0 := by rw [← EReal.neg_le_neg_iff, neg_zero]; exact h0
    exact h1.trans (h0.trans c)

theorem within_max (d e : F32 P) : Lane.le (Lane.maxps (Lane.sub Lane.c0 d) d) e = true ↔ Within d.bits e.bits := by
  rw [le_iff']; unfold Lane.maxps
  by_cases h : IsNaN d.bits
  · rw [if_neg (by rw [lt_iff']; unfold FLt; simp [h])]
    unfold FLe Within; simp [h]
  have hs := IEEE.zero_sub_spec P h
  have e0 : (Lane.sub (Lane.c0 : F32 P) d).bits = IEEE.sub P 0#32 d.bits := rfl
  by_cases hl : Lane.lt d (Lane.sub Lane.c0 d) = true
  · rw [if_pos hl]
    rw [lt_iff'] at hl
    unfold FLt at hl; unfold FLe Within; rw [e0, hs.2] at *
    refine ⟨fun ⟨a, b, c⟩ => ⟨h, b, EReal.neg_le.1 c, hl.2.2.le.trans c⟩, fun ⟨a, b, c, _⟩ => ⟨hs.1, b, EReal.neg_le.1 c⟩⟩
  · rw [if_neg hl]
    rw [lt_iff'] at hl
    unfold FLt at hl; unfold FLe Within; rw [e0, hs.2] at *
    have hl' : - evalue d.bits ≤ evalue d.bits := by
      by_contra g; exact hl ⟨h, hs.1, not_le.1 g⟩
    refine ⟨fun ⟨a, b, c⟩ => ⟨h, b, EReal.neg_le.1 (hl'.trans c), c⟩, fun ⟨a, b, c, g⟩ => ⟨a, b, g⟩⟩

theorem within_bounds (v b : F32 P) : (Lane.le v b && Lane.ge v (Lane.neg b)) = true ↔ Within v.bits b.bits := by
  rw [Bool.and_eq_true, le_iff', ge_iff', F32.neg_eq, F32.bits_ofBV]
  unfold FLe Within; rw [IEEE.isNaN_am (IEEE.am_neg _), IEEE.evalue_neg]; tauto
theorem within_bounds' (v b : F32 P) :
    (Lane.le v b && Lane.le (Lane.mul b (Lane.ofBits 0xBF800000#32)) v) = true ↔ Within v.bits b.bits := by
  rw [Bool.and_eq_true, le_iff', le_iff']
  have e0 : (Lane.mul b (Lane.ofBits 0xBF800000#32)).bits = IEEE.mul P b.bits 0xBF800000#32 := rfl
  unfold FLe Within; rw [e0]
  by_cases h : IsNaN b.bits
  · simp [h]
  · rw [(IEEE.mul_neg_one_spec P h).2]; have := (IEEE.mul_neg_one_spec P h).1; tauto

/-- The relation `R` holds on the first `n` lanes of three vectors. -/
def AllLanes3 (n : ℕ) (R : BitVec 32 → BitVec 32 → BitVec 32 → Prop) (A B D : V4 (F32 P)) : Prop :=
  ∀ i : Fin 4, i.val < n → R (A.lane i).bits (B.lane i).bits (D.lane i).bits
theorem all3_2 {R : BitVec 32 → BitVec 32 → BitVec 32 → Prop} {A B D : V4 (F32 P)} : AllLanes3 2 R A B D ↔
    R A.x.bits B.x.bits D.x.bits ∧ R A.y.bits B.y.bits D.y.bits := by
  unfold AllLanes3; simp [Fin.forall_fin_succ]
theorem all3_3 {R : BitVec 32 → BitVec 32 → BitVec 32 → Prop} {A B D : V4 (F32 P)} : AllLanes3 3 R A B D ↔
    R A.x.bits B.x.bits D.x.bits ∧ R A.y.bits B.y.bits D.y.bits ∧ R A.z.bits B.z.bits D.z.bits := by
  unfold AllLanes3; simp [Fin.forall_fin_succ]
theorem all3_4 {R : BitVec 32 → BitVec 32 → BitVec 32 → Prop} {A B D : V4 (F32 P)} : AllLanes3 4 R A B D ↔
    R A.x.bits B.x.bits D.x.bits ∧ R A.y.bits B.y.bits D.y.bits ∧ R A.z.bits B.z.bits D.z.bits ∧ R A.w.bits B.w.bits D.w.bits := by
  unfold AllLanes3; simp [Fin.forall_fin_succ]

/-- The IEEE difference of `a` and `b` lies within `e`. -/
def Near (P : Env) (a b e : BitVec 32) : Prop := Within (IEEE.sub P a b) e

/-- C11: XMVectorNearEqual sets the mask exactly on lanes whose IEEE difference `XMVectorSubtract(V1,V2)` lies in [-eps, eps];
XMVectorInBounds exactly on lanes in [-B, B]; every build, all bit patterns. -/
theorem C11_masks (c : Cfg) (V1 V2 E : V4 (F32 P)) (i : Fin 4) :
    ((XMVectorNearEqual c V1 V2 E).lane i).bits = maskOf (Within ((XMVectorSubtract V1 V2).lane i).bits (E.lane i).bits) ∧
    ((XMVectorInBounds c V1 E).lane i).bits = maskOf (Within (V1.lane i).bits (E.lane i).bits) := by
  constructor
  · unfold XMVectorNearEqual
    by_cases hs : c.sse = true <;> [rw [if_pos hs]; rw [if_neg hs]]
    · rw [← mask_of (P := P) (within_max _ _)]; fin_cases i <;> rfl
    · rw [← mask_of (P := P) (within_abs _ _)]; fin_cases i <;> rfl
  · unfold XMVectorInBounds
    by_cases hs : c.sse = true <;> [rw [if_pos hs]; rw [if_neg hs]]
    · rw [← mask_of (P := P) (within_bounds' _ _)]
      have : ∀ a b : Bool, (Lane.mask (a && b) : F32 P) = Lane.band (Lane.mask a) (Lane.mask b) := by
        intro a b; rw [Lane.band_mask_mask]
      rw [this]; fin_cases i <;> rfl
    · rw [← mask_of (P := P) (within_bounds _ _)]; fin_cases i <;> rfl

/-- C11: a NaN lane (in a vector, the tolerance or the bound) is never near-equal nor in bounds, whatever the build. -/
theorem C11_nan (c : Cfg) (V1 V2 E : V4 (F32 P)) (i : Fin 4) :
    (IsNaN (V1.lane i).bits ∨ IsNaN (V2.lane i).bits ∨ IsNaN (E.lane i).bits → ((XMVectorNearEqual c V1 V2 E).lane i).bits = 0#32) ∧
    (IsNaN (V1.lane i).bits ∨ IsNaN (E.lane i).bits → ((XMVectorInBounds c V1 E).lane i).bits = 0#32) := by
  rw [(C11_masks c V1 V2 E i).1, (C11_masks c V1 V2 E i).2]
  constructor
  · intro h
    unfold maskOf; rw [if_neg]
    rintro ⟨h1, h2, _⟩
    rcases h with h | h | h
    · refine h1 ?_; have := IEEE.sub_nan P (a := (V1.lane i).bits) (b := (V2.lane i).bits) (Or.inl h); revert this; fin_cases i <;> exact id
    · refine h1 ?_; have := IEEE.sub_nan P (a := (V1.lane i).bits) (b := (V2.lane i).bits) (Or.inr h); revert this; fin_cases i <;> exact id
    · exact h2 h
  · intro h
    unfold maskOf; rw [if_neg]
    rintro ⟨h1, h2, _⟩
    rcases h with h | h
    · exact h1 h
    · exact h2 h

theorem mm_band (a b : Bool) : Lane.sgn (Lane.band (Lane.mask a : F32 P) (Lane.mask b)) = (a && b) := by
  rw [Lane.band_mask_mask, Lane.sgn_mask]

/-- C11: the XMVector2/3/4 forms are the conjunctions over the leading lanes. -/
theorem C11_predicates (c : Cfg) (A B E : V4 (F32 P)) :
    (XMVector2NearEqual c A B E = true ↔ AllLanes3 2 (Near P) A B E) ∧
    (XMVector3NearEqual c A B E = true ↔ AllLanes3 3 (Near P) A B E) ∧
    (XMVector4NearEqual c A B E = true ↔ AllLanes3 4 (Near P) A B E) ∧
    (XMVector2InBounds c A E = true ↔ AllLanes 2 Within A E) ∧
    (XMVector3InBounds c A E = true ↔ AllLanes 3 Within A E) ∧
    (XMVector4InBounds c A E = true ↔ AllLanes 4 Within A E) := by
  have k : ∀ a b e : F32 P, Near P a.bits b.bits e.bits ↔ Within (Lane.sub a b).bits e.bits := fun _ _ _ => Iff.rfl
  have e0 : ∀ b : F32 P, Lane.le (Lane.mul b (Lane.ofBits 0xBF800000#32)) = Lane.le (Lane.mul b (Lane.cNeg1 : F32 P)) := fun _ => rfl
  simp only [all2, all3, all4, all3_2, all3_3, all3_4, k]
  refine ⟨?_, ?_, ?_, ?_, ?_, ?_⟩
  · unfold XMVector2NearEqual
    by_cases hs : c.sse = true <;> [rw [if_pos hs]; rw [if_neg hs]] <;>
      simp only [SSE.movemask, SSE.cmple, SSE.max, SSE.sub, SSE.setzero, V4.map2, V4.splat, Lane.sgn_mask, SSE.mm_and3_eq_3, Bool.and_eq_true, within_max, within_abs, and_assoc]
  · unfold XMVector3NearEqual
    by_cases hs : c.sse = true <;> [rw [if_pos hs]; rw [if_neg hs]] <;>
      simp only [SSE.movemask, SSE.cmple, SSE.max, SSE.sub, SSE.setzero, V4.map2, V4.splat, Lane.sgn_mask, SSE.mm_and7_eq_7, Bool.and_eq_true, within_max, within_abs, and_assoc]
  · unfold XMVector4NearEqual
    by_cases hs : c.sse = true <;> [rw [if_pos hs]; rw [if_neg hs]] <;>
      simp only [SSE.movemask, SSE.cmple, SSE.max, SSE.sub, SSE.setzero, V4.map2, V4.splat, Lane.sgn_mask, SSE.mm_eq_15, Bool.and_eq_true, within_max, within_abs, and_assoc]
  · unfold XMVector2InBounds
    by_cases hs : c.sse = true <;> [rw [if_pos hs]; rw [if_neg hs]]
    · simp only [← within_bounds', SSE.movemask, SSE.cmple, SSE.and, SSE.mul, g_XMNegativeOne, V4.map2, V4.splat, mm_band, SSE.mm_and3_eq_3, Bool.and_eq_true, and_assoc]
    · simp only [← within_bounds, Bool.and_eq_true, and_assoc]
  · unfold XMVector3InBounds
    by_cases hs : c.sse = true <;> [rw [if_pos hs]; rw [if_neg hs]]
    · simp only [← within_bounds', SSE.movemask, SSE.cmple, SSE.and, SSE.mul, g_XMNegativeOne, V4.map2, V4.splat, mm_band, SSE.mm_and7_eq_7, Bool.and_eq_true, and_assoc]
    · simp only [← within_bounds, Bool.and_eq_true, and_assoc]
  · unfold XMVector4InBounds
    by_cases hs : c.sse = true <;> [rw [if_pos hs]; rw [if_neg hs]]
    · simp only [← within_bounds', SSE.movemask, SSE.cmple, SSE.and, SSE.mul, g_XMNegativeOne, V4.map2, V4.splat, mm_band, SSE.mm_eq_15, Bool.and_eq_true, and_assoc]
    · simp only [← within_bounds, Bool.and_eq_true, and_assoc]

/-- C11: exchanging the two vectors does not change the answer. -/
theorem C11_symm (c : Cfg) (V1 V2 E : V4 (F32 P)) (i : Fin 4) :
    ((XMVectorNearEqual c V1 V2 E).lane i).bits = ((XMVectorNearEqual c V2 V1 E).lane i).bits := by
  rw [(C11_masks c V1 V2 E i).1, (C11_masks c V2 V1 E i).1]
  have h := IEEE.sub_swap P (V2.lane i).bits (V1.lane i).bits
  have e1 : ((XMVectorSubtract V1 V2).lane i).bits = IEEE.sub P (V1.lane i).bits (V2.lane i).bits := by fin_cases i <;> rfl
  have e2 : ((XMVectorSubtract V2 V1).lane i).bits = IEEE.sub P (V2.lane i).bits (V1.lane i).bits := by fin_cases i <;> rfl
  rw [e1, e2]; congr 1; exact propext (within_neg h.1 h.2)

example : Within 0xBF800000#32 0x3F800000#32 := by
  refine ⟨by decide, by decide, ?_, ?_⟩
  · rw [← IEEE.evalue_neg]; exact le_of_eq (by congr 1)
  · exact (((IEEE.le_iff 0xBF800000#32 0x3F800000#32).1 (by decide)).2.2)

/-- C68: the scalar test is `|a - b| <= eps` on the IEEE difference; symmetric; false with any NaN. -/
theorem C68_near (a b e : F32 P) :
    (XMScalarNearEqual a b e = true ↔ Within (Lane.sub a b).bits e.bits) ∧
    XMScalarNearEqual a b e = XMScalarNearEqual b a e ∧
    (IsNaN a.bits ∨ IsNaN b.bits ∨ IsNaN e.bits → XMScalarNearEqual a b e = false) := by
  have k : ∀ a b : F32 P, XMScalarNearEqual a b e = true ↔ Within (Lane.sub a b).bits e.bits := fun a b => within_abs _ _
  refine ⟨k a b, ?_, ?_⟩
  · rw [Bool.eq_iff_iff, k, k]
    have h := IEEE.sub_swap P b.bits a.bits
    exact within_neg h.1 h.2
  · intro h
    rw [Bool.eq_false_iff, ne_eq, k]
    rintro ⟨h1, h2, _⟩
    rcases h with h | h | h
    · exact h1 (IEEE.sub_nan P (Or.inl h))
    · exact h1 (IEEE.sub_nan P (Or.inr h))
    · exact h2 h

/-- C68: for finite arguments the compared difference is the exact difference, rounded once. -/
theorem C68_difference (a b : F32 P) (ha : IsFinite a.bits) (hb : IsFinite b.bits) :
    Rounds (value a.bits - value b.bits) (Lane.sub a b).bits := IEEE.sub_rounds P ha hb
example : IsFinite 0x3F800000#32 ∧ XMScalarNearEqual (F32.ofBV 0x3F800000#32 : F32 P0) (F32.ofBV 0x3F800001#32) (F32.ofBV 0x34800000#32) = true := by
  exact ⟨by decide, by decide +kernel⟩


/-- C10: the in-bounds record on SSE builds says whether all four lanes are in bounds. -/
theorem C10_inBounds_partial (c : Cfg) (hc : c.sse = true) (V B : V4 (F32 P)) :
    (XMComparisonAllInBounds (XMVectorInBoundsR c V B).1 = true ↔ AllLanes 4 Within V B) ∧
    (XMComparisonAnyOutOfBounds (XMVectorInBoundsR c V B).1 = true ↔ ¬ AllLanes 4 Within V B) ∧
    (XMVectorInBoundsR c V B).2 = XMVectorInBounds c V B := by
  have k : (SSE.movemask (SSE.and (SSE.cmple V B) (SSE.cmple (SSE.mul B g_XMNegativeOne) V)) == 15) = true ↔ AllLanes 4 Within V B := by
    simp only [all4, ← within_bounds', SSE.movemask, SSE.cmple, SSE.and, SSE.mul, g_XMNegativeOne, V4.map2, V4.splat, mm_band, SSE.mm_eq_15, Bool.and_eq_true, and_assoc]
  unfold XMVectorInBoundsR XMVectorInBounds; rw [if_pos hc, if_pos hc, ← k]
  dsimp only
  refine ⟨?_, ?_, rfl⟩ <;> generalize (SSE.movemask (SSE.and (SSE.cmple V B) (SSE.cmple (SSE.mul B g_XMNegativeOne) V)) == 15) = t <;>
    cases t <;> simp [XMComparisonAllInBounds, XMComparisonAnyOutOfBounds, XM_CRMASK_CR6BOUNDS, XM_CRMASK_CR6FALSE]
example : Cfg.sse2.sse = true := rfl

/-- C10: the no-intrinsics in-bounds record never reports "all in bounds", even for vectors that are. -/
theorem C10_inBounds_fails : AllLanes 4 Within (.splat (F32.ofBV 0#32) : V4 (F32 P)) (.splat (F32.ofBV 0x3F800000#32)) ∧
    ∀ V B : V4 (F32 P), XMComparisonAllInBounds (XMVectorInBoundsR Cfg.noIntrinsics V B).1 = false := by
  refine ⟨?_, fun V B => ?_⟩
  · rw [all4]
    have : Within 0#32 0x3F800000#32 := by
      refine ⟨by decide, by decide, ?_, ?_⟩
      · rw [← IEEE.evalue_neg]; exact (((IEEE.le_iff (IEEE.neg 0x3F800000#32) 0#32).1 (by decide)).2.2)
      · exact (((IEEE.le_iff 0#32 0x3F800000#32).1 (by decide)).2.2)
    exact ⟨this, this, this, this⟩
  · unfold XMVectorInBoundsR; rw [if_neg (by decide)]; dsimp only; split_ifs <;> rfl

/-- C10: what the no-intrinsics in-bounds record does say: its "all true" bit, not the "in bounds" bit, tells whether all four lanes are in
bounds; the mask it returns is that of `XMVectorInBounds`. -/
theorem C10_inBoundsNoi_partial (c : Cfg) (hc : c.sse = false) (V B : V4 (F32 P)) :
    (XMComparisonAllTrue (XMVectorInBoundsR c V B).1 = true ↔ AllLanes 4 Within V B) ∧
    (XMVectorInBoundsR c V B).2 = XMVectorInBounds c V B := by
  have hn : ¬ c.sse = true := by simp [hc]
  have k : ((Lane.le V.x B.x && Lane.ge V.x (Lane.neg B.x)) && (Lane.le V.y B.y && Lane.ge V.y (Lane.neg B.y)) &&
      (Lane.le V.z B.z && Lane.ge V.z (Lane.neg B.z)) && (Lane.le V.w B.w && Lane.ge V.w (Lane.neg B.w))) = true ↔ AllLanes 4 Within V B := by
    simp only [all4, ← within_bounds, Bool.and_eq_true, and_assoc]
  unfold XMVectorInBoundsR XMVectorInBounds; rw [if_neg hn, if_neg hn, ← k]
  dsimp only
  refine ⟨?_, rfl⟩
  generalize ((Lane.le V.x B.x && Lane.ge V.x (Lane.neg B.x)) && (Lane.le V.y B.y && Lane.ge V.y (Lane.neg B.y)) &&
      (Lane.le V.z B.z && Lane.ge V.z (Lane.neg B.z)) && (Lane.le V.w B.w && Lane.ge V.w (Lane.neg B.w))) = t
  cases t <;> simp [XMComparisonAllTrue, XM_CRMASK_CR6TRUE]
example : Cfg.noIntrinsics.sse = false := rfl

theorem nan_ne (a : F32 P) : Lane.ne a a = true ↔ IsNaN a.bits := by
  rw [fne_iff]; unfold FEq; simp
theorem nan_is (a : F32 P) : Lane.isNaN a = true ↔ IsNaN a.bits := IEEE.isNaN_iff _
theorem inf_is (a : F32 P) : Lane.isInf a = true ↔ IsInf a.bits := IEEE.isInf_iff _
theorem inf_eq (a : F32 P) : Lane.eq (Lane.band a (Lane.ofBits 0x7FFFFFFF#32)) (Lane.ofBits 0x7F800000#32) = true ↔ IsInf a.bits := by
  have e : Lane.eq (Lane.band a (Lane.ofBits 0x7FFFFFFF#32)) (Lane.ofBits 0x7F800000#32) = IEEE.eq (IEEE.abs a.bits) 0x7F800000#32 := rfl
  rw [e, ← IEEE.isInf_iff]; unfold IEEE.eq IEEE.isNaN IEEE.isInf IEEE.key
  rw [IEEE.sg_abs, IEEE.am_abs, show IEEE.sg 0x7F800000#32 = false by decide, show IEEE.am 0x7F800000#32 = 0x7F800000 by decide]
  simp; omega

/-- Some lane among the first `n` satisfies `p`. -/
def SomeLane (n : ℕ) (p : BitVec 32 → Prop) (A : V4 (F32 P)) : Prop := ∃ i : Fin 4, i.val < n ∧ p (A.lane i).bits
theorem some2 {p : BitVec 32 → Prop} {A : V4 (F32 P)} : SomeLane 2 p A ↔ p A.x.bits ∨ p A.y.bits := by
  unfold SomeLane; simp [Fin.exists_fin_succ]
theorem some3 {p : BitVec 32 → Prop} {A : V4 (F32 P)} : SomeLane 3 p A ↔ p A.x.bits ∨ p A.y.bits ∨ p A.z.bits := by
  unfold SomeLane; simp [Fin.exists_fin_succ]
theorem some4 {p : BitVec 32 → Prop} {A : V4 (F32 P)} : SomeLane 4 p A ↔ p A.x.bits ∨ p A.y.bits ∨ p A.z.bits ∨ p A.w.bits := by
  unfold SomeLane; simp [Fin.exists_fin_succ]

/-- C12: the lane masks classify every bit pattern, every build. -/
theorem C12_masks (c : Cfg) (V : V4 (F32 P)) (i : Fin 4) :
    ((XMVectorIsNaN c V).lane i).bits = maskOf (IsNaN (V.lane i).bits) ∧
    ((XMVectorIsInfinite c V).lane i).bits = maskOf (IsInf (V.lane i).bits) := by
  constructor
  · unfold XMVectorIsNaN
    by_cases hs : c.sse = true <;> [rw [if_pos hs]; rw [if_neg hs]]
    · rw [← mask_of (P := P) (nan_ne _)]; fin_cases i <;> rfl
    · rw [← mask_of (P := P) (nan_is _)]; fin_cases i <;> rfl
  · unfold XMVectorIsInfinite
    by_cases hs : c.sse = true <;> [rw [if_pos hs]; rw [if_neg hs]]
    · rw [← mask_of (P := P) (inf_eq _)]; fin_cases i <;> rfl
    · rw [← mask_of (P := P) (inf_is _)]; fin_cases i <;> rfl

/-- C12: the XMVector2/3/4, quaternion and plane predicates are true exactly when some examined lane is a NaN / an infinity. -/
theorem C12_predicates (c : Cfg) (V : V4 (F32 P)) :
    (XMVector2IsNaN c V = true ↔ SomeLane 2 IsNaN V) ∧ (XMVector3IsNaN c V = true ↔ SomeLane 3 IsNaN V) ∧
    (XMVector4IsNaN c V = true ↔ SomeLane 4 IsNaN V) ∧
    (XMVector2IsInfinite c V = true ↔ SomeLane 2 IsInf V) ∧ (XMVector3IsInfinite c V = true ↔ SomeLane 3 IsInf V) ∧
    (XMVector4IsInfinite c V = true ↔ SomeLane 4 IsInf V) ∧
    (XMQuaternionIsNaN c V = true ↔ SomeLane 4 IsNaN V) ∧ (XMQuaternionIsInfinite c V = true ↔ SomeLane 4 IsInf V) ∧
    (XMPlaneIsNaN c V = true ↔ SomeLane 4 IsNaN V) ∧ (XMPlaneIsInfinite c V = true ↔ SomeLane 4 IsInf V) := by
  have n4 : XMVector4IsNaN c V = true ↔ SomeLane 4 IsNaN V := by
    unfold XMVector4IsNaN; rw [some4]
    by_cases hs : c.sse = true <;> [rw [if_pos hs]; rw [if_neg hs]] <;>
      simp only [SSE.movemask, SSE.cmpneq, V4.map2, Lane.sgn_mask, SSE.mm_ne_0, Bool.or_eq_true, nan_ne, nan_is, or_assoc]
  have i4 : XMVector4IsInfinite c V = true ↔ SomeLane 4 IsInf V := by
    unfold XMVector4IsInfinite; rw [some4]
    by_cases hs : c.sse = true <;> [rw [if_pos hs]; rw [if_neg hs]] <;>
      simp only [SSE.movemask, SSE.cmpeq, SSE.and, g_XMAbsMask, g_XMInfinity, V4.splat, V4.map2, Lane.sgn_mask, SSE.mm_ne_0, Bool.or_eq_true, inf_eq, inf_is, or_assoc]
  refine ⟨?_, ?_, n4, ?_, ?_, i4, n4, i4, n4, i4⟩
  · unfold XMVector2IsNaN; rw [some2]
    by_cases hs : c.sse = true <;> [rw [if_pos hs]; rw [if_neg hs]] <;>
      simp only [SSE.movemask, SSE.cmpneq, V4.map2, Lane.sgn_mask, SSE.mm_and3_ne_0, Bool.or_eq_true, nan_ne, nan_is, or_assoc]
  · unfold XMVector3IsNaN; rw [some3]
    by_cases hs : c.sse = true <;> [rw [if_pos hs]; rw [if_neg hs]] <;>
      simp only [SSE.movemask, SSE.cmpneq, V4.map2, Lane.sgn_mask, SSE.mm_and7_ne_0, Bool.or_eq_true, nan_ne, nan_is, or_assoc]
  · unfold XMVector2IsInfinite; rw [some2]
    by_cases hs : c.sse = true <;> [rw [if_pos hs]; rw [if_neg hs]] <;>
      simp only [SSE.movemask, SSE.cmpeq, SSE.and, g_XMAbsMask, g_XMInfinity, V4.splat, V4.map2, Lane.sgn_mask, SSE.mm_and3_ne_0, Bool.or_eq_true, inf_eq, inf_is, or_assoc]
  · unfold XMVector3IsInfinite; rw [some3]
    by_cases hs : c.sse = true <;> [rw [if_pos hs]; rw [if_neg hs]] <;>
      simp only [SSE.movemask, SSE.cmpeq, SSE.and, g_XMAbsMask, g_XMInfinity, V4.splat, V4.map2, Lane.sgn_mask, SSE.mm_and7_ne_0, Bool.or_eq_true, inf_eq, inf_is, or_assoc]

/-- Some entry of the matrix satisfies `p`. -/
def SomeEntry (p : BitVec 32 → Prop) (M : M4 (F32 P)) : Prop := ∃ i j : Fin 4, p ((M.row i).lane j).bits

theorem sgn_bor (a b : F32 P) : Lane.sgn (Lane.bor a b) = (Lane.sgn a || Lane.sgn b) := by
  show (a.bits ||| b.bits).msb = (a.bits.msb || b.bits.msb); exact BitVec.msb_or

/-- C12: the matrix predicates are true exactly when some of the sixteen entries is a NaN / an infinity. -/
theorem C12_matrix (c : Cfg) (M : M4 (F32 P)) :
    (XMMatrixIsNaN c M = true ↔ SomeEntry IsNaN M) ∧ (XMMatrixIsInfinite c M = true ↔ SomeEntry IsInf M) := by
  constructor
  · unfold XMMatrixIsNaN SomeEntry
    by_cases hs : c.sse = true <;> [rw [if_pos hs]; rw [if_neg hs]] <;>
      simp only [SSE.movemask, SSE.cmpneq, SSE.or, V4.map2, sgn_bor, Lane.sgn_mask, SSE.mm_ne_0, Bool.or_eq_true, nan_ne, nan_is, M4.any,
        Fin.exists_fin_succ, Fin.exists_fin_zero_pi] <;> simp [M4.row, V4.lane] <;> tauto
  · unfold XMMatrixIsInfinite SomeEntry
    by_cases hs : c.sse = true <;> [rw [if_pos hs]; rw [if_neg hs]] <;>
      simp only [SSE.movemask, SSE.cmpeq, SSE.and, g_XMAbsMask, g_XMInfinity, V4.splat, SSE.or, V4.map2, sgn_bor, Lane.sgn_mask, SSE.mm_ne_0, Bool.or_eq_true, inf_eq, inf_is, M4.any,
        Fin.exists_fin_succ, Fin.exists_fin_zero_pi] <;> simp [M4.row, V4.lane] <;> tauto

/-- C12: the integer tests of the no-intrinsics matrix code (matrix.rs:25-33, 107-115) are the NaN and infinity tests. -/
theorem C12_bit_tests (u : BitVec 32) :
    ((u &&& 0x7FFFFFFF#32) - 0x7F800001#32 < 0x007FFFFF#32 ↔ IsNaN u) ∧ ((u &&& 0x7FFFFFFF#32) = 0x7F800000#32 ↔ IsInf u) := by
  have e : (u &&& 0x7FFFFFFF#32).toNat = IEEE.am u := by
    have := IEEE.am_abs u
    have h2 := IEEE.sg_abs u
    rw [← this]; unfold IEEE.am IEEE.abs at *
    rw [Nat.mod_eq_of_lt]
    have : (2147483647#32 : BitVec 32).toNat = 2147483647 := by decide
    rw [BitVec.toNat_and, this]
    exact lt_of_le_of_lt Nat.and_le_right (by norm_num)
  have hb : IEEE.am u < 2^31 := IEEE.am_lt u
  constructor
  · rw [← IEEE.isNaN_iff]; unfold IEEE.isNaN
    rw [BitVec.lt_def, BitVec.toNat_sub, e]
    have : (0x7F800001#32 : BitVec 32).toNat = 0x7F800001 := by decide
    have h2 : (0x007FFFFF#32 : BitVec 32).toNat = 0x007FFFFF := by decide
    rw [this, h2]; simp; omega
  · rw [← IEEE.isInf_iff, ← BitVec.toNat_inj, e]; unfold IEEE.isInf
    have : (0x7F800000#32 : BitVec 32).toNat = 0x7F800000 := by decide
    rw [this]; simp

example : IsNaN 0xFFC00001#32 ∧ IsInf 0xFF800000#32 ∧ ¬ IsNaN 0x7F800000#32 ∧ ¬ IsInf 0x7F7FFFFF#32 := by decide


theorem minps_spec (a b : F32 P) (ha : ¬ IsNaN a.bits) (hb : ¬ IsNaN b.bits) :
    (Lane.minps a b = a ∨ Lane.minps a b = b) ∧ FLe (Lane.minps a b).bits a.bits ∧ FLe (Lane.minps a b).bits b.bits := by
  unfold Lane.minps
  by_cases h : Lane.lt a b = true
  · rw [if_pos h]; rw [lt_iff'] at h; exact ⟨Or.inl rfl, ⟨ha, ha, le_rfl⟩, ha, hb, h.2.2.le⟩
  · rw [if_neg h]; rw [lt_iff'] at h
    exact ⟨Or.inr rfl, ⟨hb, ha, not_lt.1 fun g => h ⟨ha, hb, g⟩⟩, hb, hb, le_rfl⟩
theorem maxps_spec (a b : F32 P) (ha : ¬ IsNaN a.bits) (hb : ¬ IsNaN b.bits) :
    (Lane.maxps a b = a ∨ Lane.maxps a b = b) ∧ FLe a.bits (Lane.maxps a b).bits ∧ FLe b.bits (Lane.maxps a b).bits := by
  unfold Lane.maxps
  by_cases h : Lane.lt b a = true
  · rw [if_pos h]; rw [lt_iff'] at h; exact ⟨Or.inl rfl, ⟨ha, ha, le_rfl⟩, hb, ha, h.2.2.le⟩
  · rw [if_neg h]; rw [lt_iff'] at h
    exact ⟨Or.inr rfl, ⟨ha, hb, not_lt.1 fun g => h ⟨hb, ha, g⟩⟩, hb, hb, le_rfl⟩

/-- C13: on non-NaN lanes Min and Max return one of the two lanes, and it bounds both. -/
theorem C13_minmax (V1 V2 : V4 (F32 P)) (i : Fin 4) (h1 : ¬ IsNaN (V1.lane i).bits) (h2 : ¬ IsNaN (V2.lane i).bits) :
    ((XMVectorMin V1 V2).lane i = V1.lane i ∨ (XMVectorMin V1 V2).lane i = V2.lane i) ∧
    FLe ((XMVectorMin V1 V2).lane i).bits (V1.lane i).bits ∧ FLe ((XMVectorMin V1 V2).lane i).bits (V2.lane i).bits ∧
    ((XMVectorMax V1 V2).lane i = V1.lane i ∨ (XMVectorMax V1 V2).lane i = V2.lane i) ∧
    FLe (V1.lane i).bits ((XMVectorMax V1 V2).lane i).bits ∧ FLe (V2.lane i).bits ((XMVectorMax V1 V2).lane i).bits := by
  have a := minps_spec _ _ h1 h2
  have b := maxps_spec _ _ h1 h2
  rw [show (XMVectorMin V1 V2).lane i = Lane.minps (V1.lane i) (V2.lane i) from V4.lane_map2 _ _ _ _,
    show (XMVectorMax V1 V2).lane i = Lane.maxps (V1.lane i) (V2.lane i) from V4.lane_map2 _ _ _ _]
  exact ⟨a.1, a.2.1, a.2.2, b.1, b.2.1, b.2.2⟩

/-- One lane of `XMVectorClamp`. -/
theorem clamp_lane (V lo hi : V4 (F32 P)) (i : Fin 4) :
    (XMVectorClamp V lo hi).lane i = Lane.minps (hi.lane i) (Lane.maxps (lo.lane i) (V.lane i)) := by
  unfold XMVectorClamp; rw [SSE.min, SSE.max, V4.lane_map2, V4.lane_map2]

theorem clamp_spec (v lo hi : F32 P) (hv : ¬ IsNaN v.bits) (h : FLe lo.bits hi.bits) :
    FLe lo.bits (Lane.minps hi (Lane.maxps lo v)).bits ∧ FLe (Lane.minps hi (Lane.maxps lo v)).bits hi.bits := by
  have b := maxps_spec lo v h.1 hv
  have hn : ¬ IsNaN (Lane.maxps lo v).bits := b.2.1.2.1
  have a := minps_spec hi _ h.2.1 hn
  refine ⟨?_, a.2.1⟩
  rcases a.1 with g | g <;> rw [g]
  · exact h
  · exact b.2.1
theorem clamp_inside (v lo hi : F32 P) (h1 : FLe lo.bits v.bits) (h2 : FLe v.bits hi.bits) : Lane.minps hi (Lane.maxps lo v) = v := by
  have e : Lane.maxps lo v = v := by
    unfold Lane.maxps; rw [if_neg]; rw [lt_iff']; exact fun g => absurd h1.2.2 (not_le.2 g.2.2)
  rw [e]; unfold Lane.minps; rw [if_neg]; rw [lt_iff']; exact fun g => absurd h2.2.2 (not_le.2 g.2.2)

/-- C13: Clamp with `lo <= hi` puts every non-NaN lane into [lo, hi], returns a lane already inside bit for bit, is idempotent, and
returns a NaN lane unchanged. -/
theorem C13_clamp (V lo hi : V4 (F32 P)) (i : Fin 4) (h : FLe (lo.lane i).bits (hi.lane i).bits) :
    (¬ IsNaN (V.lane i).bits → FLe (lo.lane i).bits ((XMVectorClamp V lo hi).lane i).bits ∧ FLe ((XMVectorClamp V lo hi).lane i).bits (hi.lane i).bits) ∧
    (FLe (lo.lane i).bits (V.lane i).bits → FLe (V.lane i).bits (hi.lane i).bits → (XMVectorClamp V lo hi).lane i = V.lane i) ∧
    (XMVectorClamp (XMVectorClamp V lo hi) lo hi).lane i = (XMVectorClamp V lo hi).lane i ∧
    (IsNaN (V.lane i).bits → (XMVectorClamp V lo hi).lane i = V.lane i) := by
  have hnan : IsNaN (V.lane i).bits → Lane.minps (hi.lane i) (Lane.maxps (lo.lane i) (V.lane i)) = V.lane i := by
    intro hn
    have e : Lane.maxps (lo.lane i) (V.lane i) = V.lane i := by
      unfold Lane.maxps; rw [if_neg]; rw [lt_iff']; exact fun g => g.1 hn
    rw [e]; unfold Lane.minps; rw [if_neg]; rw [lt_iff']; exact fun g => g.2.1 hn
  refine ⟨fun hv => ?_, fun h1 h2 => ?_, ?_, ?_⟩
  · rw [clamp_lane]; exact clamp_spec _ _ _ hv h
  · rw [clamp_lane]; exact clamp_inside _ _ _ h1 h2
  · rw [clamp_lane, clamp_lane]
    by_cases hv : IsNaN (V.lane i).bits
    · rw [hnan hv, hnan hv]
    · have := clamp_spec _ _ _ hv h
      exact clamp_inside _ _ _ this.1 this.2
  · rw [clamp_lane]; exact hnan
example : FLe 0xBF800000#32 0x40000000#32 ∧ ¬ IsNaN 0x7F800000#32 := ⟨(IEEE.le_iff _ _).1 (by decide), by decide⟩

/-- C13 (`_partial`: see `C13_saturate_fails` for NaN and -0): Saturate lies in [0,1] on non-NaN lanes, has the value of the lane
if that is already inside, and the builds agree in value. -/
theorem C13_saturate_partial (c : Cfg) (V : V4 (F32 P)) (i : Fin 4) (hv : ¬ IsNaN (V.lane i).bits) :
    FLe 0x00000000#32 ((XMVectorSaturate c V).lane i).bits ∧ FLe ((XMVectorSaturate c V).lane i).bits 0x3F800000#32 ∧
    (FLe 0x00000000#32 (V.lane i).bits → FLe (V.lane i).bits 0x3F800000#32 → FEq ((XMVectorSaturate c V).lane i).bits (V.lane i).bits) ∧
    (FLt (V.lane i).bits 0x00000000#32 → FEq ((XMVectorSaturate c V).lane i).bits 0x00000000#32) ∧
    (FLt 0x3F800000#32 (V.lane i).bits → FEq ((XMVectorSaturate c V).lane i).bits 0x3F800000#32) := by
  have h01 : FLe 0x00000000#32 0x3F800000#32 := (IEEE.le_iff _ _).1 (by decide)
  have n0 : ¬ IsNaN 0x00000000#32 := by decide
  have lt01 : Lane.lt (F32.ofBV 0x00000000#32 : F32 P) (F32.ofBV 0x3F800000#32) = true := (by decide : IEEE.lt 0x00000000#32 0x3F800000#32 = true)
  have n1 : ¬ IsNaN 0x3F800000#32 := by decide
  unfold XMVectorSaturate
  by_cases hs : c.sse = true <;> [rw [if_pos hs]; rw [if_neg hs]]
  · have e : (SSE.min (SSE.max V g_XMZero) g_XMOne).lane i = Lane.minps (Lane.maxps (V.lane i) (F32.ofBV 0x00000000#32)) (F32.ofBV 0x3F800000#32) := by
      fin_cases i <;> rfl
    rw [e]; generalize V.lane i = v at *
    have b := maxps_spec v (F32.ofBV 0x00000000#32) hv n0
    have hn : ¬ IsNaN (Lane.maxps v (F32.ofBV 0x00000000#32)).bits := b.2.1.2.1
    have a := minps_spec _ (F32.ofBV 0x3F800000#32 : F32 P) hn n1
    refine ⟨?_, a.2.2, ?_, ?_, ?_⟩
    · rcases a.1 with g | g <;> rw [g]
      · exact b.2.2
      · exact h01
    · intro h1 h2
      unfold Lane.maxps
      by_cases g : Lane.lt (F32.ofBV 0x00000000#32) v = true
      · rw [if_pos g]; unfold Lane.minps
        by_cases g2 : Lane.lt v (F32.ofBV 0x3F800000#32) = true
        · rw [if_pos g2]; exact ⟨hv, hv, rfl⟩
        · rw [if_neg g2]; rw [lt_iff'] at g2
          exact ⟨n1, hv, le_antisymm (not_lt.1 fun k => g2 ⟨hv, n1, k⟩) h2.2.2⟩
      · rw [if_neg g]; rw [lt_iff'] at g
        unfold Lane.minps; rw [if_pos (by exact lt01)]
        exact ⟨n0, hv, le_antisymm h1.2.2 (not_lt.1 fun k => g ⟨n0, hv, k⟩)⟩
    · intro h
      have g : ¬ Lane.lt (F32.ofBV 0x00000000#32) v = true := by rw [lt_iff']; exact fun k => absurd h.2.2 (not_lt.2 k.2.2.le)
      unfold Lane.maxps; rw [if_neg g]
      unfold Lane.minps; rw [if_pos (by exact lt01)]
      exact ⟨n0, n0, rfl⟩
    · intro h
      have g : ¬ Lane.lt (Lane.maxps v (F32.ofBV 0x00000000#32)) (F32.ofBV 0x3F800000#32) = true := by
        rw [lt_iff']; exact fun k => absurd (h.2.2.trans_le b.2.1.2.2) (not_lt.2 k.2.2.le)
      unfold Lane.minps; rw [if_neg g]; exact ⟨n1, n1, rfl⟩
  · have e : (XMVectorClamp V g_XMZero g_XMOne).lane i = Lane.minps (F32.ofBV 0x3F800000#32) (Lane.maxps (F32.ofBV 0x00000000#32) (V.lane i)) := by
      fin_cases i <;> rfl
    rw [e]; generalize V.lane i = v at *
    have b := maxps_spec (F32.ofBV 0x00000000#32) v n0 hv
    have hn : ¬ IsNaN (Lane.maxps (F32.ofBV 0x00000000#32) v).bits := b.2.1.2.1
    have a := clamp_spec v (F32.ofBV 0x00000000#32) (F32.ofBV 0x3F800000#32) hv h01
    refine ⟨a.1, a.2, ?_, ?_, ?_⟩
    · intro h1 h2; rw [clamp_inside v (F32.ofBV 0x00000000#32) (F32.ofBV 0x3F800000#32) h1 h2]; exact ⟨hv, hv, rfl⟩
    · intro h
      have g : Lane.lt v (F32.ofBV 0x00000000#32) = true := by rw [lt_iff']; exact h
      unfold Lane.maxps; rw [if_pos g]
      unfold Lane.minps; rw [if_neg (by rw [lt_iff']; exact fun k => absurd h01.2.2 (not_le.2 k.2.2))]
      exact ⟨n0, n0, rfl⟩
    · intro h
      have g : Lane.lt (F32.ofBV 0x3F800000#32) (Lane.maxps (F32.ofBV 0x00000000#32) v) = true := by
        rw [lt_iff']; exact ⟨n1, hn, h.2.2.trans_le b.2.2.2.2⟩
      unfold Lane.minps; rw [if_pos g]; exact ⟨n1, n1, rfl⟩

/-- C13: the builds disagree on NaN: with intrinsics Saturate(NaN) is 0, without it is NaN; and on -0 (0 against -0). -/
theorem C13_saturate_fails (c : Cfg) (hc : c.sse = true) :
    ((XMVectorSaturate c (.splat (F32.ofBV 0x7FC00000#32)) : V4 (F32 P)).lane 0).bits = 0x00000000#32 ∧
    ((XMVectorSaturate Cfg.noIntrinsics (.splat (F32.ofBV 0x7FC00000#32)) : V4 (F32 P)).lane 0).bits = 0x7FC00000#32 ∧
    ((XMVectorSaturate c (.splat (F32.ofBV 0x80000000#32)) : V4 (F32 P)).lane 0).bits = 0x00000000#32 ∧
    ((XMVectorSaturate Cfg.noIntrinsics (.splat (F32.ofBV 0x80000000#32)) : V4 (F32 P)).lane 0).bits = 0x80000000#32 := by
  unfold XMVectorSaturate; rw [if_pos hc, if_pos hc, if_neg (by decide), if_neg (by decide)]
  have k : ∀ a b : BitVec 32, Lane.lt (F32.ofBV a : F32 P) (F32.ofBV b) = IEEE.lt a b := fun _ _ => rfl
  refine ⟨?_, ?_, ?_, ?_⟩
  · show (Lane.minps (Lane.maxps (F32.ofBV 0x7FC00000#32) (F32.ofBV 0#32)) (F32.ofBV 0x3F800000#32)).bits = _
    unfold Lane.maxps; rw [k, if_neg (by decide)]; unfold Lane.minps; rw [k, if_pos (by decide)]; rfl
  · show (Lane.minps (F32.ofBV 0x3F800000#32) (Lane.maxps (F32.ofBV 0#32) (F32.ofBV 0x7FC00000#32))).bits = _
    unfold Lane.maxps; rw [k, if_neg (by decide)]; unfold Lane.minps; rw [k, if_neg (by decide)]; rfl
  · show (Lane.minps (Lane.maxps (F32.ofBV 0x80000000#32) (F32.ofBV 0#32)) (F32.ofBV 0x3F800000#32)).bits = _
    unfold Lane.maxps; rw [k, if_neg (by decide)]; unfold Lane.minps; rw [k, if_pos (by decide)]; rfl
  · show (Lane.minps (F32.ofBV 0x3F800000#32) (Lane.maxps (F32.ofBV 0#32) (F32.ofBV 0x80000000#32))).bits = _
    unfold Lane.maxps; rw [k, if_neg (by decide)]; unfold Lane.minps; rw [k, if_neg (by decide)]; rfl

/-- C19: Negate has the value `-V` and Abs the value `|V|` on every non-NaN lane, every build; the result is not NaN.  On NaN lanes the
result is a NaN.  (`_partial`: bit equality of the builds fails on zeros, `C19_bits_fails`.) -/
theorem C19_values_partial (c : Cfg) (V : V4 (F32 P)) (i : Fin 4) :
    (¬ IsNaN (V.lane i).bits →
      ¬ IsNaN ((XMVectorNegate c V).lane i).bits ∧ evalue ((XMVectorNegate c V).lane i).bits = - evalue (V.lane i).bits ∧
      ¬ IsNaN ((XMVectorAbs c V).lane i).bits ∧ evalue ((XMVectorAbs c V).lane i).bits = max (evalue (V.lane i).bits) (- evalue (V.lane i).bits)) ∧
    (IsNaN (V.lane i).bits → IsNaN ((XMVectorNegate c V).lane i).bits ∧ IsNaN ((XMVectorAbs c V).lane i).bits) := by
  unfold XMVectorNegate XMVectorAbs
  by_cases hs : c.sse = true <;> [rw [if_pos hs, if_pos hs]; rw [if_neg hs, if_neg hs]]
  · have e1 : (SSE.sub SSE.setzero V).lane i = F32.ofBV (IEEE.sub P 0#32 (V.lane i).bits) := by fin_cases i <;> rfl
    have e2 : (SSE.max (SSE.sub SSE.setzero V) V).lane i = Lane.maxps (F32.ofBV (IEEE.sub P 0#32 (V.lane i).bits)) (V.lane i) := by fin_cases i <;> rfl
    rw [e1, e2, F32.bits_ofBV]; generalize V.lane i = v at *
    constructor
    · intro hv
      have h1 := IEEE.zero_sub_spec P hv
      have h2 := maxps_spec (F32.ofBV (IEEE.sub P 0#32 v.bits)) v h1.1 hv
      refine ⟨h1.1, h1.2, h2.2.2.2.1, ?_⟩
      rcases h2.1 with g | g <;> rw [g] at h2 ⊢
      · rw [F32.bits_ofBV, h1.2]; rw [max_eq_right]; have := h2.2.2.2.2; rwa [F32.bits_ofBV, h1.2] at this
      · have := h2.2.1.2.2; rw [F32.bits_ofBV, h1.2] at this; rw [max_eq_left this]
    · intro hv
      refine ⟨IEEE.sub_nan P (Or.inr hv), ?_⟩
      unfold Lane.maxps; rw [if_neg (by rw [lt_iff']; exact fun k => k.1 hv)]; exact hv
  · have e1 : (V4.map Lane.neg V).lane i = F32.ofBV (IEEE.neg (V.lane i).bits) := by fin_cases i <;> rfl
    have e2 : (V4.map Lane.abs V).lane i = F32.ofBV (IEEE.abs (V.lane i).bits) := by fin_cases i <;> rfl
    rw [e1, e2, F32.bits_ofBV, F32.bits_ofBV]; generalize V.lane i = v at *
    rw [IEEE.isNaN_am (IEEE.am_neg _), IEEE.isNaN_am (IEEE.am_abs _)]
    refine ⟨fun hv => ⟨hv, IEEE.evalue_neg _, hv, ?_⟩, fun h => ⟨h, h⟩⟩
    have h0 := IEEE.abs_nonneg' hv
    rcases IEEE.evalue_abs v.bits with g | g <;> rw [g] at h0 ⊢
    · rw [max_eq_left]; exact (by rw [EReal.neg_le, neg_zero]; exact h0 : - evalue v.bits ≤ 0).trans h0
    · rw [max_eq_right]; exact (by rw [← EReal.neg_le_neg_iff, neg_zero]; exact h0 : evalue v.bits ≤ 0).trans h0

/-- C19: Abs is idempotent and ignores the sign, in value, every build. -/
theorem C19_abs_laws (c : Cfg) (V : V4 (F32 P)) (i : Fin 4) (h : ¬ IsNaN (V.lane i).bits) :
    FEq ((XMVectorAbs c (XMVectorAbs c V)).lane i).bits ((XMVectorAbs c V).lane i).bits ∧
    FEq ((XMVectorAbs c (XMVectorNegate c V)).lane i).bits ((XMVectorAbs c V).lane i).bits ∧
    FEq ((XMVectorNegate c (XMVectorNegate c V)).lane i).bits (V.lane i).bits ∧ FLe 0#32 ((XMVectorAbs c V).lane i).bits := by
  obtain ⟨n1, n2, a1, a2⟩ := (C19_values_partial c V i).1 h
  obtain ⟨_, _, b1, b2⟩ := (C19_values_partial c (XMVectorAbs c V) i).1 a1
  obtain ⟨d3, d4, d1, d2⟩ := (C19_values_partial c (XMVectorNegate c V) i).1 n1
  have pos : (0 : EReal) ≤ max (evalue (V.lane i).bits) (- evalue (V.lane i).bits) := by
    rcases le_total 0 (evalue (V.lane i).bits) with g | g
    · exact g.trans (le_max_left _ _)
    · refine le_trans ?_ (le_max_right _ _); rwa [EReal.le_neg, neg_zero]
  refine ⟨⟨b1, a1, ?_⟩, ⟨d1, a1, ?_⟩, ⟨d3, h, ?_⟩, ⟨by decide, a1, ?_⟩⟩
  · rw [b2, a2, max_eq_left]; exact (by rw [EReal.neg_le, neg_zero]; exact pos : _ ≤ (0:EReal)).trans pos
  · rw [d2, n2, a2, neg_neg, max_comm]
  · rw [d4, n2, neg_neg]
  · rw [a2, IEEE.evalue_zero]; exact pos

/-- C19: negating +0 gives +0 with intrinsics and -0 without; Abs(-0) gives -0 ... with intrinsics and +0 without. -/
theorem C19_bits_fails (c : Cfg) (hc : c.sse = true) :
    ((XMVectorNegate c (.splat (F32.ofBV 0#32)) : V4 (F32 P)).lane 0).bits = 0x00000000#32 ∧
    ((XMVectorNegate Cfg.noIntrinsics (.splat (F32.ofBV 0#32)) : V4 (F32 P)).lane 0).bits = 0x80000000#32 ∧
    ((XMVectorAbs c (.splat (F32.ofBV 0x80000000#32)) : V4 (F32 P)).lane 0).bits = 0x80000000#32 ∧
    ((XMVectorAbs Cfg.noIntrinsics (.splat (F32.ofBV 0x80000000#32)) : V4 (F32 P)).lane 0).bits = 0x00000000#32 := by
  unfold XMVectorNegate XMVectorAbs; rw [if_pos hc, if_pos hc, if_neg (by decide), if_neg (by decide)]
  have z : ∀ x, x = 0#32 ∨ x = 0x80000000#32 → IEEE.sub P 0#32 x = 0#32 := by
    rintro x (rfl | rfl) <;> unfold IEEE.sub <;> rw [if_neg (by decide)] <;> unfold IEEE.addCore <;>
      rw [if_neg (by decide), if_neg (by decide)] <;> decide
  have k : ∀ a b : BitVec 32, Lane.lt (F32.ofBV a : F32 P) (F32.ofBV b) = IEEE.lt a b := fun _ _ => rfl
  have l1 : ∀ x, ((SSE.sub SSE.setzero (V4.splat (F32.ofBV x)) : V4 (F32 P)).lane 0).bits = IEEE.sub P 0#32 x := fun _ => rfl
  have l2 : ∀ x, ((SSE.max (SSE.sub SSE.setzero (V4.splat (F32.ofBV x))) (V4.splat (F32.ofBV x)) : V4 (F32 P)).lane 0).bits =
    (Lane.maxps (F32.ofBV (IEEE.sub P 0#32 x) : F32 P) (F32.ofBV x)).bits := fun _ => rfl
  refine ⟨?_, ?_, ?_, ?_⟩
  · rw [l1]; exact z _ (Or.inl rfl)
  · show IEEE.neg 0#32 = _; decide
  · rw [l2, z _ (Or.inr rfl)]; unfold Lane.maxps; rw [k, if_neg (by decide)]; rfl
  · show IEEE.abs 0x80000000#32 = _; decide

theorem eq_one (a : BitVec 32) : FEq a 0x3F800000#32 ↔ a = 0x3F800000#32 := by
  rw [← IEEE.eq_iff]; unfold IEEE.eq IEEE.key IEEE.isNaN
  rw [show IEEE.sg 0x3F800000#32 = false by decide, show IEEE.am 0x3F800000#32 = 0x3F800000 by decide]
  constructor
  · intro h
    refine IEEE.ext_am ?_ ?_
    · rw [show IEEE.sg 0x3F800000#32 = false by decide]; by_contra g; simp at g; rw [g] at h; simp at h; omega
    · rw [show IEEE.am 0x3F800000#32 = 0x3F800000 by decide]
      cases hs : IEEE.sg a <;> rw [hs] at h <;> simp at h <;> omega
  · rintro rfl; decide
theorem eq_zero' (a : BitVec 32) : FEq a 0#32 ↔ a &&& 0x7FFFFFFF#32 = 0#32 := by
  rw [← IEEE.eq_iff]; unfold IEEE.eq IEEE.key IEEE.isNaN
  rw [show IEEE.sg 0#32 = false by decide, show IEEE.am 0#32 = 0 by decide]
  have h1 := IEEE.am_abs a
  constructor
  · intro h
    have h2 : IEEE.am a = 0 := by cases hs : IEEE.sg a <;> rw [hs] at h <;> simp at h <;> omega
    refine IEEE.ext_am ?_ ?_
    · exact IEEE.sg_abs a
    · rw [show (a &&& 0x7FFFFFFF#32) = IEEE.abs a from rfl, h1, h2]; rfl
  · intro h
    rw [show (a &&& 0x7FFFFFFF#32) = IEEE.abs a from rfl] at h
    rw [h] at h1
    have : IEEE.am a = 0 := by rw [← h1]; rfl
    rw [this]; simp

/-- C43: XMMatrixIsIdentity is true exactly when the diagonal entries compare equal to 1 and the others to 0 (of either sign), for all
2^512 matrices and every build. -/
theorem C43_isIdentity (c : Cfg) (M : M4 (F32 P)) :
    XMMatrixIsIdentity c M = true ↔ ∀ i j : Fin 4, FEq ((M.row i).lane j).bits (if i = j then 0x3F800000#32 else 0x00000000#32) := by
  have rhs : (∀ i j : Fin 4, FEq ((M.row i).lane j).bits (if i = j then 0x3F800000#32 else 0x00000000#32)) ↔
      ((FEq M.r0.x.bits 0x3F800000#32 ∧ FEq M.r0.y.bits 0#32 ∧ FEq M.r0.z.bits 0#32 ∧ FEq M.r0.w.bits 0#32) ∧
       (FEq M.r1.x.bits 0#32 ∧ FEq M.r1.y.bits 0x3F800000#32 ∧ FEq M.r1.z.bits 0#32 ∧ FEq M.r1.w.bits 0#32) ∧
       (FEq M.r2.x.bits 0#32 ∧ FEq M.r2.y.bits 0#32 ∧ FEq M.r2.z.bits 0x3F800000#32 ∧ FEq M.r2.w.bits 0#32) ∧
       (FEq M.r3.x.bits 0#32 ∧ FEq M.r3.y.bits 0#32 ∧ FEq M.r3.z.bits 0#32 ∧ FEq M.r3.w.bits 0x3F800000#32)) := by
    simp only [Fin.forall_fin_succ]; simp [M4.row, V4.lane]
  rw [rhs]; unfold XMMatrixIsIdentity
  by_cases hs : c.sse = true <;> [rw [if_pos hs]; rw [if_neg hs]]
  · simp only [SSE.movemask, SSE.cmpeq, SSE.and, g_XMIdentityR0, g_XMIdentityR1, g_XMIdentityR2, g_XMIdentityR3, V4.map2, Lane.band_mask_mask, Lane.sgn_mask,
      SSE.mm_eq_15, Bool.and_eq_true, eq_iff', F32.ofBits_eq', F32.bits_ofBV]
    tauto
  · simp only [eq_one, eq_zero', ieq_iff', F32.bor_eq, F32.band_eq, F32.bxor_eq', F32.bits_ofBV, F32.ofBits_eq']
    have hor : ∀ a b : BitVec 32, a ||| b = 0#32 ↔ a = 0#32 ∧ b = 0#32 := fun a b => BitVec.or_eq_zero_iff
    have hand : ∀ a b m : BitVec 32, (a ||| b) &&& m = (a &&& m) ||| (b &&& m) := fun a b m =>
      BitVec.eq_of_getLsbD_eq fun i _ => by simp [Bool.and_or_distrib_right]
    have hx : ∀ a b : BitVec 32, a ^^^ b = 0#32 ↔ a = b := fun a b => BitVec.xor_eq_zero_iff
    simp only [hor, hand, hx]
    constructor <;> intro h <;> simp only [h, and_self]

end DXM.Props
