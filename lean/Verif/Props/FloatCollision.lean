import Verif.Lemmas.FMono
import Verif.Lemmas.RealGeo
import Verif.Model.CollisionBox
import Verif.Props.Range
import Verif.Props.Float

/-
Collision tests on binary32 lanes (interpretation I): what remains of the exact statements C73-C77 once every operation rounds.
-/

set_option linter.all false

namespace DXM.Props
open DXM.Spec DXM.FErr DXM.IEEE DXM.RG
variable {P : Env}

/-- The point of space that three lanes stand for. -/
noncomputable def ptOf (p : F3 (F32 P)) : Pt := ![value p.x.bits, value p.y.bits, value p.z.bits]
/-- Three finite lanes. -/
def Fin3 (p : F3 (F32 P)) : Prop := IsFinite p.x.bits ∧ IsFinite p.y.bits ∧ IsFinite p.z.bits
/-- The coordinates of the box are finite. -/
def FinBox (B : BoundingBox (F32 P)) : Prop := Fin3 B.Center ∧ Fin3 B.Extents
/-- The set of points that the struct describes. -/
def boxSet (B : BoundingBox (F32 P)) : Set Pt := box (ptOf B.Center) (ptOf B.Extents)
/-- Lane by lane along one axis. -/
def F3.lane {α : Type} (p : F3 α) : Fin 3 → α := ![p.x, p.y, p.z]

theorem ptOf_lane (p : F3 (F32 P)) (i : Fin 3) : ptOf p i = val (F3.lane p i) := by fin_cases i <;> rfl
theorem fin3_lane {p : F3 (F32 P)} (h : Fin3 p) (i : Fin 3) : Fin' (F3.lane p i) := by fin_cases i <;> [exact h.1; exact h.2.1; exact h.2.2]
theorem all_lanes3 {R : BitVec 32 → BitVec 32 → Prop} {A B : V4 (F32 P)} :
    AllLanes 3 R A B ↔ ∀ i : Fin 3, R (F3.lane ⟨A.x, A.y, A.z⟩ i).bits (F3.lane ⟨B.x, B.y, B.z⟩ i).bits := by
  rw [all3, Fin.forall_fin_succ, Fin.forall_fin_two]; rfl

theorem contains_iff (b : Bool) : (if b = true then ContainmentType.CONTAINS else .DISJOINT) = .CONTAINS ↔ b = true := by cases b <;> simp

/-- A rounded difference is at most `e` in magnitude when the exact one is. -/
theorem sub_within {p a e : F32 P} (hp : Fin' p) (ha : Fin' a) (he : Fin' e) (h : |val p - val a| ≤ val e) : Within (Lane.sub p a).bits e.bits := by
  have hr := sub_rounds P hp ha
  obtain ⟨h1, h2⟩ := abs_le.1 h
  refine ⟨rounds_num hr, not_nan_of_finite he, ?_, ?_⟩
  · have := le_rounds hr (finite_neg.2 he) (by rw [neg_value]; exact h1)
    rw [neg_value] at this
    rw [evalue_finite he]; exact this
  · rw [evalue_finite he]; exact rounds_le hr he h2
theorem within_sub {p a e : F32 P} (hp : Fin' p) (ha : Fin' a) (he : Fin' e) (h : Within (Lane.sub p a).bits e.bits) :
    |val p - val a| ≤ (1 + gam 1) * val e := by
  have hr := sub_rounds P hp ha
  obtain ⟨h0, -, h1, h2⟩ := h
  rw [evalue_finite he] at h1 h2
  have hlt : |val p - val a| < overflow := by
    rw [abs_lt]
    constructor
    · by_contra hc
      push Not at hc
      have h3 := hr.bot hc
      have h4 : (Lane.sub p a).bits = 0xFF800000#32 := h3
      rw [h4, evalue_bot] at h1
      exact absurd (le_bot_iff.1 h1) (by rw [← EReal.coe_neg]; exact EReal.coe_ne_bot _)
    · by_contra hc
      push Not at hc
      have h3 := hr.top hc
      have h4 : (Lane.sub p a).bits = 0x7F800000#32 := h3
      rw [h4, evalue_top] at h2
      exact absurd (top_le_iff.1 h2) (EReal.coe_ne_top _)
  obtain ⟨n, hn⟩ := int_val p; obtain ⟨m, hm⟩ := int_val a
  obtain ⟨hf, herr⟩ := rounds_err' hr hlt (n - m) (by push_cast; rw [sub_mul, ← hn, ← hm])
  have hf' : IsFinite (Lane.sub p a).bits := hf
  rw [evalue_finite hf'] at h1 h2
  have h1' : - val e ≤ value (Lane.sub p a).bits := by exact_mod_cast h1
  have h2' : value (Lane.sub p a).bits ≤ val e := by exact_mod_cast h2
  have herr' : |value (Lane.sub p a).bits - (val p - val a)| ≤ ulp2 * |val p - val a| := herr
  have hd := den_pos (k := 1) (by norm_num)
  have e1 : 1 + gam 1 = 1 / (1 - (1:ℕ) * ulp2) := by have := gam_eq (k := 1) (by norm_num); rw [this]; unfold gg; ring
  rw [e1, div_mul_eq_mul_div, one_mul, le_div_iff₀ hd]
  have : |val p - val a| ≤ |value (Lane.sub p a).bits| + ulp2 * |val p - val a| := by
    have h5 := abs_sub_abs_le_abs_sub (val p - val a) (value (Lane.sub p a).bits)
    rw [abs_sub_comm] at herr'
    linarith
  have h6 := abs_le.2 ⟨h1', h2'⟩
  push_cast
  linarith

/-- C96: a point that lies exactly in the box is reported as contained, whatever the roundings; a point reported as contained lies in the box
enlarged by the relative amount `gam 1 ≈ 2^-24`. -/
theorem C96_boxContainsPoint (c : Cfg) (B : BoundingBox (F32 P)) (V : V4 (F32 P)) (hB : FinBox B) (hV : Fins 3 V) :
    (ptOf ⟨V.x, V.y, V.z⟩ ∈ boxSet B → BoundingBox.ContainsPoint c B V = .CONTAINS) ∧
    (BoundingBox.ContainsPoint c B V = .CONTAINS → ptOf ⟨V.x, V.y, V.z⟩ ∈ box (ptOf B.Center) ((1 + gam 1) • ptOf B.Extents)) := by
  have key : BoundingBox.ContainsPoint c B V = .CONTAINS ↔
      ∀ i, Within (Lane.sub (F3.lane ⟨V.x, V.y, V.z⟩ i) (F3.lane B.Center i)).bits (F3.lane B.Extents i).bits := by
    refine Iff.trans (contains_iff _) ?_
    rw [(C11_predicates c _ (load3 B.Extents) (load3 B.Extents)).2.2.2.2.1, all_lanes3]
    refine forall_congr' fun i => ?_
    fin_cases i <;> rfl
  have hp : Fin3 (⟨V.x, V.y, V.z⟩ : F3 (F32 P)) := fins3 hV
  rw [key]
  constructor
  · intro h i
    have := h i
    rw [ptOf_lane, ptOf_lane, ptOf_lane] at this
    exact sub_within (fin3_lane hp i) (fin3_lane hB.1 i) (fin3_lane hB.2 i) this
  · intro h i
    rw [Pi.smul_apply, smul_eq_mul, ptOf_lane, ptOf_lane, ptOf_lane]
    exact within_sub (fin3_lane hp i) (fin3_lane hB.1 i) (fin3_lane hB.2 i) (h i)


theorem not_flt {a b : BitVec 32} (ha : ¬ IsNaN a) (hb : ¬ IsNaN b) : ¬ FLt a b ↔ FLe b a := by
  unfold FLt FLe; simp only [ha, hb, not_false_eq_true, true_and, not_lt]
theorem not_fle {a b : BitVec 32} (ha : ¬ IsNaN a) (hb : ¬ IsNaN b) : ¬ FLe a b ↔ FLt b a := by
  unfold FLt FLe; simp only [ha, hb, not_false_eq_true, true_and, not_le]
theorem gt_le {a b : F32 P} (ha : ¬ IsNaN a.bits) (hb : ¬ IsNaN b.bits) : Lane.gt a b = false ↔ FLe a.bits b.bits := by
  rw [Bool.eq_false_iff, ne_eq, gt_iff', not_flt hb ha]

/-- Size of the coordinates and extents of the box. -/
def BoundedBy (M : ℝ) (B : BoundingBox (F32 P)) : Prop := ∀ i, |ptOf B.Center i| + |ptOf B.Extents i| ≤ M

/-- The lanes compared by the two box tests. -/
noncomputable def lo (B : BoundingBox (F32 P)) (i : Fin 3) : F32 P := Lane.sub (F3.lane B.Center i) (F3.lane B.Extents i)
noncomputable def hi (B : BoundingBox (F32 P)) (i : Fin 3) : F32 P := Lane.add (F3.lane B.Center i) (F3.lane B.Extents i)
theorem lo_num {B : BoundingBox (F32 P)} (h : FinBox B) (i : Fin 3) : ¬ IsNaN (lo B i).bits := rounds_num (sub_rounds P (fin3_lane h.1 i) (fin3_lane h.2 i))
theorem hi_num {B : BoundingBox (F32 P)} (h : FinBox B) (i : Fin 3) : ¬ IsNaN (hi B i).bits := rounds_num (add_rounds P (fin3_lane h.1 i) (fin3_lane h.2 i))
theorem lo_err {B : BoundingBox (F32 P)} (h : FinBox B) (i : Fin 3) {M : ℝ} (hM : M ≤ 2^127) (hB : BoundedBy M B) :
    Fin' (lo B i) ∧ |val (lo B i) - (ptOf B.Center i - ptOf B.Extents i)| ≤ ulp2 * M := by
  have hb := hB i
  obtain ⟨n, hn⟩ := int_val (F3.lane B.Center i); obtain ⟨m, hm⟩ := int_val (F3.lane B.Extents i)
  have hx : |val (F3.lane B.Center i) - val (F3.lane B.Extents i)| ≤ M := (abs_sub _ _).trans (by rwa [ptOf_lane, ptOf_lane] at hb)
  obtain ⟨h1, h2⟩ := rounds_err' (sub_rounds P (fin3_lane h.1 i) (fin3_lane h.2 i)) (hx.trans_lt (by have := big_lt; linarith))
    (n - m) (by push_cast; rw [sub_mul, ← hn, ← hm])
  refine ⟨h1, ?_⟩
  rw [ptOf_lane, ptOf_lane]
  exact le_trans h2 (mul_le_mul_of_nonneg_left hx u_pos.le)
theorem hi_err {B : BoundingBox (F32 P)} (h : FinBox B) (i : Fin 3) {M : ℝ} (hM : M ≤ 2^127) (hB : BoundedBy M B) :
    Fin' (hi B i) ∧ |val (hi B i) - (ptOf B.Center i + ptOf B.Extents i)| ≤ ulp2 * M := by
  have hb := hB i
  obtain ⟨n, hn⟩ := int_val (F3.lane B.Center i); obtain ⟨m, hm⟩ := int_val (F3.lane B.Extents i)
  have hx : |val (F3.lane B.Center i) + val (F3.lane B.Extents i)| ≤ M := (abs_add_le _ _).trans (by rwa [ptOf_lane, ptOf_lane] at hb)
  obtain ⟨h1, h2⟩ := rounds_err' (add_rounds P (fin3_lane h.1 i) (fin3_lane h.2 i)) (hx.trans_lt (by have := big_lt; linarith))
    (n + m) (by push_cast; rw [add_mul, ← hn, ← hm])
  refine ⟨h1, ?_⟩
  rw [ptOf_lane, ptOf_lane]
  exact le_trans h2 (mul_le_mul_of_nonneg_left hx u_pos.le)

theorem box_overlap (c : Cfg) (A B : BoundingBox (F32 P)) (hA : FinBox A) (hB : FinBox B) :
    BoundingBox.IntersectsBox c A B = true ↔ ∀ i, FLe (lo A i).bits (hi B i).bits ∧ FLe (lo B i).bits (hi A i).bits := by
  unfold BoundingBox.IntersectsBox
  simp only [XMVectorOrInt, SSE.or, XMVectorGreater, XMVectorSubtract, XMVectorAdd, SSE.sub, SSE.add, SSE.cmpgt, V4.map2, bor_mask, anyTrue_mask]
  rw [Bool.not_eq_true', Fin.forall_fin_succ, Fin.forall_fin_two]
  simp only [Bool.or_eq_false_iff]
  have := fun i => gt_le (lo_num hA i) (hi_num hB i)
  have := fun i => gt_le (lo_num hB i) (hi_num hA i)
  simp only [← this, ← gt_le (lo_num hA _) (hi_num hB _)]
  simp only [lo, hi, F3.lane, load3]
  simp [and_assoc]


theorem fle_val {a b : F32 P} (ha : Fin' a) (hb : Fin' b) : FLe a.bits b.bits ↔ val a ≤ val b := by
  unfold FLe
  rw [evalue_finite ha, evalue_finite hb, EReal.coe_le_coe_iff]
  have := not_nan_of_finite ha; have := not_nan_of_finite hb; tauto

/-- The box with all extents enlarged by `d`. -/
def inflate (B : BoundingBox (F32 P)) (d : ℝ) : Set Pt := box (ptOf B.Center) (fun i => ptOf B.Extents i + d)

/-- C96: boxes that really share a point are never reported as disjoint, whatever the roundings, overflow included; boxes reported as
intersecting share a point once enlarged by `2^-24` of the size of their coordinates. -/
theorem C96_boxIntersects (c : Cfg) (A B : BoundingBox (F32 P)) (hA : FinBox A) (hB : FinBox B) (eA : ∀ i, 0 ≤ ptOf A.Extents i) (eB : ∀ i, 0 ≤ ptOf B.Extents i) :
    ((boxSet A ∩ boxSet B).Nonempty → BoundingBox.IntersectsBox c A B = true) ∧
    (∀ M : ℝ, M ≤ 2^127 → BoundedBy M A → BoundedBy M B → BoundingBox.IntersectsBox c A B = true → (inflate A (ulp2 * M) ∩ inflate B (ulp2 * M)).Nonempty) := by
  rw [box_overlap c A B hA hB]
  constructor
  · intro h i
    have := (box_inter _ _ _ _ eA eB).1 h i
    simp only [ptOf_lane] at this
    exact ⟨sub_le_add (fin3_lane hA.1 i) (fin3_lane hA.2 i) (fin3_lane hB.1 i) (fin3_lane hB.2 i) this.1,
      sub_le_add (fin3_lane hB.1 i) (fin3_lane hB.2 i) (fin3_lane hA.1 i) (fin3_lane hA.2 i) this.2⟩
  · intro M hM bA bB h
    have hM0 : 0 ≤ ulp2 * M := mul_nonneg u_pos.le (le_trans (by positivity) (bA 0))
    rw [inflate, inflate, box_inter _ _ _ _ (fun i => add_nonneg (eA i) hM0) (fun i => add_nonneg (eB i) hM0)]
    intro i
    obtain ⟨h1, h2⟩ := h i
    obtain ⟨a1, a2⟩ := lo_err hA i hM bA
    obtain ⟨a3, a4⟩ := hi_err hA i hM bA
    obtain ⟨b1, b2⟩ := lo_err hB i hM bB
    obtain ⟨b3, b4⟩ := hi_err hB i hM bB
    rw [fle_val a1 b3] at h1
    rw [fle_val b1 a3] at h2
    rw [abs_le] at a2 a4 b2 b4
    constructor <;> linarith

/-- C96: a box that really lies in the other is reported as contained, boxes that share a point are never reported as disjoint; a box reported as
contained lies in the other enlarged by `2^-23` of the size of the coordinates. -/
theorem C96_boxContainsBox (c : Cfg) (A B : BoundingBox (F32 P)) (hA : FinBox A) (hB : FinBox B) (eA : ∀ i, 0 ≤ ptOf A.Extents i) (eB : ∀ i, 0 ≤ ptOf B.Extents i) :
    (boxSet B ⊆ boxSet A → BoundingBox.ContainsBox c A B = .CONTAINS) ∧
    ((boxSet A ∩ boxSet B).Nonempty → BoundingBox.ContainsBox c A B ≠ .DISJOINT) ∧
    (∀ M : ℝ, M ≤ 2^127 → BoundedBy M A → BoundedBy M B →
      (BoundingBox.ContainsBox c A B = .CONTAINS → boxSet B ⊆ inflate A (2 * (ulp2 * M))) ∧
      (BoundingBox.ContainsBox c A B ≠ .DISJOINT → (inflate A (ulp2 * M) ∩ inflate B (ulp2 * M)).Nonempty)) := by
  obtain ⟨d, hd, key⟩ : ∃ d : Bool, (d = true ↔ ∀ i, FLe (lo A i).bits (lo B i).bits ∧ FLe (hi B i).bits (hi A i).bits) ∧
      BoundingBox.ContainsBox c A B = if BoundingBox.IntersectsBox c A B = true then (if d = true then .CONTAINS else .INTERSECTS) else .DISJOINT := by
    have e : BoundingBox.IntersectsBox c A B = !XMVector3AnyTrue c (XMVectorOrInt
      (XMVectorGreater (XMVectorSubtract (load3 A.Center) (load3 A.Extents)) (XMVectorAdd (load3 B.Center) (load3 B.Extents)))
      (XMVectorGreater (XMVectorSubtract (load3 B.Center) (load3 B.Extents)) (XMVectorAdd (load3 A.Center) (load3 A.Extents)))) := rfl
    have e2 : XMVector3AllTrue c (XMVectorAndInt
      (XMVectorLessOrEqual (XMVectorSubtract (load3 A.Center) (load3 A.Extents)) (XMVectorSubtract (load3 B.Center) (load3 B.Extents)))
      (XMVectorLessOrEqual (XMVectorAdd (load3 B.Center) (load3 B.Extents)) (XMVectorAdd (load3 A.Center) (load3 A.Extents)))) = true ↔
        ∀ i, FLe (lo A i).bits (lo B i).bits ∧ FLe (hi B i).bits (hi A i).bits := by
      simp only [XMVectorAndInt, SSE.and, XMVectorLessOrEqual, XMVectorSubtract, XMVectorAdd, SSE.sub, SSE.add, SSE.cmple, V4.map2, Lane.band_mask_mask, allTrue_mask]
      rw [Fin.forall_fin_succ, Fin.forall_fin_two]
      simp only [Bool.and_eq_true, le_iff', lo, hi, F3.lane, load3]
      simp [and_assoc]
    refine ⟨_, e2, ?_⟩
    rw [e]
    simp only [BoundingBox.ContainsBox]
    generalize XMVector3AllTrue (α := F32 P) c _ = d
    generalize XMVector3AnyTrue (α := F32 P) c _ = b
    cases b <;> cases d <;> rfl
  have hi1 := C96_boxIntersects c A B hA hB eA eB
  have hne : BoundingBox.ContainsBox c A B ≠ .DISJOINT ↔ BoundingBox.IntersectsBox c A B = true := by
    rw [key]; split_ifs <;> simp_all
  have hc : BoundingBox.ContainsBox c A B = .CONTAINS ↔ BoundingBox.IntersectsBox c A B = true ∧
      ∀ i, FLe (lo A i).bits (lo B i).bits ∧ FLe (hi B i).bits (hi A i).bits := by
    rw [key, ← hd]; split_ifs <;> simp_all
  rw [hne, hc]
  refine ⟨fun h => ⟨hi1.1 ?_, fun i => ?_⟩, hi1.1, fun M hM bA bB => ⟨fun h => ?_, hi1.2 M hM bA bB⟩⟩
  · exact ⟨ptOf B.Center, h (fun i => by simpa using eB i), fun i => by simpa using eB i⟩
  · have := (box_subset _ _ _ _ eB).1 h i
    simp only [ptOf_lane] at this
    exact ⟨sub_le_sub (fin3_lane hA.1 i) (fin3_lane hA.2 i) (fin3_lane hB.1 i) (fin3_lane hB.2 i) this.1,
      add_le_add' (fin3_lane hB.1 i) (fin3_lane hB.2 i) (fin3_lane hA.1 i) (fin3_lane hA.2 i) this.2⟩
  · rw [inflate, boxSet, box_subset _ _ _ _ eB]
    intro i
    obtain ⟨h1, h2⟩ := h.2 i
    obtain ⟨a1, a2⟩ := lo_err hA i hM bA
    obtain ⟨a3, a4⟩ := hi_err hA i hM bA
    obtain ⟨b1, b2⟩ := lo_err hB i hM bB
    obtain ⟨b3, b4⟩ := hi_err hB i hM bB
    rw [fle_val a1 b1] at h1
    rw [fle_val b3 a3] at h2
    rw [abs_le] at a2 a4 b2 b4
    constructor <;> linarith

/-- A concrete box: center (3, -2, 1.5), extents (1.5, 3, 1). -/
def exBox : BoundingBox (F32 P) := ⟨⟨exV.x, exV.y, exV.z⟩, ⟨exV.z, exV.x, exV.w⟩⟩
theorem exBox_fin : FinBox (exBox : BoundingBox (F32 P)) ∧ BoundedBy 10 (exBox : BoundingBox (F32 P)) ∧ (∀ i, 0 ≤ ptOf (exBox : BoundingBox (F32 P)).Extents i) := by
  obtain ⟨e0, e1, e2, e3⟩ := exV_vals (P := P)
  have f := exV_fin (P := P) 4
  have e0' : value (exV : V4 (F32 P)).x.bits = 3 := e0
  have e1' : value (exV : V4 (F32 P)).y.bits = -2 := e1
  have e2' : value (exV : V4 (F32 P)).z.bits = 3/2 := e2
  have e3' : value (exV : V4 (F32 P)).w.bits = 1 := e3
  refine ⟨⟨⟨f 0 (by decide), f 1 (by decide), f 2 (by decide)⟩, f 2 (by decide), f 0 (by decide), f 3 (by decide)⟩, ?_, ?_⟩
  · intro i; fin_cases i <;> simp [exBox, ptOf, e0', e1', e2', e3'] <;> norm_num
  · intro i; fin_cases i <;> simp [exBox, ptOf, e0', e1', e2', e3'] <;> norm_num
/-- The hypotheses of C96 on a concrete box and point. -/
example : FinBox (exBox : BoundingBox (F32 P)) ∧ Fins 3 (exV : V4 (F32 P)) ∧ ptOf ⟨(exV : V4 (F32 P)).x, exV.y, exV.z⟩ ∈ boxSet (exBox : BoundingBox (F32 P)) := by
  refine ⟨exBox_fin.1, exV_fin 3, fun i => ?_⟩
  show |ptOf _ i - ptOf _ i| ≤ _
  simp only [exBox, sub_self, abs_zero]
  exact exBox_fin.2.2 i

end DXM.Props
