import Verif.Props.FloatCollision

/-
Bounding boxes built on binary32 lanes (interpretation I): the result bounds its inputs up to the rounding error, and not exactly.
-/

set_option linter.all false

namespace DXM.Props
open DXM.Spec DXM.FErr DXM.IEEE DXM.RG
variable {P : Env}

theorem val_half : val (Lane.ofBits 0x3F000000#32 : F32 P) = 1/2 := by
  show value 0x3F000000#32 = 1/2
  have e1 : signBit 0x3F000000#32 = false := by decide
  have e2 : expField 0x3F000000#32 = 126 := by decide
  have e3 : fracField 0x3F000000#32 = 0 := by decide
  unfold value; rw [e1, e2, e3]; norm_num
theorem fin_half : Fin' (Lane.ofBits 0x3F000000#32 : F32 P) := by show IsFinite 0x3F000000#32; decide

theorem flt_val {a b : F32 P} (ha : Fin' a) (hb : Fin' b) : Lane.lt a b = true ↔ val a < val b := by
  rw [lt_iff']; unfold FLt
  rw [evalue_finite ha, evalue_finite hb, EReal.coe_lt_coe_iff]
  have := not_nan_of_finite ha; have := not_nan_of_finite hb; tauto
theorem min_val {a b : F32 P} (ha : Fin' a) (hb : Fin' b) : Fin' (Lane.minps a b) ∧ val (Lane.minps a b) = min (val a) (val b) := by
  unfold Lane.minps
  by_cases h : Lane.lt a b = true
  · rw [if_pos h]; rw [flt_val ha hb] at h; exact ⟨ha, (min_eq_left h.le).symm⟩
  · rw [if_neg h]; rw [flt_val ha hb, not_lt] at h; exact ⟨hb, (min_eq_right h).symm⟩
theorem max_val {a b : F32 P} (ha : Fin' a) (hb : Fin' b) : Fin' (Lane.maxps a b) ∧ val (Lane.maxps a b) = max (val a) (val b) := by
  unfold Lane.maxps
  by_cases h : Lane.lt b a = true
  · rw [if_pos h]; rw [flt_val hb ha] at h; exact ⟨ha, (max_eq_left h.le).symm⟩
  · rw [if_neg h]; rw [flt_val hb ha, not_lt] at h; exact ⟨hb, (max_eq_right h).symm⟩

/-- The three lanes that a store keeps. -/
abbrev xyz (V : V4 (F32 P)) : F3 (F32 P) := ⟨V.x, V.y, V.z⟩

/-- Center and extents computed from two corners. -/
theorem mid_err (c : Cfg) (m M : V4 (F32 P)) (hm : Fin3 (xyz m)) (hM : Fin3 (xyz M)) (R : ℝ) (hR : R ≤ 2^125)
    (bm : ∀ i, |ptOf (xyz m) i| ≤ R) (bM : ∀ i, |ptOf (xyz M) i| ≤ R) :
    let B : BoundingBox (F32 P) := { Center := store3 (XMVectorScale c (XMVectorAdd m M) Lane.cHalf), Extents := store3 (XMVectorScale c (XMVectorSubtract M m) Lane.cHalf) }
    FinBox B ∧ ∀ i, |ptOf B.Center i - (ptOf (xyz m) i + ptOf (xyz M) i) / 2| ≤ gam 2 * (R + tiny) ∧
      |ptOf B.Extents i - (ptOf (xyz M) i - ptOf (xyz m) i) / 2| ≤ gam 2 * (R + tiny) := by
  intro B
  have hR0 : 0 ≤ R := (abs_nonneg _).trans (bm 0)
  have ht := tiny_pos
  have h1 : tiny ≤ 1 := by unfold tiny; norm_num
  have key : ∀ i, (Fin' (F3.lane B.Center i) ∧ |val (F3.lane B.Center i) - (ptOf (xyz m) i + ptOf (xyz M) i) / 2| ≤ gam 2 * (R + tiny)) ∧
      (Fin' (F3.lane B.Extents i) ∧ |val (F3.lane B.Extents i) - (ptOf (xyz M) i - ptOf (xyz m) i) / 2| ≤ gam 2 * (R + tiny)) := by
    intro i
    have b1 := bm i; have b2 := bM i
    have f1 := fin3_lane hm i; have f2 := fin3_lane hM i
    rw [ptOf_lane] at b1 b2 ⊢
    rw [ptOf_lane]
    set x := F3.lane (xyz m) i with hx
    set y := F3.lane (xyz M) i with hy
    have eC : F3.lane B.Center i = Lane.mul (Lane.add x y) Lane.cHalf ∨ F3.lane B.Center i = Lane.mul Lane.cHalf (Lane.add x y) := by
      simp only [B, XMVectorScale]
      by_cases hs : c.sse = true
      · rw [if_pos hs]; right; fin_cases i <;> rfl
      · rw [if_neg hs]; left; fin_cases i <;> rfl
    have eE : F3.lane B.Extents i = Lane.mul (Lane.sub y x) Lane.cHalf ∨ F3.lane B.Extents i = Lane.mul Lane.cHalf (Lane.sub y x) := by
      simp only [B, XMVectorScale]
      by_cases hs : c.sse = true
      · rw [if_pos hs]; right; fin_cases i <;> rfl
      · rw [if_neg hs]; left; fin_cases i <;> rfl
    clear_value x y
    have hh := leaf (fin_half (P := P))
    rw [val_half] at hh
    have hb : |(1/2 : ℝ)| ≤ 2^127 := by norm_num
    have hs : |val x| + |val y| ≤ 2^127 := by linarith
    have hs' : |val y| + |val x| ≤ 2^127 := by linarith
    have a1 := (leaf f1).add (leaf f2)
    have a2 := (leaf f2).sub (leaf f1)
    have hab : |(1/2:ℝ)| = 1/2 := by norm_num
    have fin : ∀ {z : F32 P} {v M : ℝ}, Ap z v M 2 → M ≤ R + tiny → Fin' z ∧ |val z - v| ≤ gam 2 * (R + tiny) := by
      intro z v M h hM
      exact (h.le rfl hM le_rfl (by norm_num)).2.2 (by linarith)
    constructor
    · rcases eC with e | e <;> rw [e]
      · have := a1.mul hh hs hb
        rw [hab] at this
        have := fin (this.le rfl le_rfl (by norm_num)) (by linarith)
        rwa [mul_one_div] at this
      · have := hh.mul a1 hb hs
        rw [hab] at this
        have := fin (this.le rfl le_rfl (by norm_num)) (by linarith)
        rwa [mul_comm, mul_one_div] at this
    · rcases eE with e | e <;> rw [e]
      · have := a2.mul hh hs' hb
        rw [hab] at this
        have := fin (this.le rfl le_rfl (by norm_num)) (by linarith)
        rwa [mul_one_div] at this
      · have := hh.mul a2 hb hs'
        rw [hab] at this
        have := fin (this.le rfl le_rfl (by norm_num)) (by linarith)
        rwa [mul_comm, mul_one_div] at this
  refine ⟨⟨⟨(key 0).1.1, (key 1).1.1, (key 2).1.1⟩, (key 0).2.1, (key 1).2.1, (key 2).2.1⟩, fun i => ?_⟩
  rw [ptOf_lane B.Center, ptOf_lane B.Extents]
  exact ⟨(key i).1.2, (key i).2.2⟩


/-- What the corners of the loop satisfy: finite, of size at most `R`, around every point seen. -/
structure Around (R : ℝ) (m M : V4 (F32 P)) (ps : List (F3 (F32 P))) : Prop where
  fm : Fin3 (xyz m)
  fM : Fin3 (xyz M)
  bm : ∀ i, |ptOf (xyz m) i| ≤ R
  bM : ∀ i, |ptOf (xyz M) i| ≤ R
  ar : ∀ p ∈ ps, ∀ i, ptOf (xyz m) i ≤ ptOf p i ∧ ptOf p i ≤ ptOf (xyz M) i

theorem abs_min_le {a b R : ℝ} (ha : |a| ≤ R) (hb : |b| ≤ R) : |min a b| ≤ R := by
  rcases min_choice a b with h | h <;> rw [h] <;> assumption
theorem abs_max_le {a b R : ℝ} (ha : |a| ≤ R) (hb : |b| ≤ R) : |max a b| ≤ R := by
  rcases max_choice a b with h | h <;> rw [h] <;> assumption

theorem xyz_min {A B : V4 (F32 P)} (hA : Fin3 (xyz A)) (hB : Fin3 (xyz B)) :
    Fin3 (xyz (XMVectorMin A B)) ∧ ∀ i, ptOf (xyz (XMVectorMin A B)) i = min (ptOf (xyz A) i) (ptOf (xyz B) i) := by
  refine ⟨⟨(min_val hA.1 hB.1).1, (min_val hA.2.1 hB.2.1).1, (min_val hA.2.2 hB.2.2).1⟩, fun i => ?_⟩
  fin_cases i
  · exact (min_val hA.1 hB.1).2
  · exact (min_val hA.2.1 hB.2.1).2
  · exact (min_val hA.2.2 hB.2.2).2
theorem xyz_max {A B : V4 (F32 P)} (hA : Fin3 (xyz A)) (hB : Fin3 (xyz B)) :
    Fin3 (xyz (XMVectorMax A B)) ∧ ∀ i, ptOf (xyz (XMVectorMax A B)) i = max (ptOf (xyz A) i) (ptOf (xyz B) i) := by
  refine ⟨⟨(max_val hA.1 hB.1).1, (max_val hA.2.1 hB.2.1).1, (max_val hA.2.2 hB.2.2).1⟩, fun i => ?_⟩
  fin_cases i
  · exact (max_val hA.1 hB.1).2
  · exact (max_val hA.2.1 hB.2.1).2
  · exact (max_val hA.2.2 hB.2.2).2

theorem around_fold (R : ℝ) (qs : List (F3 (F32 P))) : ∀ (m M : V4 (F32 P)) (ps : List (F3 (F32 P))), Around R m M ps →
    (∀ p ∈ qs, Fin3 p ∧ ∀ i, |ptOf p i| ≤ R) →
    let r := (qs.map load3).foldl (fun (m : V4 (F32 P) × V4 (F32 P)) Point => (XMVectorMin m.1 Point, XMVectorMax m.2 Point)) (m, M)
    Around R r.1 r.2 (qs ++ ps) := by
  induction qs with
  | nil => intro m M ps h _; exact h
  | cons q qs ih =>
    intro m M ps h hq
    simp only [List.map_cons, List.foldl_cons]
    obtain ⟨fq, bq⟩ := hq q (by simp)
    obtain ⟨m1, m2⟩ := xyz_min h.fm (B := load3 q) fq
    obtain ⟨M1, M2⟩ := xyz_max h.fM (B := load3 q) fq
    have e : ∀ i, ptOf (xyz (load3 q)) i = ptOf q i := fun i => rfl
    have := ih (XMVectorMin m (load3 q)) (XMVectorMax M (load3 q)) (q :: ps)
      ⟨m1, M1, fun i => by rw [m2]; exact abs_min_le (h.bm i) (bq i), fun i => by rw [M2]; exact abs_max_le (h.bM i) (bq i), ?_⟩
      (fun p hp => hq p (by simp [hp]))
    · refine ⟨this.fm, this.fM, this.bm, this.bM, fun p hp => this.ar p ?_⟩
      simp at hp ⊢; tauto
    · intro p hp i
      rw [m2, M2, e]
      rcases List.mem_cons.1 hp with rfl | hp
      · exact ⟨min_le_right _ _, le_max_right _ _⟩
      · exact ⟨(min_le_left _ _).trans (h.ar p hp i).1, (h.ar p hp i).2.trans (le_max_left _ _)⟩

/-- C97: the box built from finite points of coordinates at most `R` contains every point once its extents are enlarged by
`2 gam 2 (R + tiny) ≈ 2^-22 R`; nothing overflows. -/
theorem C97_fromPoints (c : Cfg) (ps : List (F3 (F32 P))) (hne : ps ≠ []) (R : ℝ) (hR : R ≤ 2^125) (h : ∀ p ∈ ps, Fin3 p ∧ ∀ i, |ptOf p i| ≤ R) :
    let B := BoundingBox.CreateFromPoints c ps
    FinBox B ∧ ∀ p ∈ ps, ptOf p ∈ inflate B (2 * (gam 2 * (R + tiny))) := by
  intro B
  obtain ⟨p, qs, rfl⟩ := List.exists_cons_of_ne_nil hne
  have h0 : Around R (load3 p) (load3 p) [p] := by
    obtain ⟨f, b⟩ := h p (by simp)
    refine ⟨f, f, b, b, fun q hq i => ?_⟩
    rw [List.mem_singleton] at hq; subst hq; exact ⟨le_rfl, le_rfl⟩
  have ha := around_fold R qs _ _ _ h0 (fun q hq => h q (by simp [hq]))
  have hB := mid_err c _ _ ha.fm ha.fM R hR ha.bm ha.bM
  refine ⟨hB.1, fun q hq i => ?_⟩
  obtain ⟨h1, h2⟩ := ha.ar q (by simp at hq ⊢; tauto) i
  obtain ⟨g1, g2⟩ := hB.2 i
  show |ptOf q i - ptOf B.Center i| ≤ ptOf B.Extents i + _
  have g1' : |ptOf B.Center i - _| ≤ _ := g1
  have g2' : |ptOf B.Extents i - _| ≤ _ := g2
  rw [abs_le] at g1' g2' ⊢
  constructor <;> linarith

/-- C97: the box merged from two boxes contains both once its extents are enlarged by `2 gam 2 (M + tiny) + ... ≈ 3 · 2^-23 M`. -/
theorem C97_merged (c : Cfg) (A B : BoundingBox (F32 P)) (hA : FinBox A) (hB : FinBox B) (M : ℝ) (hM : M ≤ 2^124) (bA : BoundedBy M A) (bB : BoundedBy M B) :
    let D := BoundingBox.CreateMerged c A B
    FinBox D ∧ boxSet A ⊆ inflate D (3 * (gam 2 * (2 * M + tiny))) ∧ boxSet B ⊆ inflate D (3 * (gam 2 * (2 * M + tiny))) := by
  intro D
  have hM0 : 0 ≤ M := le_trans (by positivity) (bA 0)
  have hM' : M ≤ 2^127 := by linarith
  have hu := u_pos
  have hu1 : ulp2 ≤ 1 := by unfold ulp2; norm_num
  have ht := tiny_pos
  have hg : ulp2 ≤ gam 2 := by unfold gam ulp2; norm_num
  have sz : ∀ (x a e : ℝ), |x - (a - e)| ≤ ulp2 * M → |a| + |e| ≤ M → |x| ≤ 2 * M := by
    intro x a e h1 h2
    have := abs_sub_abs_le_abs_sub x (a - e)
    have := abs_sub a e
    nlinarith
  have sz' : ∀ (x a e : ℝ), |x - (a + e)| ≤ ulp2 * M → |a| + |e| ≤ M → |x| ≤ 2 * M := by
    intro x a e h1 h2
    have := abs_sub_abs_le_abs_sub x (a + e)
    have := abs_add_le a e
    nlinarith
  set lA := XMVectorSubtract (load3 A.Center) (load3 A.Extents) with hlA
  set lB := XMVectorSubtract (load3 B.Center) (load3 B.Extents) with hlB
  set uA := XMVectorAdd (load3 A.Center) (load3 A.Extents) with huA
  set uB := XMVectorAdd (load3 B.Center) (load3 B.Extents) with huB
  have eD : D = { Center := store3 (XMVectorScale c (XMVectorAdd (XMVectorMin lA lB) (XMVectorMax uA uB)) Lane.cHalf), Extents := store3 (XMVectorScale c (XMVectorSubtract (XMVectorMax uA uB) (XMVectorMin lA lB)) Lane.cHalf) } := rfl
  have elA : ∀ i, F3.lane (xyz lA) i = lo A i := by intro i; fin_cases i <;> rfl
  have elB : ∀ i, F3.lane (xyz lB) i = lo B i := by intro i; fin_cases i <;> rfl
  have euA : ∀ i, F3.lane (xyz uA) i = hi A i := by intro i; fin_cases i <;> rfl
  have euB : ∀ i, F3.lane (xyz uB) i = hi B i := by intro i; fin_cases i <;> rfl
  clear_value lA lB uA uB
  have f3 : ∀ {V : V4 (F32 P)}, (∀ i, Fin' (F3.lane (xyz V) i)) → Fin3 (xyz V) := fun h => ⟨h 0, h 1, h 2⟩
  have flA : Fin3 (xyz lA) := f3 fun i => by rw [elA]; exact (lo_err hA i hM' bA).1
  have flB : Fin3 (xyz lB) := f3 fun i => by rw [elB]; exact (lo_err hB i hM' bB).1
  have fuA : Fin3 (xyz uA) := f3 fun i => by rw [euA]; exact (hi_err hA i hM' bA).1
  have fuB : Fin3 (xyz uB) := f3 fun i => by rw [euB]; exact (hi_err hB i hM' bB).1
  obtain ⟨m1, m2⟩ := xyz_min flA flB
  obtain ⟨M1, M2⟩ := xyz_max fuA fuB
  have key := mid_err c _ _ m1 M1 (2 * M) (by linarith)
    (fun i => by
      rw [m2, ptOf_lane, ptOf_lane, elA, elB]
      exact abs_min_le (sz _ _ _ (lo_err hA i hM' bA).2 (bA i)) (sz _ _ _ (lo_err hB i hM' bB).2 (bB i)))
    (fun i => by
      rw [M2, ptOf_lane, ptOf_lane, euA, euB]
      exact abs_max_le (sz' _ _ _ (hi_err hA i hM' bA).2 (bA i)) (sz' _ _ _ (hi_err hB i hM' bB).2 (bB i)))
  rw [← eD] at key
  refine ⟨key.1, ?_, ?_⟩
  all_goals
    intro p hp i
    obtain ⟨g1, g2⟩ := key.2 i
    rw [m2, M2, ptOf_lane (xyz lA), ptOf_lane (xyz lB), ptOf_lane (xyz uA), ptOf_lane (xyz uB), elA, elB, euA, euB] at g1 g2
    have k1 := (lo_err hA i hM' bA).2
    have k2 := (lo_err hB i hM' bB).2
    have k3 := (hi_err hA i hM' bA).2
    have k4 := (hi_err hB i hM' bB).2
    have hp' := (mem_box.1 hp i)
    have hs : ulp2 * M ≤ gam 2 * (2 * M + tiny) := by nlinarith
    rw [abs_le] at g1 g2 k1 k2 k3 k4
    have n1 := min_le_left (val (lo A i)) (val (lo B i)); have n2 := min_le_right (val (lo A i)) (val (lo B i))
    have n3 := le_max_left (val (hi A i)) (val (hi B i)); have n4 := le_max_right (val (hi A i)) (val (hi B i))
    show |p i - ptOf D.Center i| ≤ ptOf D.Extents i + _
    rw [abs_le]
    constructor <;> linarith


theorem add_c {a b r : BitVec 32} (h : isNaN a = false ∧ isNaN b = false ∧ isInf a = false ∧ isInf b = false ∧ roundI (sg a && sg b) (ival a + ival b) 1 = r) :
    (Lane.add (F32.ofBV a) (F32.ofBV b) : F32 P) = F32.ofBV r := by
  show add P a b = r
  unfold add addCore; obtain ⟨h1, h2, h3, h4, h5⟩ := h; simp [h1, h2, h3, h4, h5]
theorem sub_c {a b r : BitVec 32} (h : isNaN a = false ∧ isNaN b = false ∧ isInf a = false ∧ isInf (neg b) = false ∧ roundI (sg a && sg (neg b)) (ival a + ival (neg b)) 1 = r) :
    (Lane.sub (F32.ofBV a) (F32.ofBV b) : F32 P) = F32.ofBV r := by
  show sub P a b = r
  unfold sub addCore; obtain ⟨h1, h2, h3, h4, h5⟩ := h; simp [h1, h2, h3, h4, h5]
theorem mul_c {a b r : BitVec 32} (h : isNaN a = false ∧ isNaN b = false ∧ isInf a = false ∧ isInf b = false ∧ mk (sg a != sg b) (roundN (mag a * mag b) (2^149)) = r) :
    (Lane.mul (F32.ofBV a) (F32.ofBV b) : F32 P) = F32.ofBV r := by
  show mul P a b = r
  unfold mul; obtain ⟨h1, h2, h3, h4, h5⟩ := h; rw [h1, h2, h3, h4, ← h5]; rfl

/-- The points (1, 1, 1) and (2^24, 2^24, 2^24). -/
def ptsBad : List (F3 (F32 P)) :=
  [⟨F32.ofBV 0x3F800000#32, F32.ofBV 0x3F800000#32, F32.ofBV 0x3F800000#32⟩, ⟨F32.ofBV 0x4B800000#32, F32.ofBV 0x4B800000#32, F32.ofBV 0x4B800000#32⟩]

/-- The hypotheses of C97 on two concrete points and a concrete box. -/
example : ∃ ps : List (F3 (F32 P)), ps.length = 2 ∧ (∀ p ∈ ps, Fin3 p ∧ ∀ i, |ptOf p i| ≤ 10) ∧ FinBox (exBox : BoundingBox (F32 P)) ∧ BoundedBy 10 (exBox : BoundingBox (F32 P)) := by
  obtain ⟨h1, h2, h3⟩ := exBox_fin (P := P)
  refine ⟨[exBox.Center, exBox.Extents], rfl, fun p hp => ?_, h1, h2⟩
  simp at hp
  rcases hp with rfl | rfl
  · exact ⟨h1.1, fun i => le_trans (le_add_of_nonneg_right (abs_nonneg _)) (h2 i)⟩
  · exact ⟨h1.2, fun i => le_trans (le_add_of_nonneg_left (abs_nonneg _)) (h2 i)⟩

/-- C97: the box built from the points (1,1,1) and (2^24,2^24,2^24) has center 2^23 and extents 2^23 - 1/2 along each axis: it does not contain the
second point, and the containment test says so. -/
theorem C97_fromPoints_fails (c : Cfg) : ∃ ps : List (F3 (F32 P)), ∃ p ∈ ps, (∀ q ∈ ps, Fin3 q) ∧
    BoundingBox.ContainsPoint c (BoundingBox.CreateFromPoints c ps) (load3 p) = .DISJOINT ∧
    ptOf p ∉ boxSet (BoundingBox.CreateFromPoints c ps) := by
  have hB : BoundingBox.CreateFromPoints c (ptsBad : List (F3 (F32 P))) =
      ⟨⟨F32.ofBV 0x4B000000#32, F32.ofBV 0x4B000000#32, F32.ofBV 0x4B000000#32⟩, ⟨F32.ofBV 0x4AFFFFFF#32, F32.ofBV 0x4AFFFFFF#32, F32.ofBV 0x4AFFFFFF#32⟩⟩ := by
    have l1 : Lane.lt (F32.ofBV 0x3F800000#32 : F32 P) (F32.ofBV 0x4B800000#32) = true := by show lt 0x3F800000#32 0x4B800000#32 = true; decide +kernel
    have a1 : (Lane.add (F32.ofBV 0x3F800000#32) (F32.ofBV 0x4B800000#32) : F32 P) = F32.ofBV 0x4B800000#32 := add_c (by decide +kernel)
    have s1 : (Lane.sub (F32.ofBV 0x4B800000#32) (F32.ofBV 0x3F800000#32) : F32 P) = F32.ofBV 0x4B7FFFFF#32 := sub_c (by decide +kernel)
    have m1 : (Lane.mul (F32.ofBV 0x4B800000#32) (F32.ofBV 0x3F000000#32) : F32 P) = F32.ofBV 0x4B000000#32 := mul_c (by decide +kernel)
    have m2 : (Lane.mul (F32.ofBV 0x3F000000#32) (F32.ofBV 0x4B800000#32) : F32 P) = F32.ofBV 0x4B000000#32 := mul_c (by decide +kernel)
    have m3 : (Lane.mul (F32.ofBV 0x4B7FFFFF#32) (F32.ofBV 0x3F000000#32) : F32 P) = F32.ofBV 0x4AFFFFFF#32 := mul_c (by decide +kernel)
    have m4 : (Lane.mul (F32.ofBV 0x3F000000#32) (F32.ofBV 0x4B7FFFFF#32) : F32 P) = F32.ofBV 0x4AFFFFFF#32 := mul_c (by decide +kernel)
    have hh : (Lane.cHalf : F32 P) = F32.ofBV 0x3F000000#32 := rfl
    have n1 : Lane.minps (F32.ofBV 0x3F800000#32 : F32 P) (F32.ofBV 0x4B800000#32) = F32.ofBV 0x3F800000#32 := by unfold Lane.minps; rw [if_pos l1]
    have n2 : Lane.maxps (F32.ofBV 0x3F800000#32 : F32 P) (F32.ofBV 0x4B800000#32) = F32.ofBV 0x4B800000#32 := by
      unfold Lane.maxps
      rw [if_neg]; show ¬ lt 0x4B800000#32 0x3F800000#32 = true; decide +kernel
    simp only [BoundingBox.CreateFromPoints, BoundingBox.minMax, ptsBad, List.map, List.foldl, load3, XMVectorMin, XMVectorMax, SSE.min, SSE.max, V4.map2, n1, n2, XMVectorAdd, XMVectorSubtract,
      SSE.add, SSE.sub, a1, s1, XMVectorScale, hh]
    by_cases hs : c.sse = true
    · rw [if_pos hs, if_pos hs]; simp only [SSE.mul, V4.map2, V4.splat, m2, m4, store3]
    · rw [if_neg hs, if_neg hs]; simp only [SSE.mul, V4.map2, V4.splat, m1, m3, store3]
  have v1 : value 0x4B800000#32 = 2^24 := by
    have e1 : signBit 0x4B800000#32 = false := by decide
    have e2 : expField 0x4B800000#32 = 151 := by decide
    have e3 : fracField 0x4B800000#32 = 0 := by decide
    unfold value; rw [e1, e2, e3]; norm_num
  have v2 : value 0x4B000000#32 = 2^23 := by
    have e1 : signBit 0x4B000000#32 = false := by decide
    have e2 : expField 0x4B000000#32 = 150 := by decide
    have e3 : fracField 0x4B000000#32 = 0 := by decide
    unfold value; rw [e1, e2, e3]; norm_num
  have v3 : value 0x4AFFFFFF#32 = 2^23 - 1/2 := by
    have e1 : signBit 0x4AFFFFFF#32 = false := by decide
    have e2 : expField 0x4AFFFFFF#32 = 149 := by decide
    have e3 : fracField 0x4AFFFFFF#32 = 8388607 := by decide
    unfold value; rw [e1, e2, e3]; norm_num
  have s2 : (Lane.sub (F32.ofBV 0x4B800000#32) (F32.ofBV 0x4B000000#32) : F32 P) = F32.ofBV 0x4B000000#32 := sub_c (by decide +kernel)
  refine ⟨ptsBad, ⟨F32.ofBV 0x4B800000#32, F32.ofBV 0x4B800000#32, F32.ofBV 0x4B800000#32⟩, by simp [ptsBad], ?_, ?_, ?_⟩
  · intro q hq
    simp only [ptsBad, List.mem_cons, List.mem_nil_iff, or_false] at hq
    rcases hq with rfl | rfl
    · exact ⟨by show IsFinite 0x3F800000#32; decide, by show IsFinite 0x3F800000#32; decide, by show IsFinite 0x3F800000#32; decide⟩
    · exact ⟨by show IsFinite 0x4B800000#32; decide, by show IsFinite 0x4B800000#32; decide, by show IsFinite 0x4B800000#32; decide⟩
  · rw [hB]
    have : ¬ XMVector3InBounds c (XMVectorSubtract (load3 (⟨F32.ofBV 0x4B800000#32, F32.ofBV 0x4B800000#32, F32.ofBV 0x4B800000#32⟩ : F3 (F32 P)))
        (load3 ⟨F32.ofBV 0x4B000000#32, F32.ofBV 0x4B000000#32, F32.ofBV 0x4B000000#32⟩)) (load3 ⟨F32.ofBV 0x4AFFFFFF#32, F32.ofBV 0x4AFFFFFF#32, F32.ofBV 0x4AFFFFFF#32⟩) = true := by
      rw [(C11_predicates c _ (load3 ⟨F32.ofBV 0x4B000000#32, F32.ofBV 0x4B000000#32, F32.ofBV 0x4B000000#32⟩) _).2.2.2.2.1, all_lanes3]
      intro h
      have h0 := (h 0).2.2.2
      have e : (F3.lane (⟨(XMVectorSubtract (load3 (⟨F32.ofBV 0x4B800000#32, F32.ofBV 0x4B800000#32, F32.ofBV 0x4B800000#32⟩ : F3 (F32 P)))
        (load3 ⟨F32.ofBV 0x4B000000#32, F32.ofBV 0x4B000000#32, F32.ofBV 0x4B000000#32⟩)).x, (XMVectorSubtract (load3 (⟨F32.ofBV 0x4B800000#32, F32.ofBV 0x4B800000#32, F32.ofBV 0x4B800000#32⟩ : F3 (F32 P)))
        (load3 ⟨F32.ofBV 0x4B000000#32, F32.ofBV 0x4B000000#32, F32.ofBV 0x4B000000#32⟩)).y, (XMVectorSubtract (load3 (⟨F32.ofBV 0x4B800000#32, F32.ofBV 0x4B800000#32, F32.ofBV 0x4B800000#32⟩ : F3 (F32 P)))
        (load3 ⟨F32.ofBV 0x4B000000#32, F32.ofBV 0x4B000000#32, F32.ofBV 0x4B000000#32⟩)).z⟩ : F3 (F32 P)) 0).bits = 0x4B000000#32 := by
          show (Lane.sub (F32.ofBV 0x4B800000#32) (F32.ofBV 0x4B000000#32) : F32 P).bits = _
          rw [s2]; rfl
      rw [e] at h0
      have h0' : evalue 0x4B000000#32 ≤ evalue 0x4AFFFFFF#32 := h0
      rw [evalue_finite (by decide), evalue_finite (by decide), EReal.coe_le_coe_iff, v2, v3] at h0'
      linarith
    unfold BoundingBox.ContainsPoint
    exact if_neg this
  · rw [hB]
    intro h
    have := h 0
    have e : |value 0x4B800000#32 - value 0x4B000000#32| ≤ value 0x4AFFFFFF#32 := this
    rw [v1, v2, v3] at e
    norm_num at e

end DXM.Props
