import Verif.Props.FloatObbSphere

/-
C137: the CONTAINS answer of boxes and oriented boxes about spheres on binary32 lanes.
-/

set_option linter.all false

namespace DXM.Props
open DXM.Spec DXM.FErr DXM.IEEE DXM.RG
open scoped Quaternion
variable {P : Env}

namespace CSph
theorem near_abs {x y e : ℝ} (h : |x - y| ≤ ulp2 * |y|) : (|y| ≤ (1 - 1/2^23) * e → |x| ≤ e) ∧ (|x| ≤ e → |y| ≤ (1 + 1/2^23) * e) := by
  have h1 := abs_sub_abs_le_abs_sub x y
  have h2 := abs_sub_abs_le_abs_sub y x
  rw [abs_sub_comm y x] at h2
  have hy := abs_nonneg y
  have hx := abs_nonneg x
  have hu : ulp2 = 1/2^24 := by unfold ulp2; norm_num
  rw [hu] at h
  constructor
  · intro k; norm_num at *; linarith
  · intro k; norm_num at *; linarith
theorem rad {r : F32 P} (f : Fin' r) (hr : 1 / 2^50 ≤ val r) (hr' : val r ≤ 2^60) :
    Fin' (Lane.mul r r) ∧ |val (Lane.mul r r) - val r * val r| ≤ gam 3 * (val r * val r + tiny) ∧ 1 / 2^100 ≤ val r * val r := by
  have p50 : (0:ℝ) < 1/2^50 := by positivity
  have hR : Fin' (Lane.mul r r) ∧ |val (Lane.mul r r) - val r * val r| ≤ gam 3 * (val r * val r + tiny) := by
    have := (mulL f f).le rfl le_rfl (show 1 ≤ 3 by norm_num) (by norm_num)
    have h2 := this.2.2 (by
      change |val r * val r| + tiny ≤ _
      have ht1 : tiny ≤ 1 := by unfold tiny; norm_num
      rw [abs_of_nonneg (mul_self_nonneg (val r))]
      nlinarith)
    change Fin' _ ∧ |_ - val r * val r| ≤ gam 3 * (|val r * val r| + tiny) at h2
    rwa [abs_of_nonneg (mul_self_nonneg (val r))] at h2
  refine ⟨hR.1, hR.2, ?_⟩
  have : (1:ℝ) / 2^100 = (1/2^50) * (1/2^50) := by norm_num
  rw [this]; exact mul_self_le_mul_self (by positivity) hr
theorem gap_zero {l h s : ℝ} (h1 : l ≤ s) (h2 : s ≤ h) : BoxSph.gap l h s = 0 := by
  unfold BoxSph.gap; rw [if_neg (not_lt.2 h2), if_neg (not_lt.2 h1)]
theorem abs_pm {t r e : ℝ} (hr : 0 ≤ r) : (|t - r| ≤ e ∧ |t + r| ≤ e) ↔ |t| + r ≤ e := by
  constructor
  · rintro ⟨h1, h2⟩
    rcases abs_cases t with ⟨a, b⟩ | ⟨a, b⟩ <;> rw [a] <;> linarith [(abs_le.1 h1).1, (abs_le.1 h2).2]
  · intro h
    have := abs_sub t r; have := abs_add_le t r
    rw [abs_of_nonneg hr] at *
    constructor <;> linarith
/-- A ball inside an oriented box, in the coordinates of the box. -/
theorem ball_in {u : ℍ[ℝ]} (hu : Quaternion.normSq u = 1) {C E s : Pt} {r : ℝ} (hr : 0 ≤ r) : ball s r ⊆ obox C E u ↔ ∀ i, |rot (star u) (s - C) i| + r ≤ E i := by
  rw [loc_subset hu (fun p => mem_ball_loc hu (a := C)) (fun p => mem_obox hu), ball_subset_box _ _ _ _ hr]
  refine forall_congr' fun i => ?_
  rw [Pi.zero_apply]
  generalize rot (star u) (s - C) i = t
  constructor
  · rintro ⟨h1, h2⟩; rcases abs_cases t with ⟨a, b⟩ | ⟨a, b⟩ <;> rw [a] <;> linarith
  · intro h; have := neg_abs_le t; have := le_abs_self t; constructor <;> linarith
end CSph

/-- C137: a ball inside the oriented box with the extents reduced by the relative amount 2^-23 and by 17 millionths of the distance is reported CONTAINS; a ball
reported CONTAINS is inside the box with the extents enlarged by these amounts. -/
theorem C137_orientedBox (c : Cfg) (O : BoundingOrientedBox (F32 P)) (S : BoundingSphere (F32 P)) (u : ℍ[ℝ]) (N : ℝ) (hc : Fin3 O.Center) (he : Fin3 O.Extents) (ho : Fins 4 O.Orientation) (hS : FinSphere S)
    (mE : Moderate O.Extents) (hu : Quaternion.normSq u = 1) (hq : QClose (quatOf O.Orientation) u (1/10^6))
    (hN : ∀ i, |ptOf S.Center i - ptOf O.Center i| ≤ N) (hN' : N ≤ 2^58) (hr : 1 / 2^50 ≤ value S.Radius.bits) (hr' : value S.Radius.bits ≤ 2^60) :
    (ball (ptOf S.Center) (value S.Radius.bits) ⊆ obox (ptOf O.Center) (fun i => (1 - 1/2^23) * ptOf O.Extents i - (17/10^6 * N + 1/10^40)) u → O.ContainsSphere c S = .CONTAINS) ∧
    (O.ContainsSphere c S = .CONTAINS → ball (ptOf S.Center) (value S.Radius.bits) ⊆ obox (ptOf O.Center) (fun i => (1 + 1/2^23) * ptOf O.Extents i + (17/10^6 * N + 1/10^40)) u) := by
  set r := value S.Radius.bits with hrr
  have p50 : (0:ℝ) < 1/2^50 := by positivity
  have r0 : 0 ≤ r := p50.le.trans hr
  have N0 : 0 ≤ N := (abs_nonneg _).trans (hN 0)
  have f3 : ∀ p : F3 (F32 P), Fin3 p → Fins 3 (load3 p : V4 (F32 P)) := by
    intro p hp i hi
    fin_cases i
    · exact hp.1
    · exact hp.2.1
    · exact hp.2.2
    · exact absurd hi (by decide)
  obtain ⟨hT, hL⟩ := Loc.coords c (load3 S.Center) (load3 O.Center) O.Orientation u N (f3 _ hS.1) (f3 _ hc) ho hu hq hN (hN'.trans (by norm_num))
  set T := XMVector3InverseRotate c (XMVectorSubtract (load3 S.Center) (load3 O.Center)) O.Orientation with hTT
  set m := 17/10^6 * N + 1/10^40 with hm
  have m0 : 0 ≤ m := by positivity
  set l := rot (star u) (ptOf S.Center - ptOf O.Center) with hl
  have hL' : ∀ i, |axisOf T i - l i| ≤ m := hL
  have bT : ∀ i, |axisOf T i| ≤ 2^60 := fun i => by
    have a := Loc.rot_le hu N0 hN i
    have b := abs_add_le (axisOf T i - l i) (l i); rw [sub_add_cancel] at b
    have d := hL' i
    have e : |l i| ≤ 2 * N := a
    rw [hm] at d
    norm_num at hN' d ⊢
    linarith
  obtain ⟨fR, eR, hR1⟩ := CSph.rad hS.2 hr hr'
  have hd := ObbSph.d2_err c hT he bT mE
  have fl : ∀ i, Fin' (F3.lane (xyz T) i) := fun i => by
    fin_cases i
    · exact hT 0 (by decide)
    · exact hT 1 (by decide)
    · exact hT 2 (by decide)
  have bd : ∀ i, |axisOf T i| + |r| ≤ 2^127 := fun i => by
    have := bT i; rw [abs_of_nonneg r0]; norm_num at *; linarith
  have s1 := fun i => sub_rel (fl i) hS.2 (by have h1 := abs_sub (val (F3.lane (xyz T) i)) r; rw [← Loc.axis_lane] at h1 ⊢; exact h1.trans (bd i))
  have s2 := fun i => add_rel (fl i) hS.2 (by have h1 := abs_add_le (val (F3.lane (xyz T) i)) r; rw [← Loc.axis_lane] at h1 ⊢; exact h1.trans (bd i))
  have inb : ∀ V : V4 (F32 P), (∀ i, Fin' (F3.lane (xyz V) i)) → (XMVector3InBounds c V (load3 O.Extents) = true ↔ ∀ i, |val (F3.lane (xyz V) i)| ≤ ptOf O.Extents i) := by
    intro V hV
    rw [(C11_predicates c _ (load3 O.Extents) (load3 O.Extents)).2.2.2.2.1, all_lanes3]
    refine forall_congr' fun i => ?_
    rw [ptOf_lane, ← Loc.within_fin (hV i) (fin3_lane he i)]
    fin_cases i <;> rfl
  have key : O.ContainsSphere c S = .CONTAINS ↔ ¬ (∀ i : Fin 4, val (Lane.mul S.Radius S.Radius) < val ((XMVector3Dot c (ObbSph.dvec c T (load3 O.Extents)) (ObbSph.dvec c T (load3 O.Extents))).lane i)) ∧
      ∀ i, |val (Lane.sub (F3.lane (xyz T) i) S.Radius)| ≤ ptOf O.Extents i ∧ |val (Lane.add (F3.lane (xyz T) i) S.Radius)| ≤ ptOf O.Extents i := by
    have e : O.ContainsSphere c S = if XMVector4Greater c (XMVector3Dot c (ObbSph.dvec c T (load3 O.Extents)) (ObbSph.dvec c T (load3 O.Extents))) (.splat (Lane.mul S.Radius S.Radius)) = true then .DISJOINT else
      if (XMVector3InBounds c (XMVectorSubtract T (.splat S.Radius)) (load3 O.Extents) && XMVector3InBounds c (XMVectorAdd T (.splat S.Radius)) (load3 O.Extents)) = true then .CONTAINS else .INTERSECTS := rfl
    have k1 := inb (XMVectorSubtract T (.splat S.Radius)) (fun i => by have := (s1 i).1; fin_cases i <;> exact this)
    have k2 := inb (XMVectorAdd T (.splat S.Radius)) (fun i => by have := (s2 i).1; fin_cases i <;> exact this)
    have k3 : XMVector4Greater c (XMVector3Dot c (ObbSph.dvec c T (load3 O.Extents)) (ObbSph.dvec c T (load3 O.Extents))) (.splat (Lane.mul S.Radius S.Radius)) = true ↔
        ∀ i : Fin 4, val (Lane.mul S.Radius S.Radius) < val ((XMVector3Dot c (ObbSph.dvec c T (load3 O.Extents)) (ObbSph.dvec c T (load3 O.Extents))).lane i) := by
      rw [(C09_vector4 c _ _).2.1]
      have q : ∀ i : Fin 4, FLt (Lane.mul S.Radius S.Radius).bits ((XMVector3Dot c (ObbSph.dvec c T (load3 O.Extents)) (ObbSph.dvec c T (load3 O.Extents))).lane i).bits ↔
        val (Lane.mul S.Radius S.Radius) < val ((XMVector3Dot c (ObbSph.dvec c T (load3 O.Extents)) (ObbSph.dvec c T (load3 O.Extents))).lane i) := fun i => by
          rw [← not_le, ← fle_val (hd i).1 fR, not_fle (not_nan_of_finite (hd i).1) (not_nan_of_finite fR)]
      refine ⟨fun h i => (q i).1 (by have := h i i.isLt; fin_cases i <;> exact this), fun h i _ => ?_⟩
      have := (q i).2 (h i); fin_cases i <;> exact this
    rw [e, ← k3]
    have k4 : (XMVector3InBounds c (XMVectorSubtract T (.splat S.Radius)) (load3 O.Extents) && XMVector3InBounds c (XMVectorAdd T (.splat S.Radius)) (load3 O.Extents)) = true ↔
      ∀ i, |val (Lane.sub (F3.lane (xyz T) i) S.Radius)| ≤ ptOf O.Extents i ∧ |val (Lane.add (F3.lane (xyz T) i) S.Radius)| ≤ ptOf O.Extents i := by
      rw [Bool.and_eq_true, k1, k2, ← forall_and]
      exact forall_congr' fun i => by fin_cases i <;> rfl
    rw [← k4]
    split_ifs <;> simp_all
  rw [key, CSph.ball_in hu r0, CSph.ball_in hu r0]
  have n1 := fun i => CSph.near_abs (e := ptOf O.Extents i) (s1 i).2
  have n2 := fun i => CSph.near_abs (e := ptOf O.Extents i) (s2 i).2
  simp only [← Loc.axis_lane] at n1 n2
  constructor
  · intro h
    have ht : ∀ i, |axisOf T i| + r ≤ (1 - 1/2^23) * ptOf O.Extents i := fun i => by
      have a := h i; have b := hL' i
      have d := abs_add_le (axisOf T i - l i) (l i); rw [sub_add_cancel] at d
      change |l i| + r ≤ _ at a
      linarith
    have hin := fun i => (CSph.abs_pm r0).2 (ht i)
    refine ⟨fun hgt => ?_, fun i => ⟨(n1 i).1 (hin i).1, (n2 i).1 (hin i).2⟩⟩
    have e0 : ∀ i, 0 ≤ ptOf O.Extents i := fun i => by
      have a := ht i; have b := abs_nonneg (axisOf T i); norm_num at a; linarith
    have z : ObbSph.gaps T O.Extents = 0 := by
      funext i
      have a := ht i; have b := e0 i
      have k : |axisOf T i| ≤ ptOf O.Extents i := by norm_num at a; linarith
      exact CSph.gap_zero (abs_le.1 k).1 (abs_le.1 k).2
    refine absurd (hgt 0) (not_lt.2 ((cmp_sq (dotSelf (ObbSph.gaps T O.Extents)) hR1 (hd 0).2 eR).1 ?_))
    rw [z, zero_dotProduct]
    have := mul_self_nonneg (val S.Radius)
    positivity
  · rintro ⟨-, h⟩ i
    have a := (CSph.abs_pm r0).1 ⟨(n1 i).2 (h i).1, (n2 i).2 (h i).2⟩
    have d := abs_sub_abs_le_abs_sub (l i) (axisOf T i)
    rw [abs_sub_comm] at d
    have b := hL' i
    show |l i| + r ≤ (1 + 1/2^23) * ptOf O.Extents i + m
    linarith

/-- C137: the containment test of the oriented box answers DISJOINT under the margins of C136. -/
theorem C137_orientedBoxDisjoint (c : Cfg) (O : BoundingOrientedBox (F32 P)) (S : BoundingSphere (F32 P)) (u : ℍ[ℝ]) (N : ℝ) (hc : Fin3 O.Center) (he : Fin3 O.Extents) (ho : Fins 4 O.Orientation) (hS : FinSphere S)
    (hE : ∀ i, 0 ≤ ptOf O.Extents i) (mE : Moderate O.Extents) (hu : Quaternion.normSq u = 1) (hq : QClose (quatOf O.Orientation) u (1/10^6))
    (hN : ∀ i, |ptOf S.Center i - ptOf O.Center i| ≤ N) (hN' : N ≤ 2^58) (hr : 1 / 2^50 ≤ value S.Radius.bits) (hr' : value S.Radius.bits ≤ 2^60) :
    ((obox (ptOf O.Center) (ptOf O.Extents) u ∩ ball (ptOf S.Center) ((1 - 1/2^21) * value S.Radius.bits - 2 * (17/10^6 * N + 1/10^40))).Nonempty → O.ContainsSphere c S ≠ .DISJOINT) ∧
    (O.ContainsSphere c S ≠ .DISJOINT → (obox (ptOf O.Center) (ptOf O.Extents) u ∩ ball (ptOf S.Center) ((1 + 1/2^21) * value S.Radius.bits + 2 * (17/10^6 * N + 1/10^40))).Nonempty) := by
  obtain ⟨h1, h2⟩ := C136_orientedBoxSphere c O S u N hc he ho hS hE mE hu hq hN hN' hr hr'
  refine ⟨fun h => C126_orientedBox_sphere c O S (h1 h), fun h => h2 ?_⟩
  have N0 : 0 ≤ N := (abs_nonneg _).trans (hN 0)
  have f3 : ∀ p : F3 (F32 P), Fin3 p → Fins 3 (load3 p : V4 (F32 P)) := by
    intro p hp i hi
    fin_cases i
    · exact hp.1
    · exact hp.2.1
    · exact hp.2.2
    · exact absurd hi (by decide)
  obtain ⟨hT, hL⟩ := Loc.coords c (load3 S.Center) (load3 O.Center) O.Orientation u N (f3 _ hS.1) (f3 _ hc) ho hu hq hN (hN'.trans (by norm_num))
  set T := XMVector3InverseRotate c (XMVectorSubtract (load3 S.Center) (load3 O.Center)) O.Orientation with hTT
  set l := rot (star u) (ptOf S.Center - ptOf O.Center) with hl
  have hL' : ∀ i, |axisOf T i - l i| ≤ 17/10^6 * N + 1/10^40 := hL
  have bT : ∀ i, |axisOf T i| ≤ 2^60 := fun i => by
    have a := Loc.rot_le hu N0 hN i
    have b := abs_add_le (axisOf T i - l i) (l i); rw [sub_add_cancel] at b
    have d := hL' i
    have e : |l i| ≤ 2 * N := a
    norm_num at hN' d ⊢
    linarith
  obtain ⟨fR, -, -⟩ := CSph.rad hS.2 hr hr'
  have hd := (ObbSph.d2_err c hT he bT mE 0).1
  have e1 : O.IntersectsSphere c S = XMVector4LessOrEqual c (XMVector3Dot c (ObbSph.dvec c T (load3 O.Extents)) (ObbSph.dvec c T (load3 O.Extents))) (.splat (Lane.mul S.Radius S.Radius)) := rfl
  have e2 : ∃ d : Bool, O.ContainsSphere c S = if XMVector4Greater c (XMVector3Dot c (ObbSph.dvec c T (load3 O.Extents)) (ObbSph.dvec c T (load3 O.Extents))) (.splat (Lane.mul S.Radius S.Radius)) = true then .DISJOINT else
      if d = true then .CONTAINS else .INTERSECTS := ⟨_, rfl⟩
  obtain ⟨d, e2⟩ := e2
  rw [dot3_lanes] at e1 e2 hd
  rw [e1, le4_splat]
  rw [e2] at h
  by_contra k
  exact h (if_pos ((gt4_splat c _ _).2 ((not_fle (not_nan_of_finite hd) (not_nan_of_finite fR)).1 k)))

/-- C137: the axis-aligned box, with an absolute margin of 2^-22 times the size of box and sphere. -/
theorem C137_box (c : Cfg) (B : BoundingBox (F32 P)) (S : BoundingSphere (F32 P)) (hB : FinBox B) (hS : FinSphere S) (mS : Moderate S.Center)
    (M : ℝ) (hM : M ≤ 2^59) (bB : BoundedBy M B) (hr : 1 / 2^50 ≤ value S.Radius.bits) (hr' : value S.Radius.bits ≤ 2^60) :
    (ball (ptOf S.Center) (value S.Radius.bits) ⊆ inflate B (-(1/2^22 * (M + value S.Radius.bits))) → BoundingBox.ContainsSphere c B S = .CONTAINS) ∧
    (BoundingBox.ContainsSphere c B S = .CONTAINS → ball (ptOf S.Center) (value S.Radius.bits) ⊆ inflate B (1/2^22 * (M + value S.Radius.bits))) := by
  set r := value S.Radius.bits with hrr
  have p50 : (0:ℝ) < 1/2^50 := by positivity
  have r0 : 0 < r := p50.trans_le hr
  have M0 : 0 ≤ M := le_trans (by positivity) (bB 0)
  have hu : ulp2 = 1/2^24 := by unfold ulp2; norm_num
  obtain ⟨fR, eR, hR1⟩ := CSph.rad hS.2 hr hr'
  have hd := BoxSph.d2_err c hB hS.1 mS hM bB
  have el := fun i => lo_err hB i (hM.trans (by norm_num)) bB
  have eh := fun i => hi_err hB i (hM.trans (by norm_num)) bB
  have bl : ∀ i, |val (lo B i)| ≤ 2 * M := fun i => by
    have a := (el i).2; have b := bB i; have d := abs_sub (ptOf B.Center i) (ptOf B.Extents i)
    have e := abs_sub_abs_le_abs_sub (val (lo B i)) (ptOf B.Center i - ptOf B.Extents i)
    rw [hu] at a; norm_num at *; linarith
  have bh : ∀ i, |val (hi B i)| ≤ 2 * M := fun i => by
    have a := (eh i).2; have b := bB i; have d := abs_add_le (ptOf B.Center i) (ptOf B.Extents i)
    have e := abs_sub_abs_le_abs_sub (val (hi B i)) (ptOf B.Center i + ptOf B.Extents i)
    rw [hu] at a; norm_num at *; linarith
  have ar : |r| = r := abs_of_pos r0
  have b1 : ∀ i, |val (lo B i) + r| ≤ 2 * M + r := fun i => by have := abs_add_le (val (lo B i)) r; have := bl i; linarith
  have b2 : ∀ i, |val (hi B i) - r| ≤ 2 * M + r := fun i => by have := abs_sub (val (hi B i)) r; have := bh i; linarith
  have b3 : ∀ i, |val (hi B i) - val (lo B i)| ≤ 4 * M := fun i => by have := abs_sub (val (hi B i)) (val (lo B i)); have := bh i; have := bl i; linarith
  have s1 := fun i => add_rel (el i).1 hS.2 ((b1 i).trans (by norm_num at *; linarith))
  have s2 := fun i => sub_rel (eh i).1 hS.2 ((b2 i).trans (by norm_num at *; linarith))
  have s3 := fun i => sub_rel (eh i).1 (el i).1 ((b3 i).trans (by norm_num at *; linarith))
  have key : BoundingBox.ContainsSphere c B S = .CONTAINS ↔ ¬ (∀ i : Fin 4, i.val < 3 → val (Lane.mul S.Radius S.Radius) < val ((boxDist2 c B S).lane i)) ∧
      ∀ i, val (Lane.add (lo B i) S.Radius) ≤ ptOf S.Center i ∧ ptOf S.Center i ≤ val (Lane.sub (hi B i) S.Radius) ∧ r < val (Lane.sub (hi B i) (lo B i)) := by
    have e : BoundingBox.ContainsSphere c B S = if XMVector3Greater c (boxDist2 c B S) (.splat (Lane.mul S.Radius S.Radius)) = true then .DISJOINT else
      if XMVector3EqualInt c (XMVectorAndInt (XMVectorAndInt (XMVectorLessOrEqual (XMVectorAdd (XMVectorSubtract (load3 B.Center) (load3 B.Extents)) (.splat S.Radius)) (load3 S.Center))
        (XMVectorLessOrEqual (load3 S.Center) (XMVectorSubtract (XMVectorAdd (load3 B.Center) (load3 B.Extents)) (.splat S.Radius))))
        (XMVectorGreater (XMVectorSubtract (XMVectorAdd (load3 B.Center) (load3 B.Extents)) (XMVectorSubtract (load3 B.Center) (load3 B.Extents))) (.splat S.Radius))) XMVectorTrueInt = true then .CONTAINS else .INTERSECTS := rfl
    have k3 : XMVector3Greater c (boxDist2 c B S) (.splat (Lane.mul S.Radius S.Radius)) = true ↔
        ∀ i : Fin 4, i.val < 3 → val (Lane.mul S.Radius S.Radius) < val ((boxDist2 c B S).lane i) := by
      rw [(C09_vector3 c _ _).2.1]
      have q : ∀ i : Fin 4, FLt (Lane.mul S.Radius S.Radius).bits ((boxDist2 c B S).lane i).bits ↔ val (Lane.mul S.Radius S.Radius) < val ((boxDist2 c B S).lane i) := fun i => by
        rw [← not_le, ← fle_val (hd i).1 fR, not_fle (not_nan_of_finite (hd i).1) (not_nan_of_finite fR)]
      refine ⟨fun h i hi => (q i).1 (by have := h i hi; fin_cases i <;> exact this), fun h i hi => ?_⟩
      have := (q i).2 (h i hi); fin_cases i <;> exact this
    have k4 : XMVector3EqualInt c (XMVectorAndInt (XMVectorAndInt (XMVectorLessOrEqual (XMVectorAdd (XMVectorSubtract (load3 B.Center) (load3 B.Extents)) (.splat S.Radius)) (load3 S.Center))
        (XMVectorLessOrEqual (load3 S.Center) (XMVectorSubtract (XMVectorAdd (load3 B.Center) (load3 B.Extents)) (.splat S.Radius))))
        (XMVectorGreater (XMVectorSubtract (XMVectorAdd (load3 B.Center) (load3 B.Extents)) (XMVectorSubtract (load3 B.Center) (load3 B.Extents))) (.splat S.Radius))) XMVectorTrueInt = true ↔
      ∀ i, val (Lane.add (lo B i) S.Radius) ≤ ptOf S.Center i ∧ ptOf S.Center i ≤ val (Lane.sub (hi B i) S.Radius) ∧ r < val (Lane.sub (hi B i) (lo B i)) := by
      rw [(C09_vector3 c _ _).2.2.2.2.2.1, all_lanes3]
      refine forall_congr' fun i => ?_
      rw [ptOf_lane, ← fle_val (s1 i).1 (fin3_lane hS.1 i), ← fle_val (fin3_lane hS.1 i) (s2 i).1, ← not_le, show r = val S.Radius from rfl, ← fle_val (s3 i).1 hS.2,
        not_fle (not_nan_of_finite (s3 i).1) (not_nan_of_finite hS.2), ← le_iff', ← le_iff', ← gt_iff']
      have q : ∀ a b d : Bool, (Lane.band (Lane.band (Lane.mask a : F32 P) (Lane.mask b)) (Lane.mask d)).bits = (0xFFFFFFFF#32 : BitVec 32) ↔ (a = true ∧ b = true ∧ d = true) := by
        intro a b d
        rw [Lane.band_mask_mask, Lane.band_mask_mask]
        rw [F32.bits_mask]
        cases a <;> cases b <;> cases d <;> decide
      fin_cases i <;> exact q _ _ _
    rw [e, ← k3, ← k4]
    split_ifs <;> simp_all
  rw [key, inflate, inflate, ball_subset_box _ _ _ _ r0.le, ball_subset_box _ _ _ _ r0.le]
  have w1 := fun i => (s1 i).2; have w2 := fun i => (s2 i).2; have w3 := fun i => (s3 i).2
  have w4 := fun i => (el i).2; have w5 := fun i => (eh i).2
  rw [hu] at w1 w2 w3 w4 w5
  change ∀ i, |_ - (val (lo B i) + r)| ≤ _ * |val (lo B i) + r| at w1
  change ∀ i, |_ - (val (hi B i) - r)| ≤ _ * |val (hi B i) - r| at w2
  constructor
  · intro h
    have g : ∀ i, val (Lane.add (lo B i) S.Radius) ≤ ptOf S.Center i ∧ ptOf S.Center i ≤ val (Lane.sub (hi B i) S.Radius) ∧ r < val (Lane.sub (hi B i) (lo B i)) ∧ val (lo B i) ≤ ptOf S.Center i ∧ ptOf S.Center i ≤ val (hi B i) := fun i => by
      have h1 := (h i).1; have h2 := (h i).2
      have a1 := abs_le.1 (w1 i); have a2 := abs_le.1 (w2 i); have a3 := abs_le.1 (w3 i); have a4 := abs_le.1 (w4 i); have a5 := abs_le.1 (w5 i)
      have c1 := b1 i; have c2 := b2 i
      have h5 : 2 * r ≤ val (hi B i) - val (lo B i) := by norm_num at *; linarith
      rw [abs_of_nonneg (le_trans (by linarith) h5)] at a3
      refine ⟨?_, ?_, ?_, ?_, ?_⟩ <;> norm_num at * <;> linarith
    refine ⟨fun hgt => ?_, fun i => ⟨(g i).1, (g i).2.1, (g i).2.2.1⟩⟩
    have z : BoxSph.gaps B S = 0 := by
      funext i; exact CSph.gap_zero (g i).2.2.2.1 (g i).2.2.2.2
    refine absurd (hgt 0 (by decide)) (not_lt.2 ((cmp_sq (dotSelf (BoxSph.gaps B S)) hR1 (hd 0).2 eR).1 ?_))
    rw [z, zero_dotProduct]
    have := mul_self_nonneg (val S.Radius)
    positivity
  · rintro ⟨-, h⟩ i
    have h1 := (h i).1; have h2 := (h i).2.1
    have a1 := abs_le.1 (w1 i); have a2 := abs_le.1 (w2 i); have a4 := abs_le.1 (w4 i); have a5 := abs_le.1 (w5 i)
    have c1 := b1 i; have c2 := b2 i
    constructor <;> norm_num at * <;> linarith

/-! The hypotheses are met: the sphere of radius 1/2 about the origin is reported inside the unrotated cube of half-size 1 in every build, by both tests. -/
open Loc in
example (c : Cfg) : (cube : BoundingOrientedBox (F32 P)).ContainsSphere c ⟨o3, fl 0x3F000000#32⟩ = .CONTAINS := by
  have p1 : ∀ i, ptOf (⟨fl 0x3F800000#32, fl 0x3F800000#32, fl 0x3F800000#32⟩ : F3 (F32 P)) i = 1 := by intro i; fin_cases i <;> exact v1
  have r2 : value (⟨o3, fl 0x3F000000#32⟩ : BoundingSphere (F32 P)).Radius.bits = 1/2 := vh
  have fs : FinSphere (⟨o3, fl 0x3F000000#32⟩ : BoundingSphere (F32 P)) := ⟨fo3, (by decide : IsFinite 0x3F000000#32)⟩
  have ce : (cube : BoundingOrientedBox (F32 P)).Extents = ⟨fl 0x3F800000#32, fl 0x3F800000#32, fl 0x3F800000#32⟩ := rfl
  have cc : ptOf (cube : BoundingOrientedBox (F32 P)).Center = 0 := po3
  have cs : ptOf (⟨o3, fl 0x3F000000#32⟩ : BoundingSphere (F32 P)).Center = 0 := po3
  refine (C137_orientedBox c cube _ 1 0 fo3 ⟨(by decide : IsFinite 0x3F800000#32), (by decide : IsFinite 0x3F800000#32), (by decide : IsFinite 0x3F800000#32)⟩ fidq fs
    (fun i => by rw [ce, p1]; norm_num) (by simp) idq (fun i => by rw [cc, cs]; simp) (by norm_num) (by rw [r2]; norm_num) (by rw [r2]; norm_num)).1 ?_
  rw [CSph.ball_in (by simp) (by rw [r2]; norm_num), star_one, cc, cs]
  intro i
  rw [rot_one, sub_zero, Pi.zero_apply, r2, ce, p1]; norm_num
open Loc in
example (c : Cfg) : (⟨o3, ⟨fl 0x3F800000#32, fl 0x3F800000#32, fl 0x3F800000#32⟩⟩ : BoundingBox (F32 P)).ContainsSphere c ⟨o3, fl 0x3F000000#32⟩ = .CONTAINS := by
  have p1 : ∀ i, ptOf (⟨fl 0x3F800000#32, fl 0x3F800000#32, fl 0x3F800000#32⟩ : F3 (F32 P)) i = 1 := by intro i; fin_cases i <;> exact v1
  have r2 : value (⟨o3, fl 0x3F000000#32⟩ : BoundingSphere (F32 P)).Radius.bits = 1/2 := vh
  have fs : FinSphere (⟨o3, fl 0x3F000000#32⟩ : BoundingSphere (F32 P)) := ⟨fo3, (by decide : IsFinite 0x3F000000#32)⟩
  have z : ∀ i, ptOf (o3 : F3 (F32 P)) i = 0 := fun i => by rw [po3]; rfl
  have f1 : Fin3 (⟨fl 0x3F800000#32, fl 0x3F800000#32, fl 0x3F800000#32⟩ : F3 (F32 P)) := ⟨(by decide : IsFinite 0x3F800000#32), (by decide : IsFinite 0x3F800000#32), (by decide : IsFinite 0x3F800000#32)⟩
  refine (C137_box c ⟨o3, ⟨fl 0x3F800000#32, fl 0x3F800000#32, fl 0x3F800000#32⟩⟩ ⟨o3, fl 0x3F000000#32⟩ ⟨fo3, f1⟩ fs (fun i => by rw [z]; norm_num) 1 (by norm_num)
    (fun i => by rw [z, p1]; norm_num) (by rw [r2]; norm_num) (by rw [r2]; norm_num)).1 ?_
  rw [inflate, ball_subset_box _ _ _ _ (by rw [r2]; norm_num)]
  intro i
  rw [r2, p1, z]
  norm_num
end DXM.Props
