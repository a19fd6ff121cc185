import Verif.Props.FloatBoxSphere
import Verif.Props.FloatView

/-
C136: oriented boxes against spheres on binary32 lanes.
-/

set_option linter.all false

namespace DXM.Props
open DXM.Spec DXM.FErr DXM.IEEE DXM.RG
open scoped Quaternion
variable {P : Env}

namespace ObbSph
/-- The delta vector of the test, from the local center `T` and the extents. -/
def dvec (c : Cfg) (T E : V4 (F32 P)) : V4 (F32 P) :=
  XMVectorSelect (XMVectorSelect XMVectorZero (XMVectorAdd T E) (XMVectorLess T (XMVectorNegate c E))) (XMVectorSubtract T E) (XMVectorGreater T E)
theorem dvec_lane (c : Cfg) (T : V4 (F32 P)) (E : F3 (F32 P)) (j : Fin 3) : F3.lane (xyz (dvec c T (load3 E))) j =
    if Lane.gt (F3.lane (xyz T) j) (F3.lane E j) then Lane.sub (F3.lane (xyz T) j) (F3.lane E j) else if Lane.lt (F3.lane (xyz T) j) (F3.lane (xyz (XMVectorNegate c (load3 E))) j) then Lane.add (F3.lane (xyz T) j) (F3.lane E j) else Lane.c0 := by
  simp only [dvec, XMVectorSelect, SSE.or, SSE.and, SSE.andnot, XMVectorLess, XMVectorGreater, SSE.cmplt, SSE.cmpgt, V4.map2, sel_mask, XMVectorSubtract, XMVectorAdd, SSE.sub, SSE.add, load3, XMVectorZero, V4.splat]
  fin_cases j <;> rfl
theorem dvec_err (c : Cfg) {T : V4 (F32 P)} {E : F3 (F32 P)} (hT : Fins 4 T) (hE : Fin3 E) (bT : ∀ i, |axisOf T i| ≤ 2^60) (bE : Moderate E) (j : Fin 3) :
    Fin' (F3.lane (xyz (dvec c T (load3 E))) j) ∧ |val (F3.lane (xyz (dvec c T (load3 E))) j) - BoxSph.gap (-ptOf E j) (ptOf E j) (axisOf T j)| ≤ ulp2 * |BoxSph.gap (-ptOf E j) (ptOf E j) (axisOf T j)| ∧
      |BoxSph.gap (-ptOf E j) (ptOf E j) (axisOf T j)| ≤ 2^61 := by
  have fE3 : Fins 3 (load3 E : V4 (F32 P)) := by
    intro k hk
    fin_cases k
    · exact hE.1
    · exact hE.2.1
    · exact hE.2.2
    · exact absurd hk (by decide)
  obtain ⟨n1, n2⟩ := neg_axis c (load3 E : V4 (F32 P)) fE3
  have f2 := fin3_lane hE j
  have fs : Fin' (F3.lane (xyz T) j) := by
    fin_cases j
    · exact hT 0 (by decide)
    · exact hT 1 (by decide)
    · exact hT 2 (by decide)
  have f1 : Fin' (F3.lane (xyz (XMVectorNegate c (load3 E : V4 (F32 P)))) j) := by
    fin_cases j
    · exact n1 0 (by decide)
    · exact n1 1 (by decide)
    · exact n1 2 (by decide)
  have v1 : val (F3.lane (xyz (XMVectorNegate c (load3 E : V4 (F32 P)))) j) = - val (F3.lane E j) := by
    rw [← Loc.axis_lane, n2 j, Loc.axis_lane]; rfl
  have ms := bT j
  have me := bE j
  rw [Loc.axis_lane] at ms ⊢
  rw [ptOf_lane] at me ⊢
  have m1 : |val (F3.lane (xyz T) j) + val (F3.lane E j)| ≤ 2^61 := (abs_add_le _ _).trans (by norm_num at *; linarith)
  have m2 : |val (F3.lane (xyz T) j) - val (F3.lane E j)| ≤ 2^61 := (abs_sub _ _).trans (by norm_num at *; linarith)
  have g1 : Lane.gt (F3.lane (xyz T) j) (F3.lane E j) = true ↔ val (F3.lane E j) < val (F3.lane (xyz T) j) := by
    rw [gt_iff']; unfold FLt; rw [evalue_finite f2, evalue_finite fs, EReal.coe_lt_coe_iff]
    exact ⟨fun h => h.2.2, fun h => ⟨not_nan_of_finite f2, not_nan_of_finite fs, h⟩⟩
  have g2 : Lane.lt (F3.lane (xyz T) j) (F3.lane (xyz (XMVectorNegate c (load3 E))) j) = true ↔ val (F3.lane (xyz T) j) < - val (F3.lane E j) := by
    rw [← v1, lt_iff']; unfold FLt; rw [evalue_finite f1, evalue_finite fs, EReal.coe_lt_coe_iff]
    exact ⟨fun h => h.2.2, fun h => ⟨not_nan_of_finite fs, not_nan_of_finite f1, h⟩⟩
  rw [dvec_lane]
  unfold BoxSph.gap
  simp only [g1, g2]
  split_ifs with a b
  · obtain ⟨x, y⟩ := sub_rel fs f2 (m2.trans (by norm_num)); exact ⟨x, y, m2⟩
  · obtain ⟨x, y⟩ := add_rel fs f2 (m1.trans (by norm_num)); rw [sub_neg_eq_add]; exact ⟨x, y, m1⟩
  · refine ⟨(by decide : IsFinite 0#32), ?_, by rw [abs_zero]; norm_num⟩
    rw [show val (Lane.c0 : F32 P) = 0 from val_zero]; simp
noncomputable def gaps (T : V4 (F32 P)) (E : F3 (F32 P)) : Pt := fun j => BoxSph.gap (-ptOf E j) (ptOf E j) (axisOf T j)
theorem d2_err (c : Cfg) {T : V4 (F32 P)} {E : F3 (F32 P)} (hT : Fins 4 T) (hE : Fin3 E) (bT : ∀ i, |axisOf T i| ≤ 2^60) (bE : Moderate E) (i : Fin 4) :
    Fin' ((XMVector3Dot c (dvec c T (load3 E)) (dvec c T (load3 E))).lane i) ∧
    |val ((XMVector3Dot c (dvec c T (load3 E)) (dvec c T (load3 E))).lane i) - gaps T E ⬝ᵥ gaps T E| ≤ gam 5 * (gaps T E ⬝ᵥ gaps T E + 3 * tiny) := by
  obtain ⟨f0, e0, b0⟩ := dvec_err c hT hE bT bE 0
  obtain ⟨f1, e1, b1⟩ := dvec_err c hT hE bT bE 1
  obtain ⟨f2, e2, b2⟩ := dvec_err c hT hE bT bE 2
  set D := dvec c T (load3 E)
  have hV : Fins 3 D := by
    intro k hk
    fin_cases k
    · exact f0
    · exact f1
    · exact f2
    · exact absurd hk (by decide)
  have hN := C93_dot3 c D D hV hV i
  rw [abs_mul_self, abs_mul_self, abs_mul_self, ← sq, ← sq, ← sq] at hN
  have s0 := sq_rel e0; have s1 := sq_rel e1; have s2 := sq_rel e2
  change |vals D 0 ^ 2 - (gaps T E 0)^2| ≤ _ * (gaps T E 0)^2 at s0
  change |vals D 1 ^ 2 - (gaps T E 1)^2| ≤ _ * (gaps T E 1)^2 at s1
  change |vals D 2 ^ 2 - (gaps T E 2)^2| ≤ _ * (gaps T E 2)^2 at s2
  have q : ∀ x : ℝ, |x| ≤ 2^61 → x^2 ≤ 2^122 := fun x h => by
    rw [← sq_abs]; exact (pow_le_pow_left₀ (abs_nonneg _) h 2).trans (by norm_num)
  have r := dist_core (sq_nonneg _) (sq_nonneg _) (sq_nonneg _) (q _ b0) (q _ b1) (q _ b2) s0 s1 s2 (x := (XMVector3Dot c D D).lane i) hN
  have eD : gaps T E ⬝ᵥ gaps T E = (gaps T E 0)^2 + (gaps T E 1)^2 + (gaps T E 2)^2 := by
    simp only [dotProduct, Fin.sum_univ_three]; ring
  rw [eD]
  exact ⟨r.2.1, r.2.2⟩
end ObbSph

/-- C136: the margins of the oriented box and sphere test: the ball whose radius is changed by the relative amount 2^-21 and by 34 millionths of the largest
coordinate distance between the centers. -/
theorem C136_orientedBoxSphere (c : Cfg) (O : BoundingOrientedBox (F32 P)) (S : BoundingSphere (F32 P)) (u : ℍ[ℝ]) (N : ℝ) (hc : Fin3 O.Center) (he : Fin3 O.Extents) (ho : Fins 4 O.Orientation) (hS : FinSphere S)
    (hE : ∀ i, 0 ≤ ptOf O.Extents i) (mE : Moderate O.Extents) (hu : Quaternion.normSq u = 1) (hq : QClose (quatOf O.Orientation) u (1/10^6))
    (hN : ∀ i, |ptOf S.Center i - ptOf O.Center i| ≤ N) (hN' : N ≤ 2^58) (hr : 1 / 2^50 ≤ value S.Radius.bits) (hr' : value S.Radius.bits ≤ 2^60) :
    ((obox (ptOf O.Center) (ptOf O.Extents) u ∩ ball (ptOf S.Center) ((1 - 1/2^21) * value S.Radius.bits - 2 * (17/10^6 * N + 1/10^40))).Nonempty → O.IntersectsSphere c S = true) ∧
    (O.IntersectsSphere c S = true → (obox (ptOf O.Center) (ptOf O.Extents) u ∩ ball (ptOf S.Center) ((1 + 1/2^21) * value S.Radius.bits + 2 * (17/10^6 * N + 1/10^40))).Nonempty) := by
  set r := value S.Radius.bits with hrr
  have p50 : (0:ℝ) < 1/2^50 := by positivity
  have N0 : 0 ≤ N := (abs_nonneg _).trans (hN 0)
  have f3 : ∀ p : F3 (F32 P), Fin3 p → Fins 3 (load3 p : V4 (F32 P)) := by
    intro p hp i hi
    fin_cases i
    · exact hp.1
    · exact hp.2.1
    · exact hp.2.2
    · exact absurd hi (by decide)
  obtain ⟨hT, hL⟩ := Loc.coords c (load3 S.Center) (load3 O.Center) O.Orientation u N (f3 _ hS.1) (f3 _ hc) ho hu hq hN (hN'.trans (by norm_num))
  set T := XMVector3InverseRotate c (XMVectorSubtract (load3 S.Center) (load3 O.Center)) O.Orientation with hTT
  set m := 17/10^6 * N + 1/10^40 with hm
  have m0 : 0 ≤ m := by positivity
  set l := rot (star u) (ptOf S.Center - ptOf O.Center) with hl
  have hL' : ∀ i, |axisOf T i - l i| ≤ m := hL
  have bT : ∀ i, |axisOf T i| ≤ 2^60 := fun i => by
    have a := Loc.rot_le hu N0 hN i
    have b := abs_add_le (axisOf T i - l i) (l i); rw [sub_add_cancel] at b
    have d := hL' i
    have e : |l i| ≤ 2 * N := a
    rw [hm] at d
    norm_num at hN' d ⊢
    linarith
  have hR : Fin' (Lane.mul S.Radius S.Radius) ∧ |val (Lane.mul S.Radius S.Radius) - r * r| ≤ gam 3 * (r * r + tiny) := by
    have := (mulL hS.2 hS.2).le rfl le_rfl (show 1 ≤ 3 by norm_num) (by norm_num)
    have h2 := this.2.2 (by
      change |r * r| + tiny ≤ _
      have ht1 : tiny ≤ 1 := by unfold tiny; norm_num
      rw [abs_of_nonneg (mul_self_nonneg r)]
      nlinarith)
    change Fin' _ ∧ |_ - r * r| ≤ gam 3 * (|r * r| + tiny) at h2
    rwa [abs_of_nonneg (mul_self_nonneg r)] at h2
  have hR1 : 1 / 2^100 ≤ r * r := by
    have : (1:ℝ) / 2^100 = (1/2^50) * (1/2^50) := by norm_num
    rw [this]; exact mul_self_le_mul_self (by positivity) hr
  have hd := ObbSph.d2_err c hT he bT mE
  have cmp := fun i => cmp_sq (dotSelf (ObbSph.gaps T O.Extents)) hR1 (hd i).2 hR.2
  have hcc : O.IntersectsSphere c S = true ↔ ∀ i : Fin 4, val ((XMVector3Dot c (ObbSph.dvec c T (load3 O.Extents)) (ObbSph.dvec c T (load3 O.Extents))).lane i) ≤ val (Lane.mul S.Radius S.Radius) := by
    have e : O.IntersectsSphere c S = XMVector4LessOrEqual c (XMVector3Dot c (ObbSph.dvec c T (load3 O.Extents)) (ObbSph.dvec c T (load3 O.Extents))) (.splat (Lane.mul S.Radius S.Radius)) := rfl
    rw [e, (C09_vector4 c _ _).2.2.2.2.1]
    refine ⟨fun h i => ?_, fun h i hi => ?_⟩
    · exact (fle_val (hd i).1 hR.1).1 (by have := h i i.isLt; fin_cases i <;> exact this)
    · have := (fle_val (hd i).1 hR.1).2 (h i); fin_cases i <;> exact this
  have lh : ∀ i, -ptOf O.Extents i ≤ ptOf O.Extents i := fun i => by linarith [hE i]
  have tl : len (axisOf T - l) ≤ 2 * m := BoxSph.len_small m0 hL'
  rw [hcc, loc_nonempty hu (fun p => mem_obox hu) (fun p => mem_ball_loc hu (a := ptOf O.Center)), loc_nonempty hu (fun p => mem_obox hu) (fun p => mem_ball_loc hu (a := ptOf O.Center))]
  constructor
  · rintro ⟨p, hp1, hp2⟩ i
    apply (cmp i).1
    have hp1' : ∀ j, -ptOf O.Extents j ≤ p j ∧ p j ≤ ptOf O.Extents j := fun j => by
      have := hp1 j; rw [Pi.zero_apply, sub_zero] at this; exact abs_le.1 this
    have l1 : len (ObbSph.gaps T O.Extents) ≤ len (axisOf T - p) := BoxSph.len_mono fun j => BoxSph.gap_le (hp1' j).1 (hp1' j).2
    have l2 := len_sub_le (axisOf T) l p
    have l4 : len (l - p) ≤ (1 - 1/2^21) * r - 2 * m := by rw [len_sub_comm]; exact hp2
    have l5 : len (ObbSph.gaps T O.Extents) ≤ (1 - 1/2^21) * r := by linarith
    have := (len_le_iff (by norm_num; linarith)).1 l5
    linarith
  · intro h
    have h1 := (cmp 0).2 (h 0)
    have l5 : len (ObbSph.gaps T O.Extents) ≤ (1 + 1/2^21) * r := (len_le_iff (by norm_num; linarith)).2 (by linarith)
    refine ⟨axisOf T - ObbSph.gaps T O.Extents, fun j => ?_, ?_⟩
    · rw [Pi.zero_apply, sub_zero]
      exact abs_le.2 (BoxSph.gap_mem (s := axisOf T j) (lh j))
    · have l2 := len_sub_le (axisOf T - ObbSph.gaps T O.Extents) (axisOf T) l
      rw [sub_sub_cancel_left, len_neg] at l2
      show len (axisOf T - ObbSph.gaps T O.Extents - l) ≤ _
      linarith

/-! The hypotheses are met: the sphere of radius 2 about (2, 2, 2) reaches the unrotated cube of half-size 1 about the origin in every build. -/
open Loc in
example (c : Cfg) : (cube : BoundingOrientedBox (F32 P)).IntersectsSphere c ⟨⟨fl 0x40000000#32, fl 0x40000000#32, fl 0x40000000#32⟩, fl 0x40000000#32⟩ = true := by
  have f2 : Fin3 (⟨fl 0x40000000#32, fl 0x40000000#32, fl 0x40000000#32⟩ : F3 (F32 P)) := ⟨(by decide : IsFinite 0x40000000#32), (by decide : IsFinite 0x40000000#32), (by decide : IsFinite 0x40000000#32)⟩
  have p1 : ∀ i, ptOf (⟨fl 0x3F800000#32, fl 0x3F800000#32, fl 0x3F800000#32⟩ : F3 (F32 P)) i = 1 := by intro i; fin_cases i <;> exact v1
  have p2 : ∀ i, ptOf (⟨fl 0x40000000#32, fl 0x40000000#32, fl 0x40000000#32⟩ : F3 (F32 P)) i = 2 := by intro i; fin_cases i <;> exact v2
  have r2 : value (⟨⟨fl 0x40000000#32, fl 0x40000000#32, fl 0x40000000#32⟩, fl 0x40000000#32⟩ : BoundingSphere (F32 P)).Radius.bits = 2 := v2
  have fs : FinSphere (⟨⟨fl 0x40000000#32, fl 0x40000000#32, fl 0x40000000#32⟩, fl 0x40000000#32⟩ : BoundingSphere (F32 P)) := ⟨f2, (by decide : IsFinite 0x40000000#32)⟩
  have ce : (cube : BoundingOrientedBox (F32 P)).Extents = ⟨fl 0x3F800000#32, fl 0x3F800000#32, fl 0x3F800000#32⟩ := rfl
  have cc : ptOf (cube : BoundingOrientedBox (F32 P)).Center = 0 := po3
  refine (C136_orientedBoxSphere c cube _ 1 2 fo3 ⟨(by decide : IsFinite 0x3F800000#32), (by decide : IsFinite 0x3F800000#32), (by decide : IsFinite 0x3F800000#32)⟩ fidq fs
    (fun i => by rw [ce, p1]; norm_num) (fun i => by rw [ce, p1]; norm_num) (by simp) idq (fun i => by rw [cc, p2]; norm_num) (by norm_num) (by rw [r2]; norm_num) (by rw [r2]; norm_num)).1 ⟨fun _ => 1, ?_, ?_⟩
  · rw [mem_obox' (by simp), star_one, cc, ce]
    intro i
    rw [rot_one, p1, sub_zero]; norm_num
  · rw [mem_ball, r2, len_le_iff (by norm_num)]
    simp only [dotProduct, Fin.sum_univ_three, Pi.sub_apply, p2]
    norm_num
end DXM.Props
