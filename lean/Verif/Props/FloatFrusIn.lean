import Verif.Props.FloatTriIn

/-
C148: frustums reported as contained, on binary32 lanes.
-/

set_option linter.all false

namespace DXM.Props
open DXM.Spec DXM.FErr DXM.IEEE DXM.RG Matrix
open scoped Quaternion
variable {P : Env}

namespace FrusIn
theorem fold_lane (A : List (V4 (F32 P))) (B : V4 (F32 P)) (b : Fin 4 → Bool) (M : V4 (F32 P)) (hM : ∀ i, M.lane i = Lane.mask (b i)) (i : Fin 4) :
    (A.foldl (fun M a => XMVectorAndInt M (XMVectorLessOrEqual a B)) M).lane i = Lane.mask (b i && A.all fun a => Lane.le (a.lane i) (B.lane i)) := by
  induction A generalizing b M with
  | nil => simpa using hM i
  | cons a A ih =>
    rw [List.foldl_cons, ih (fun i => b i && Lane.le (a.lane i) (B.lane i)) _ (fun j => ?_), List.all_cons, Bool.and_assoc]
    rw [← Lane.band_mask_mask, ← hM j]
    fin_cases j <;> rfl
/-- The mask of any number of comparisons is full exactly when all hold in the first three lanes. -/
theorem inside (c : Cfg) (A : List (V4 (F32 P))) (B : V4 (F32 P)) :
    XMVector3EqualInt c (A.foldl (fun M a => XMVectorAndInt M (XMVectorLessOrEqual a B)) XMVectorTrueInt) XMVectorTrueInt = true ↔
      ∀ a ∈ A, ∀ i : Fin 4, i.val < 3 → Lane.le (a.lane i) (B.lane i) = true := by
  rw [(C09_vector3 c _ _).2.2.2.2.2.1]
  have t : ∀ i, ((XMVectorTrueInt : V4 (F32 P)).lane i) = Lane.mask true := fun i => by fin_cases i <;> rfl
  have : ∀ i : Fin 4, ((A.foldl (fun M a => XMVectorAndInt M (XMVectorLessOrEqual a B)) XMVectorTrueInt).lane i).bits = ((XMVectorTrueInt : V4 (F32 P)).lane i).bits ↔ ∀ a ∈ A, Lane.le (a.lane i) (B.lane i) = true := fun i => by
    rw [fold_lane A B (fun _ => true) _ t i, t i, Bool.true_and]
    exact (TriIn.ones_iff _).trans List.all_eq_true
  exact ⟨fun h a ha i hi => (this i).1 (h i hi) a ha, fun h i hi => (this i).2 fun a ha => h a ha i hi⟩
theorem box_point (c : Cfg) (B : BoundingBox (F32 P)) (V : V4 (F32 P)) :
    B.ContainsPoint c V = .CONTAINS ↔ ∀ i : Fin 4, i.val < 3 → Lane.le ((XMVectorAbs c (XMVectorSubtract V (load3 B.Center))).lane i) ((load3 B.Extents : V4 (F32 P)).lane i) = true := by
  refine (contains_iff _).trans ?_
  rw [(C11_predicates c _ (load3 B.Extents) (load3 B.Extents)).2.2.2.2.1]
  refine forall_congr' fun i => forall_congr' fun _ => ?_
  unfold XMVectorAbs
  split_ifs
  · rw [← within_max]
    fin_cases i <;> rfl
  · rw [← within_abs]
    fin_cases i <;> rfl
end FrusIn

/-- C148: for every bit pattern, a box reports a frustum as contained exactly when it reports an intersection and reports each of the frustum's corners as contained. -/
theorem C148_boxFrustum_iff (c : Cfg) (B : BoundingBox (F32 P)) (F : BoundingFrustum (F32 P)) :
    B.ContainsFrustum c F = .CONTAINS ↔ B.IntersectsFrustum c F = true ∧ ∀ C ∈ F.GetCorners c, B.ContainsPoint c (load3 C) = .CONTAINS := by
  have := FrusIn.inside c ((F.GetCorners c).map fun C => XMVectorAbs c (XMVectorSubtract (load3 C) (load3 B.Center))) (load3 B.Extents)
  rw [List.foldl_map, List.forall_mem_map] at this
  simp only [← FrusIn.box_point] at this
  rw [← this]
  unfold BoundingBox.ContainsFrustum BoundingBox.IntersectsFrustum
  by_cases hi : F.IntersectsBox c B = true
  · rw [hi]
    simp only [Bool.not_true, Bool.false_eq_true, if_false, true_and]
    split_ifs with h
    · exact iff_of_true rfl h
    · exact iff_of_false (by decide) h
  · rw [Bool.not_eq_true] at hi
    rw [hi]
    exact iff_of_false (by simp) (by simp)

/-- C148: the same for oriented boxes. -/
theorem C148_orientedBoxFrustum_iff (c : Cfg) (O : BoundingOrientedBox (F32 P)) (F : BoundingFrustum (F32 P)) :
    O.ContainsFrustum c F = .CONTAINS ↔ O.IntersectsFrustum c F = true ∧ ∀ C ∈ F.GetCorners c, O.ContainsPoint c (load3 C) = .CONTAINS := by
  have k : ∀ V, O.ContainsPoint c V = .CONTAINS ↔ XMVector3InBounds c (XMVector3InverseRotate c (XMVectorSubtract V (load3 O.Center)) O.Orientation) (load3 O.Extents) = true := fun V => contains_iff _
  simp only [k]
  unfold BoundingOrientedBox.ContainsFrustum BoundingOrientedBox.IntersectsFrustum
  by_cases hi : F.IntersectsOrientedBox c O = true
  · rw [hi]
    simp only [Bool.not_true, Bool.false_eq_true, if_false, true_and]
    rw [← List.all_eq_true]
    split_ifs with h
    · exact iff_of_true rfl h
    · exact iff_of_false (by decide) h
  · rw [Bool.not_eq_true] at hi
    rw [hi]
    exact iff_of_false (by simp) (by simp)

namespace FrusIn
theorem hull_box {a e : Pt} {S : Set Pt} (h : S ⊆ box a e) : convexHull ℝ S ⊆ box a e := by
  refine convexHull_min h fun x hx y hy s t hs ht st => ?_
  rw [mem_box] at *
  intro i
  obtain ⟨a0, b0⟩ := hx i; obtain ⟨a1, b1⟩ := hy i
  have s1 : ∀ d : ℝ, s * d + t * d = d := fun d => by rw [← add_mul, st, one_mul]
  simp only [Pi.add_apply, Pi.smul_apply, smul_eq_mul]
  have m1 := mul_le_mul_of_nonneg_left a0 hs; have m2 := mul_le_mul_of_nonneg_left a1 ht
  have n1 := mul_le_mul_of_nonneg_left b0 hs; have n2 := mul_le_mul_of_nonneg_left b1 ht
  have e1 := s1 (a i - e i); have e2 := s1 (a i + e i)
  exact ⟨by linarith, by linarith⟩
end FrusIn

/-- C148: a frustum with a point outside the box with extents enlarged by the relative amount `gam 1 ≈ 2^-24` and the margin of the corners is not reported as contained. -/
theorem C148_boxFrustum (c : Cfg) (X : BoundingBox (F32 P)) (F : BoundingFrustum (F32 P)) (q : ℍ[ℝ]) (hX : FinBox X) (hc : Fin3 F.Origin) (ho : Fins 4 F.Orientation)
    (hr : IsFinite F.RightSlope.bits) (hl : IsFinite F.LeftSlope.bits) (ht : IsFinite F.TopSlope.bits) (hb : IsFinite F.BottomSlope.bits) (hn : IsFinite F.Near.bits) (hf : IsFinite F.Far.bits)
    (nq : Quaternion.normSq q = 1) (hq : QClose (quatOf F.Orientation) q (1/10^6)) (K W B : ℝ) (b : ∀ i, |ptOf F.Origin i| ≤ B) (hB : B ≤ 2^80) (k1 : 1 ≤ K) (hK : K ≤ 2^40) (hW : W ≤ 2^40)
    (kr : |value F.RightSlope.bits| ≤ K) (kl : |value F.LeftSlope.bits| ≤ K) (kt : |value F.TopSlope.bits| ≤ K) (kb : |value F.BottomSlope.bits| ≤ K) (wn : |value F.Near.bits| ≤ W) (wf : |value F.Far.bits| ≤ W)
    (hv : ValidFrustum (value F.RightSlope.bits) (value F.LeftSlope.bits) (value F.TopSlope.bits) (value F.BottomSlope.bits) (value F.Near.bits) (value F.Far.bits))
    (out : ¬ frustum (ptOf F.Origin) q (value F.RightSlope.bits) (value F.LeftSlope.bits) (value F.TopSlope.bits) (value F.BottomSlope.bits) (value F.Near.bits) (value F.Far.bits) ⊆
      box (ptOf X.Center) ((1 + gam 1) • ptOf X.Extents + fun _ => 19/10^6 * (K * W) + B / 2^22 + 1/10^34)) :
    X.ContainsFrustum c F ≠ .CONTAINS := by
  intro h
  apply out
  have hp := ((C148_boxFrustum_iff c X F).1 h).2
  have cl := C146_frustumCorners c F q hc ho hr hl ht hb hn hf nq hq K W B b hB k1 hK hW kr kl kt kb wn wf
  obtain ⟨ps, -, e, hull⟩ := C90_getCorners c (ptOf F.Origin) q _ _ _ _ _ _ nq hv
  rw [hull]
  apply FrusIn.hull_box
  have ev : ∀ k x y : ℝ, (k • ![x, y, 1] : Pt) = ![x * k, y * k, k] := by
    intro k x y; ext i; fin_cases i <;> simp [mul_comm]
  simp only [ev] at cl
  rw [← e] at cl
  intro p hpm
  obtain ⟨i, hi, rfl⟩ := List.getElem_of_mem (show p ∈ ps from hpm)
  have hi' : i < (F.GetCorners c).length := by rw [cl.length_eq]; exact hi
  obtain ⟨fC, dC⟩ := cl.get hi' hi
  set C := (F.GetCorners c)[i] with hC
  have fL : Fins 3 (load3 C : V4 (F32 P)) := fun j hj => by
    fin_cases j
    · exact fC.1
    · exact fC.2.1
    · exact fC.2.2
    · exact absurd hj (by decide)
  have m := (C96_boxContainsPoint c X (load3 C) hX fL).2 (hp C (List.getElem_mem hi'))
  rw [mem_box] at *
  intro j
  obtain ⟨m1, m2⟩ := m j
  have d : |ptOf C j - ps[i] j| ≤ _ := dC j
  obtain ⟨d1, d2⟩ := abs_le.1 d
  have ex : ptOf (xyz (load3 C : V4 (F32 P))) j = ptOf C j := rfl
  rw [ex] at m1 m2
  rw [Pi.add_apply]
  exact ⟨by linarith, by linarith⟩

/-! The hypotheses are met: the frustum between the planes z = 1/2 and z = 2 is not contained in the box of half side 1 about the origin. -/
open Loc in
example (c : Cfg) : (BoxD.one : BoundingBox (F32 P)).ContainsFrustum c frus ≠ .CONTAINS := by
  have o : IsFinite 0x3F800000#32 := by decide
  have n : IsFinite 0xBF800000#32 := by decide
  have e1 : |value (fl 0x3F800000#32 : F32 P).bits| ≤ 1 := by rw [v1]; norm_num
  have en : |value (fl 0xBF800000#32 : F32 P).bits| ≤ 1 := by rw [vn]; norm_num
  have eh : |value (fl 0x3F000000#32 : F32 P).bits| ≤ 2 := by rw [vh]; norm_num
  have e2 : |value (fl 0x40000000#32 : F32 P).bits| ≤ 2 := by rw [v2]; norm_num
  refine C148_boxFrustum c BoxD.one (frus : BoundingFrustum (F32 P)) 1 BoxD.one_fin fo3 fidq o n o n (by decide : IsFinite 0x3F000000#32) (by decide : IsFinite 0x40000000#32) (by simp) idq 1 2 0
    (fun i => by show |ptOf o3 i| ≤ _; rw [po3]; simp) (by norm_num) le_rfl (by norm_num) (by norm_num) e1 en e1 en eh e2 ?_ ?_
  · show ValidFrustum (value (fl 0x3F800000#32 : F32 P).bits) (value (fl 0xBF800000#32 : F32 P).bits) (value (fl 0x3F800000#32 : F32 P).bits) (value (fl 0xBF800000#32 : F32 P).bits) (value (fl 0x3F000000#32 : F32 P).bits) (value (fl 0x40000000#32 : F32 P).bits)
    rw [v1, vn, vh, v2]
    left; norm_num
  · show ¬ frustum (ptOf o3) 1 (value (fl 0x3F800000#32 : F32 P).bits) (value (fl 0xBF800000#32 : F32 P).bits) (value (fl 0x3F800000#32 : F32 P).bits) (value (fl 0xBF800000#32 : F32 P).bits) (value (fl 0x3F000000#32 : F32 P).bits) (value (fl 0x40000000#32 : F32 P).bits) ⊆ _
    rw [v1, vn, vh, v2]
    intro h
    have w : (![0, 0, 2] : Pt) ∈ frustum (ptOf (o3 : F3 (F32 P))) 1 1 (-1) 1 (-1) (1/2) 2 := by
      refine ⟨![0, 0, 2], ?_, ?_⟩
      · have z : (![0, 0, 2] : Pt) 2 = 2 := rfl
        norm_num [frustum0, z]
      · rw [po3, zero_add]; unfold rot; funext i; fin_cases i <;> simp
    have := h w
    rw [mem_box] at this
    have := (this 2).2
    rw [BoxD.one_cen, Pi.add_apply, Pi.smul_apply, BoxD.one_ext] at this
    have g : gam 1 ≤ 1/2 := by unfold gam ulp2; norm_num
    have z : (![0, 0, 2] : Pt) 2 = 2 := rfl
    rw [z] at this
    norm_num at this
    linarith
end DXM.Props
