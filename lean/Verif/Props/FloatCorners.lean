import Verif.Props.FloatBoxD

/-
C146: the corners of boxes, oriented boxes and frusta on binary32 lanes.
-/

set_option linter.all false

namespace DXM.Props
open DXM.Spec DXM.FErr DXM.IEEE DXM.RG Matrix
open scoped Quaternion
variable {P : Env}

/-- A stored point is finite and within `m` of the point in every coordinate. -/
def PtClose (m : ℝ) (C : F3 (F32 P)) (p : Pt) : Prop := Fin3 C ∧ ∀ i, |ptOf C i - p i| ≤ m

/-- C146: the eight corners of a box, in the documented order. -/
theorem C146_boxCorners (c : Cfg) (S : BoundingBox (F32 P)) (h : FinBox S) (W : ℝ) (b : ∀ i, |ptOf S.Center i| ≤ W) (w : ∀ i, |ptOf S.Extents i| ≤ W) (hW : W ≤ 2^120) :
    List.Forall₂ (PtClose (W / 2^21 + 1/10^35)) (S.GetCorners c)
      ([![-1, -1, 1], ![1, -1, 1], ![1, 1, 1], ![-1, 1, 1], ![-1, -1, -1], ![1, -1, -1], ![1, 1, -1], ![-1, 1, -1]].map fun s : Pt => ptOf S.Center + ptOf S.Extents * s) := by
  have W0 : 0 ≤ W := (abs_nonneg _).trans (b 0)
  have tp := tiny_pos
  have t1 : tiny ≤ 1/10^35 := by unfold tiny; norm_num
  change List.Forall₂ _ _ (signs.map _)
  rw [BoxD.signs_eq (P := P), List.map_map]
  unfold BoundingBox.GetCorners
  rw [List.forall₂_map_left_iff, List.forall₂_map_right_iff, List.forall₂_same]
  intro o ho
  have k : ∀ j : Fin 3, Fin' (F3.lane (xyz (XMVectorMultiplyAdd c (load3 S.Extents) o (load3 S.Center))) j) ∧
      |ptOf (xyz (XMVectorMultiplyAdd c (load3 S.Extents) o (load3 S.Center))) j - (ptOf S.Center + ptOf S.Extents * ptOf (xyz o)) j| ≤ W / 2^21 + 1/10^35 := fun j => by
    obtain ⟨f, q⟩ := ((BoxD.corner_ap c S h W b w ho j).1 (by norm_num)).2.2 (by linarith)
    rw [ptOf_lane]
    have g : gam 2 * (2 * W + tiny) ≤ 3/2^24 * (2 * W + tiny) := mul_le_mul_of_nonneg_right (by unfold gam ulp2; norm_num) (by positivity)
    exact ⟨f, q.trans (by linarith)⟩
  exact ⟨⟨(k 0).1, (k 1).1, (k 2).1⟩, fun j => (k j).2⟩

/-- C146: the eight corners of an oriented box, in the same order along its own axes. -/
theorem C146_orientedBoxCorners (c : Cfg) (O : BoundingOrientedBox (F32 P)) (q : ℍ[ℝ]) (hc : Fin3 O.Center) (he : Fin3 O.Extents) (ho : Fins 4 O.Orientation)
    (nq : Quaternion.normSq q = 1) (hq : QClose (quatOf O.Orientation) q (1/10^6)) (W B : ℝ) (b : ∀ i, |ptOf O.Center i| ≤ B) (w : ∀ i, |ptOf O.Extents i| ≤ W) (hW : W ≤ 2^80) (hB : B ≤ 2^80) :
    List.Forall₂ (PtClose (19/10^6 * W + B / 2^22 + 1/10^34)) (O.GetCorners c)
      ([![-1, -1, 1], ![1, -1, 1], ![1, 1, 1], ![-1, 1, 1], ![-1, -1, -1], ![1, -1, -1], ![1, 1, -1], ![-1, 1, -1]].map fun s : Pt => ptOf O.Center + rot q (ptOf O.Extents * s)) := by
  have W0 : 0 ≤ W := (abs_nonneg _).trans (w 0)
  have tp := tiny_pos
  have t1 : tiny ≤ 1/10^35 := by unfold tiny; norm_num
  have fc : Fins 3 (load3 O.Center : V4 (F32 P)) := fun i hi => by
    fin_cases i
    · exact hc.1
    · exact hc.2.1
    · exact hc.2.2
    · exact absurd hi (by decide)
  change List.Forall₂ _ _ (signs.map _)
  rw [BoxD.signs_eq (P := P), List.map_map]
  unfold BoundingOrientedBox.GetCorners
  rw [List.forall₂_map_left_iff, List.forall₂_map_right_iff, List.forall₂_same]
  intro o hof
  obtain ⟨hs, fo⟩ := BoxD.off_signs hof
  set V := XMVectorMultiply (load3 O.Extents) o with hV
  set v := ptOf O.Extents * ptOf (xyz o) with hv
  have vb : ∀ j, |v j| ≤ W := fun j => by
    have so : |ptOf (xyz o) j| = 1 := by rcases mem_signs.1 hs j with g | g <;> rw [g] <;> simp
    rw [hv, Pi.mul_apply, abs_mul, so, mul_one]; exact w j
  have sc : ∀ j : Fin 3, Fin' (F3.lane (xyz V) j) ∧ |axisOf V j - v j| ≤ 4/2^24 * (W + 1/10^35) := fun j => by
    have el : F3.lane (xyz V) j = Lane.mul (F3.lane O.Extents j) (F3.lane (xyz o) j) := by fin_cases j <;> rfl
    have ev : val (F3.lane O.Extents j) * val (F3.lane (xyz o) j) = v j := by rw [hv, Pi.mul_apply, ptOf_lane, ptOf_lane]
    have q := (mulL (fin3_lane he j) (fin3_lane fo j)).le ev (show _ ≤ W + 1/10^35 by rw [ev]; linarith [vb j]) le_rfl
    obtain ⟨f, q⟩ := (q (by norm_num)).2.2 (by linarith)
    rw [Loc.axis_lane, el]
    exact ⟨f, q.trans (mul_le_mul_of_nonneg_right (by unfold gam ulp2; norm_num) (by positivity))⟩
  have fV : Fins 3 V := fun i hi => by
    fin_cases i
    · exact (sc 0).1
    · exact (sc 1).1
    · exact (sc 2).1
    · exact absurd hi (by decide)
  obtain ⟨f, e⟩ := SphD.move c V O.Orientation (load3 O.Center) v q W B fV ho fc nq hq vb (fun i => (sc i).2) hW b hB
  refine ⟨f, fun i => ?_⟩
  have := e i
  rw [add_comm (rot q v)] at this
  refine this.trans (le_of_eq (by ring))

/-- C146: the eight corners of a frustum: near then far, each from top left clockwise. -/
theorem C146_frustumCorners (c : Cfg) (F : BoundingFrustum (F32 P)) (q : ℍ[ℝ]) (hc : Fin3 F.Origin) (ho : Fins 4 F.Orientation)
    (hr : IsFinite F.RightSlope.bits) (hl : IsFinite F.LeftSlope.bits) (ht : IsFinite F.TopSlope.bits) (hb : IsFinite F.BottomSlope.bits) (hn : IsFinite F.Near.bits) (hf : IsFinite F.Far.bits)
    (nq : Quaternion.normSq q = 1) (hq : QClose (quatOf F.Orientation) q (1/10^6)) (K W B : ℝ) (b : ∀ i, |ptOf F.Origin i| ≤ B) (hB : B ≤ 2^80) (k1 : 1 ≤ K) (hK : K ≤ 2^40) (hW : W ≤ 2^40)
    (kr : |value F.RightSlope.bits| ≤ K) (kl : |value F.LeftSlope.bits| ≤ K) (kt : |value F.TopSlope.bits| ≤ K) (kb : |value F.BottomSlope.bits| ≤ K) (wn : |value F.Near.bits| ≤ W) (wf : |value F.Far.bits| ≤ W) :
    let r := value F.RightSlope.bits; let l := value F.LeftSlope.bits; let t := value F.TopSlope.bits; let d := value F.BottomSlope.bits; let n := value F.Near.bits; let f := value F.Far.bits
    List.Forall₂ (PtClose (19/10^6 * (K * W) + B / 2^22 + 1/10^34)) (F.GetCorners c)
      ([n • ![l, t, 1], n • ![r, t, 1], n • ![r, d, 1], n • ![l, d, 1], f • ![l, t, 1], f • ![r, t, 1], f • ![r, d, 1], f • ![l, d, 1]].map fun p : Pt => ptOf F.Origin + rot q p) := by
  intro r l t d n f
  have W0 : 0 ≤ W := (abs_nonneg _).trans wn
  have KW0 : 0 ≤ K * W := by positivity
  have KW : K * W ≤ 2^80 := (mul_le_mul hK hW W0 (by positivity)).trans (by norm_num)
  have tp := tiny_pos
  have t1 : tiny ≤ 1/10^35 := by unfold tiny; norm_num
  have fc : Fins 3 (load3 F.Origin : V4 (F32 P)) := fun i hi => by
    fin_cases i
    · exact hc.1
    · exact hc.2.1
    · exact hc.2.2
    · exact absurd hi (by decide)
  have key : ∀ (x y w z : F32 P), Fin' x → Fin' y → Fin' z → |val x| ≤ K → |val y| ≤ K → |val z| ≤ W →
      PtClose (19/10^6 * (K * W) + B / 2^22 + 1/10^34) (store3 (XMVectorAdd (XMVector3Rotate c (XMVectorMultiply ⟨x, y, Lane.c1, w⟩ (XMVectorReplicate z)) F.Orientation) (load3 F.Origin)))
        (ptOf F.Origin + rot q (val z • ![val x, val y, 1])) := by
    intro x y w z fx fy fz bx by' bz
    have f1 : Fin' (Lane.c1 : F32 P) := (by decide : IsFinite 0x3F800000#32)
    set V := XMVectorMultiply (⟨x, y, Lane.c1, w⟩ : V4 (F32 P)) (XMVectorReplicate z) with hV
    have one : ∀ u : F32 P, Fin' u → |val u| ≤ K → Fin' (Lane.mul u z) ∧ |val z * val u| ≤ K * W ∧ |val (Lane.mul u z) - val z * val u| ≤ 4/2^24 * (K * W + 1/10^35) := fun u fu bu => by
      have ab : |val z * val u| ≤ K * W := by rw [mul_comm, abs_mul]; exact mul_le_mul bu bz (abs_nonneg _) (by positivity)
      have q := (mulL fu fz).le (mul_comm _ _) (show _ ≤ K * W + 1/10^35 by rw [mul_comm (val u)]; linarith) le_rfl
      obtain ⟨f, q⟩ := (q (by norm_num)).2.2 (by linarith)
      exact ⟨f, ab, q.trans (mul_le_mul_of_nonneg_right (by unfold gam ulp2; norm_num) (by positivity))⟩
    obtain ⟨x1, x2, x3⟩ := one x fx bx
    obtain ⟨y1, y2, y3⟩ := one y fy by'
    obtain ⟨z1, z2, z3⟩ := one _ f1 (by rw [BoxD.n1, abs_one]; exact k1)
    rw [BoxD.n1] at z2 z3
    have fV : Fins 3 V := fun i hi => by
      fin_cases i
      · exact x1
      · exact y1
      · exact z1
      · exact absurd hi (by decide)
    obtain ⟨f, e⟩ := SphD.move c V F.Orientation (load3 F.Origin) (val z • ![val x, val y, 1]) q (K * W) B fV ho fc nq hq (fun i => by
      fin_cases i
      exacts [x2, y2, z2]) (fun i => by
      fin_cases i
      exacts [x3, y3, z3]) KW b hB
    refine ⟨f, fun i => ?_⟩
    have := e i
    rw [add_comm (rot q _)] at this
    exact this.trans (le_of_eq (by ring))
  exact .cons (key _ _ _ _ hl ht hn kl kt wn) (.cons (key _ _ _ _ hr ht hn kr kt wn) (.cons (key _ _ _ _ hr hb hn kr kb wn) (.cons (key _ _ _ _ hl hb hn kl kb wn)
    (.cons (key _ _ _ _ hl ht hf kl kt wf) (.cons (key _ _ _ _ hr ht hf kr kt wf) (.cons (key _ _ _ _ hr hb hf kr kb wf) (.cons (key _ _ _ _ hl hb hf kl kb wf) .nil)))))))

/-! The hypotheses are met: the box, the oriented box and the frustum at the origin. -/
open Loc in
example (c : Cfg) : List.Forall₂ (PtClose (1/2^20)) ((BoxD.one : BoundingBox (F32 P)).GetCorners c)
    ([![-1, -1, 1], ![1, -1, 1], ![1, 1, 1], ![-1, 1, 1], ![-1, -1, -1], ![1, -1, -1], ![1, 1, -1], ![-1, 1, -1]].map fun s : Pt => ptOf (BoxD.one : BoundingBox (F32 P)).Center + ptOf (BoxD.one : BoundingBox (F32 P)).Extents * s) :=
  (C146_boxCorners c (BoxD.one : BoundingBox (F32 P)) BoxD.one_fin 1 (fun i => by rw [BoxD.one_cen]; simp) (fun i => by rw [BoxD.one_ext]; simp) (by norm_num)).imp fun C p h =>
    ⟨h.1, fun i => (h.2 i).trans (by norm_num)⟩
open Loc in
example (c : Cfg) : List.Forall₂ (PtClose (2/10^5)) ((cube : BoundingOrientedBox (F32 P)).GetCorners c)
    ([![-1, -1, 1], ![1, -1, 1], ![1, 1, 1], ![-1, 1, 1], ![-1, -1, -1], ![1, -1, -1], ![1, 1, -1], ![-1, 1, -1]].map fun s : Pt => ptOf (cube : BoundingOrientedBox (F32 P)).Center + rot 1 (ptOf (cube : BoundingOrientedBox (F32 P)).Extents * s)) := by
  have o : IsFinite 0x3F800000#32 := by decide
  refine (C146_orientedBoxCorners c (cube : BoundingOrientedBox (F32 P)) 1 fo3 ⟨o, o, o⟩ fidq (by simp) idq 1 0 (fun i => by show |ptOf o3 i| ≤ _; rw [po3]; simp) (fun i => by
      have : ptOf (cube : BoundingOrientedBox (F32 P)).Extents i = 1 := by
        fin_cases i
        exacts [v1, v1, v1]
      rw [this]; simp) (by norm_num) (by norm_num)).imp fun C p h => ⟨h.1, fun i => (h.2 i).trans (by norm_num)⟩
open Loc in
example (c : Cfg) : ((frus : BoundingFrustum (F32 P)).GetCorners c).length = 8 ∧ ∀ C ∈ (frus : BoundingFrustum (F32 P)).GetCorners c, Fin3 C := by
  have o : IsFinite 0x3F800000#32 := by decide
  have n : IsFinite 0xBF800000#32 := by decide
  have e1 : |value (fl 0x3F800000#32 : F32 P).bits| ≤ 1 := by rw [v1]; norm_num
  have en : |value (fl 0xBF800000#32 : F32 P).bits| ≤ 1 := by rw [vn]; norm_num
  have eh : |value (fl 0x3F000000#32 : F32 P).bits| ≤ 2 := by rw [vh]; norm_num
  have e2 : |value (fl 0x40000000#32 : F32 P).bits| ≤ 2 := by rw [v2]; norm_num
  have := C146_frustumCorners c (frus : BoundingFrustum (F32 P)) 1 fo3 fidq o n o n (by decide : IsFinite 0x3F000000#32) (by decide : IsFinite 0x40000000#32) (by simp) idq 1 2 0
    (fun i => by show |ptOf o3 i| ≤ _; rw [po3]; simp) (by norm_num) le_rfl (by norm_num) (by norm_num) e1 en e1 en eh e2
  refine ⟨this.length_eq, fun C hC => ?_⟩
  obtain ⟨i, hi, rfl⟩ := List.getElem_of_mem hC
  exact (this.get hi (by rw [← this.length_eq]; exact hi)).1
end DXM.Props
