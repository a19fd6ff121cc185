import Verif.Props.FloatLine
import Verif.Props.CollisionOBB

/-
C141: spheres made from boxes and boxes made from spheres on binary32 lanes.
-/

set_option linter.all false

namespace DXM.Props
open DXM.Spec DXM.FErr DXM.IEEE DXM.RG Matrix
variable {P : Env}

theorem Cv.radius (c : Cfg) (e : F3 (F32 P)) (h : Fin3 e) (hl : len (ptOf e) ≤ 2^60) :
    Fin' (XMVectorGetX (XMVector3Length c (load3 e))) ∧ |val (XMVectorGetX (XMVector3Length c (load3 e))) - len (ptOf e)| ≤ 6/2^24 * len (ptOf e) + 1/2^45 := by
  refine LineD.length c (load3 e) (fun k hk => ?_) hl 0
  fin_cases k
  · exact h.1
  · exact h.2.1
  · exact h.2.2
  · exact absurd hk (by decide)
theorem Cv.grow {S : Set Pt} {a : Pt} {r R m : ℝ} (h : S ⊆ ball a r) (hr : |R - r| ≤ m) : S ⊆ ball a (R + m) := fun p hp => by
  have := h hp
  rw [mem_ball] at *
  have := abs_le.1 hr
  linarith

/-- C141: the sphere made from a box on binary32 lanes keeps the center, contains the box, and is no larger than any sphere containing the box, up to 6/2^24 of the half diagonal. -/
theorem C141_sphereFromBox (c : Cfg) (B : BoundingBox (F32 P)) (h : FinBox B) (he : ∀ i, 0 ≤ ptOf B.Extents i) (hl : len (ptOf B.Extents) ≤ 2^60) :
    let D := BoundingSphere.CreateFromBoundingBox c B
    let m := 6/2^24 * len (ptOf B.Extents) + 1/2^45
    FinSphere D ∧ D.Center = B.Center ∧ boxSet B ⊆ ball (ptOf D.Center) (value D.Radius.bits + m) ∧
    ∀ (y : Pt) (ρ : ℝ), boxSet B ⊆ ball y ρ → value D.Radius.bits ≤ ρ + m := by
  intro D m
  obtain ⟨f, e⟩ := Cv.radius c B.Extents h.2 hl
  obtain ⟨-, k1, k2⟩ := C77_sphereFromBox c (ptOf B.Center) (ptOf B.Extents) he
  refine ⟨⟨h.1, f⟩, rfl, Cv.grow k1 e, fun y ρ hy => ?_⟩
  have := k2 y ρ hy
  have e' := abs_le.1 e
  show val (XMVectorGetX (XMVector3Length c (load3 B.Extents))) ≤ ρ + (6/2^24 * len (ptOf B.Extents) + 1/2^45)
  linarith

/-- C141: the same for an oriented box, whichever rotation its orientation stands for. -/
theorem C141_sphereFromOrientedBox (c : Cfg) (O : BoundingOrientedBox (F32 P)) (hC : Fin3 O.Center) (hE : Fin3 O.Extents) (he : ∀ i, 0 ≤ ptOf O.Extents i) (hl : len (ptOf O.Extents) ≤ 2^60)
    (q : Quaternion ℝ) (hq : Quaternion.normSq q = 1) :
    let D := BoundingSphere.CreateFromBoundingOrientedBox c O
    let m := 6/2^24 * len (ptOf O.Extents) + 1/2^45
    FinSphere D ∧ D.Center = O.Center ∧ obox (ptOf O.Center) (ptOf O.Extents) q ⊆ ball (ptOf D.Center) (value D.Radius.bits + m) ∧
    ∀ (y : Pt) (ρ : ℝ), obox (ptOf O.Center) (ptOf O.Extents) q ⊆ ball y ρ → value D.Radius.bits ≤ ρ + m := by
  intro D m
  obtain ⟨f, e⟩ := Cv.radius c O.Extents hE hl
  obtain ⟨-, k1, k2⟩ := C77_sphereFromOrientedBox c (ptOf O.Center) (ptOf O.Extents) q hq he
  refine ⟨⟨hC, f⟩, rfl, Cv.grow k1 e, fun y ρ hy => ?_⟩
  have := k2 y ρ hy
  have e' := abs_le.1 e
  show val (XMVectorGetX (XMVector3Length c (load3 O.Extents))) ≤ ρ + (6/2^24 * len (ptOf O.Extents) + 1/2^45)
  linarith

/-- C141: the box made from a sphere on binary32 lanes contains the sphere and lies in every box that contains the sphere, up to 2^-19 of the size of the coordinates and the radius. -/
theorem C141_boxFromSphere (c : Cfg) (S : BoundingSphere (F32 P)) (h : FinSphere S) (h0 : 0 ≤ value S.Radius.bits) (W : ℝ) (hW : W ≤ 2^120) (b : ∀ i, |ptOf S.Center i| ≤ W) (w : value S.Radius.bits ≤ W) :
    let D := BoundingBox.CreateFromSphere c S
    let m := W / 2^19 + 1/2^100
    FinBox D ∧ ball (ptOf S.Center) (value S.Radius.bits) ⊆ inflate D m ∧
    ∀ y g : Pt, ball (ptOf S.Center) (value S.Radius.bits) ⊆ box y g → boxSet D ⊆ box y (fun i => g i + m) := by
  intro D m
  set r := value S.Radius.bits with hr
  have W0 : 0 ≤ W := h0.trans w
  have hu : ulp2 = 1/2^24 := by unfold ulp2; norm_num
  set lo := XMVectorSubtract (load3 S.Center) (XMVectorReplicate S.Radius) with hlo
  set hi := XMVectorAdd (load3 S.Center) (XMVectorReplicate S.Radius) with hhi
  have kl : ∀ j : Fin 3, Fin' (F3.lane (xyz lo) j) ∧ |ptOf (xyz lo) j - (ptOf S.Center j - r)| ≤ 2/2^24 * W := fun j => by
    have bj := b j
    have bj' := abs_le.1 bj
    have ab : |ptOf S.Center j - r| ≤ 2 * W := abs_le.2 ⟨by linarith, by linarith⟩
    rw [ptOf_lane] at ab
    obtain ⟨f, e⟩ := sub_rel (fin3_lane h.1 j) h.2 (ab.trans (by linarith))
    rw [ptOf_lane, ptOf_lane, show F3.lane (xyz lo) j = Lane.sub (F3.lane S.Center j) S.Radius by fin_cases j <;> rfl]
    refine ⟨f, e.trans ?_⟩
    rw [hu]
    exact (mul_le_mul_of_nonneg_left ab (by positivity)).trans (by linarith)
  have kh : ∀ j : Fin 3, Fin' (F3.lane (xyz hi) j) ∧ |ptOf (xyz hi) j - (ptOf S.Center j + r)| ≤ 2/2^24 * W := fun j => by
    have bj := b j
    have bj' := abs_le.1 bj
    have ab : |ptOf S.Center j + r| ≤ 2 * W := abs_le.2 ⟨by linarith, by linarith⟩
    rw [ptOf_lane] at ab
    obtain ⟨f, e⟩ := add_rel (fin3_lane h.1 j) h.2 (ab.trans (by linarith))
    rw [ptOf_lane, ptOf_lane, show F3.lane (xyz hi) j = Lane.add (F3.lane S.Center j) S.Radius by fin_cases j <;> rfl]
    refine ⟨f, e.trans ?_⟩
    rw [hu]
    exact (mul_le_mul_of_nonneg_left ab (by positivity)).trans (by linarith)
  have size : ∀ j, |ptOf (xyz lo) j| ≤ 3 * W ∧ |ptOf (xyz hi) j| ≤ 3 * W := fun j => by
    have bj' := abs_le.1 (b j); have k1 := abs_le.1 (kl j).2; have k2 := abs_le.1 (kh j).2
    exact ⟨abs_le.2 ⟨by linarith, by linarith⟩, abs_le.2 ⟨by linarith, by linarith⟩⟩
  obtain ⟨fD, eD⟩ := mid_err c lo hi ⟨(kl 0).1, (kl 1).1, (kl 2).1⟩ ⟨(kh 0).1, (kh 1).1, (kh 2).1⟩ (3 * W) (by linarith) (fun j => (size j).1) (fun j => (size j).2)
  have g2 : gam 2 ≤ 3/2^24 := by unfold gam ulp2; norm_num
  have t1 : tiny ≤ 1/2^110 := by unfold tiny; norm_num
  have tp := tiny_pos
  have key : ∀ i, |ptOf D.Center i - ptOf S.Center i| ≤ W / 2^20 + 1/2^101 ∧ |ptOf D.Extents i - r| ≤ W / 2^20 + 1/2^101 := fun i => by
    obtain ⟨q1, q2⟩ := eD i
    have mm := mul_le_mul_of_nonneg_right g2 (show 0 ≤ 3 * W + tiny by linarith)
    have e1 := abs_le.1 (q1.trans mm); have e2 := abs_le.1 (q2.trans mm)
    have k1 := abs_le.1 (kl i).2; have k2 := abs_le.1 (kh i).2
    change -(_) ≤ ptOf D.Center i - _ ∧ ptOf D.Center i - _ ≤ _ at e1
    change -(_) ≤ ptOf D.Extents i - _ ∧ ptOf D.Extents i - _ ≤ _ at e2
    exact ⟨abs_le.2 ⟨by linarith, by linarith⟩, abs_le.2 ⟨by linarith, by linarith⟩⟩
  refine ⟨fD, ?_, fun y g hy => ?_⟩
  · rw [inflate, ball_subset_box _ _ _ _ h0]
    intro i
    have k1 := abs_le.1 (key i).1; have k2 := abs_le.1 (key i).2
    constructor <;> simp only [m] <;> linarith
  · rw [ball_subset_box _ _ _ _ h0] at hy
    intro p hp i
    have q := abs_le.1 (hp i)
    have k1 := abs_le.1 (key i).1; have k2 := abs_le.1 (key i).2
    have := hy i
    show |p i - y i| ≤ g i + (W / 2^19 + 1/2^100)
    exact abs_le.2 ⟨by linarith, by linarith⟩

/-! The hypotheses are met by the cube of half-size 1 and by the sphere of radius 1/2 about the origin. -/
open Loc in
example (c : Cfg) : |value (BoundingSphere.CreateFromBoundingOrientedBox c (cube : BoundingOrientedBox (F32 P))).Radius.bits - Real.sqrt 3| ≤ 1/2^18 := by
  have p1 : ptOf (cube : BoundingOrientedBox (F32 P)).Extents = fun _ => 1 := by funext i; fin_cases i <;> exact v1
  have l3 : len (fun _ => 1 : Pt) = Real.sqrt 3 := by unfold len; congr 1; simp [dotProduct, Fin.sum_univ_three]
  have s2 : Real.sqrt 3 ≤ 2 := Real.sqrt_le_iff.2 ⟨by norm_num, by norm_num⟩
  obtain ⟨-, -, k1, k2⟩ := C141_sphereFromOrientedBox c (cube : BoundingOrientedBox (F32 P)) fo3 ⟨(by decide : IsFinite 0x3F800000#32), (by decide : IsFinite 0x3F800000#32), (by decide : IsFinite 0x3F800000#32)⟩
    (fun i => by rw [p1]; norm_num) (by rw [p1, l3]; linarith) 1 (by simp)
  obtain ⟨-, j1, j2⟩ := C77_sphereFromOrientedBox c (ptOf (cube : BoundingOrientedBox (F32 P)).Center) (ptOf (cube : BoundingOrientedBox (F32 P)).Extents) 1 (by simp) (fun i => by rw [p1]; norm_num)
  have a := k2 _ _ j1
  have b := j2 _ _ k1
  rw [p1, l3] at a b
  exact abs_le.2 ⟨by linarith, by linarith⟩
open Loc in
example (c : Cfg) : boxSet (BoundingBox.CreateFromSphere c (⟨o3, fl 0x3F000000#32⟩ : BoundingSphere (F32 P))) ⊆ box 0 (fun _ => 1/2 + 1/2^19) := by
  have r2 : value (fl 0x3F000000#32 : F32 P).bits = 1/2 := vh
  have k := (C141_boxFromSphere c (⟨o3, fl 0x3F000000#32⟩ : BoundingSphere (F32 P)) ⟨fo3, (by decide : IsFinite 0x3F000000#32)⟩ (by rw [r2]; norm_num) (1/2) (by norm_num)
    (fun i => by show |ptOf o3 i| ≤ _; rw [po3]; simp) (by rw [r2])).2.2 0 (fun _ => 1/2) (by
      rw [ball_subset_box _ _ _ _ (by rw [r2]; norm_num)]; intro i
      show _ ≤ ptOf o3 i - value _ ∧ ptOf o3 i + value _ ≤ _
      rw [po3, r2]; simp)
  intro p hp i
  exact (k hp i).trans (by norm_num)
end DXM.Props
