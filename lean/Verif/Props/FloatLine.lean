import Verif.Props.FloatMerge
import Verif.Props.FloatAgree
import Verif.Props.FloatUnit

/-
C140: the distance of a point from a line on binary32 lanes.
-/

set_option linter.all false

namespace DXM.Props
open DXM.Spec DXM.FErr DXM.IEEE DXM.RG Matrix
variable {P : Env}

namespace LineD
/-- The square root of a rounded sum of squares, also where the squares underflow. -/
theorem sqrt_abs {S : ℝ} {x : F32 P} (h : LSq 3 S x) (hx : NonNeg x) (h0 : 0 ≤ S) (hS : S ≤ 2^126) :
    Fin' (Lane.sqrt x) ∧ |val (Lane.sqrt x) - Real.sqrt S| ≤ 6/2^24 * Real.sqrt S + 1/2^45 := by
  by_cases hm : 1/2^100 ≤ S
  · obtain ⟨f, e⟩ := h.rel_sqrt ⟨hm, hS⟩ (by norm_num)
    refine ⟨f, ?_⟩
    rw [abs_of_nonneg (Real.sqrt_nonneg _)] at e
    have g5 : gam (3 + 2) ≤ 6/2^24 := by unfold gam ulp2; norm_num
    have := e.trans (mul_le_mul_of_nonneg_right g5 (Real.sqrt_nonneg S))
    have p : (0:ℝ) ≤ 1/2^45 := by positivity
    exact this.trans (by linarith)
  · rw [not_le] at hm
    have t1 : tiny ≤ 1/2^110 := by unfold tiny; norm_num
    have tp := tiny_pos
    have hM : S + (3:ℕ) * tiny ≤ 2^127 := by
      norm_num at *; linarith
    obtain ⟨f, e⟩ := (h (by norm_num : 3 ≤ 2^20)).2.2 hM
    push_cast at e
    have g3 : gam 3 ≤ 1 := by unfold gam ulp2; norm_num
    have e' := abs_le.1 (e.trans (mul_le_mul_of_nonneg_right g3 (by linarith)))
    have xs : val x ≤ 1/2^98 := by linarith
    rcases nonNeg_cases hx with ⟨-, x0⟩ | ht
    · have r := sqrt_rounds (P := P) f x0
      have s1 : Real.sqrt (val x) ≤ 1/2^49 := Real.sqrt_le_iff.2 ⟨by positivity, xs.trans (by norm_num)⟩
      have s2 : Real.sqrt S ≤ 1/2^50 := Real.sqrt_le_iff.2 ⟨by positivity, hm.le.trans (by norm_num)⟩
      have s0 := Real.sqrt_nonneg S
      have s0' := Real.sqrt_nonneg (val x)
      have hov : |Real.sqrt (val x)| < overflow := by
        rw [abs_of_nonneg s0']; unfold overflow; linarith
      refine ⟨r.finite hov, ?_⟩
      have n := r.nearest hov 0#32 (by decide)
      rw [show value 0#32 = 0 from val_zero, zero_sub, abs_neg, abs_of_nonneg s0'] at n
      have n' := abs_le.1 n
      have q : val (Lane.sqrt x) = value (IEEE.sqrt P x.bits) := rfl
      have nn : |value (IEEE.sqrt P x.bits)| ≤ 1/2^48 := by
        change |_ - Real.sqrt (value x.bits)| ≤ _ at n
        have : Real.sqrt (value x.bits) ≤ 1/2^49 := s1
        have := abs_le.1 n
        exact abs_le.2 ⟨by linarith, by linarith⟩
      rw [q]
      have nn' := abs_le.1 nn
      exact abs_le.2 ⟨by linarith, by linarith⟩
    · exfalso; rw [Fin', ht] at f; revert f; decide
/-- The length of a vector, also where the squares underflow. -/
theorem length (c : Cfg) (V : V4 (F32 P)) (h : Fins 3 V) (hS : len (ptOf (xyz V)) ≤ 2^60) (i : Fin 4) :
    Fin' ((XMVector3Length c V).lane i) ∧ |val ((XMVector3Length c V).lane i) - len (ptOf (xyz V))| ≤ 6/2^24 * len (ptOf (xyz V)) + 1/2^45 := by
  obtain ⟨q1, q2⟩ := Mrg.len_sqs V
  have hl := lsq3 h c
  rw [← sqs3] at hl
  obtain ⟨l1, l2, l3, l4, l5⟩ := hl
  have n0 := len_nonneg (ptOf (xyz V))
  have hb : sqs 3 V ≤ 2^126 := by rw [q2]; nlinarith
  rw [← q1]
  obtain ⟨f1, f2, f3⟩ := fins3 h
  have nx : NonNeg (Lane.mul V.x V.x) := nonNeg_sq (not_nan_of_finite f1)
  have ny : NonNeg (Lane.mul V.y V.y) := nonNeg_sq (not_nan_of_finite f2)
  have nz : NonNeg (Lane.mul V.z V.z) := nonNeg_sq (not_nan_of_finite f3)
  have key : ∀ L : V4 (F32 P), (∀ i, LSq 3 (sqs 3 V) (L.lane i)) → (∀ i, NonNeg (L.lane i)) →
      Fin' ((SSE.sqrt L).lane i) ∧ |val ((SSE.sqrt L).lane i) - Real.sqrt (sqs 3 V)| ≤ 6/2^24 * Real.sqrt (sqs 3 V) + 1/2^45 := by
    intro L hL hN
    have := sqrt_abs (hL i) (hN i) (sqs_nonneg 3 V) hb
    fin_cases i <;> exact this
  have a1 := nonNeg_add (nonNeg_add nx ny) nz
  have a3 := nonNeg_add (nonNeg_add nx nz) ny
  have a2 := nonNeg_add (nonNeg_add nx ny) (nonNeg_add nz nonNeg_zero)
  unfold XMVector3Length XMVectorSqrt
  split_ifs
  · exact key _ l1 (fun i => by fin_cases i <;> exact a2)
  · exact key _ l2 (fun i => by
      have e : sum3h (SSE.mul V V) = .splat (Lane.add (Lane.add (Lane.mul V.x V.x) (Lane.mul V.y V.y)) (Lane.add (Lane.mul V.z V.z) (Lane.ofBits 0#32))) := by
        simp only [sum3h, SSE.and, g_XMMask3, SSE.hadd, SSE.mul, V4.map2, LawfulLane.band_ones_right, LawfulLane.band_zero_right]; rfl
      rw [e]; fin_cases i <;> exact a2)
  · exact key _ l4 (fun i => by fin_cases i <;> first | exact a1 | exact a3)
  · exact key _ l5 (fun i => by
      unfold XMVector3LengthSq XMVector3Dot
      split_ifs <;> fin_cases i <;> first | exact a1 | exact a2 | exact a3)
/-- A rounded difference of two points. -/
theorem diff {A B : V4 (F32 P)} (hA : Fins 3 A) (hB : Fins 3 B) (hl : len (ptOf (xyz B) - ptOf (xyz A)) ≤ 2^40) :
    Fins 3 (XMVectorSubtract B A) ∧ len (ptOf (xyz (XMVectorSubtract B A)) - (ptOf (xyz B) - ptOf (xyz A))) ≤ 1/2^24 * len (ptOf (xyz B) - ptOf (xyz A)) := by
  obtain ⟨a1, a2, a3⟩ := fins3 hA
  obtain ⟨b1, b2, b3⟩ := fins3 hB
  have u0 : 0 < ulp2 := by unfold ulp2; positivity
  have hu : ulp2 = 1/2^24 := by unfold ulp2; norm_num
  have fA : Fin3 (xyz A) := ⟨a1, a2, a3⟩
  have fB : Fin3 (xyz B) := ⟨b1, b2, b3⟩
  have hj : ∀ j : Fin 3, Fin' (F3.lane (xyz (XMVectorSubtract B A)) j) ∧ |val (F3.lane (xyz (XMVectorSubtract B A)) j) - (ptOf (xyz B) j - ptOf (xyz A) j)| ≤ ulp2 * |ptOf (xyz B) j - ptOf (xyz A) j| := fun j => by
    have w := (abs_le_len (ptOf (xyz B) - ptOf (xyz A)) j).trans hl
    rw [Pi.sub_apply] at w
    rw [ptOf_lane, ptOf_lane] at *
    have := sub_rel (fin3_lane fB j) (fin3_lane fA j) (w.trans (by norm_num))
    rw [show F3.lane (xyz (XMVectorSubtract B A)) j = Lane.sub (F3.lane (xyz B) j) (F3.lane (xyz A) j) by fin_cases j <;> rfl]
    exact this
  constructor
  · intro k hk
    fin_cases k
    · exact (hj 0).1
    · exact (hj 1).1
    · exact (hj 2).1
    · exact absurd hk (by decide)
  · have e : 1/2^24 * len (ptOf (xyz B) - ptOf (xyz A)) = len (ulp2 • (ptOf (xyz B) - ptOf (xyz A))) := by rw [len_smul, abs_of_pos u0, hu]
    rw [e]
    refine BoxSph.len_mono fun j => ?_
    rw [Pi.sub_apply, ptOf_lane, Pi.smul_apply, smul_eq_mul, abs_mul, abs_of_pos u0]
    exact (hj j).2
/-- The part of `p` perpendicular to `w`, computed by projection. -/
theorem perp (c : Cfg) {U W : V4 (F32 P)} (hU : Fins 3 U) (hW : Fins 3 W) (h1 : len (ptOf (xyz U)) ≤ 2^41) (h2 : 1/2^41 ≤ len (ptOf (xyz W))) (h3 : len (ptOf (xyz W)) ≤ 2^41) :
    let D := XMVectorSubtract U (XMVectorMultiply W (XMVectorDivide (XMVector3Dot c U W) (XMVector3LengthSq c W)))
    let u := ptOf (xyz U); let w := ptOf (xyz W)
    Fins 3 D ∧ len (ptOf (xyz D) - (u - (u ⬝ᵥ w / w ⬝ᵥ w) • w)) ≤ 130/2^24 * len u + 1/2^60 := by
  intro D u w
  have n0 := len_nonneg u
  have w0 : 0 < len w := lt_of_lt_of_le (by positivity) h2
  have ww : w ⬝ᵥ w = len w * len w := (len_sq w).symm
  have wp : 0 < w ⬝ᵥ w := by rw [ww]; positivity
  obtain ⟨q1, q2⟩ := Mrg.len_sqs W
  have mid : Mid (sqs 3 W) := by
    rw [q2]
    have p : (0:ℝ) < 1/2^41 := by positivity
    change 1/2^41 ≤ len (ptOf (xyz W)) at h2
    exact ⟨by nlinarith, by nlinarith⟩
  have eww : sqs 3 W = w ⬝ᵥ w := by rw [ww]; exact q2
  have tp := tiny_pos
  have t100 : tiny ≤ 1/2^110 := by unfold tiny; norm_num
  obtain ⟨x1, x2, x3⟩ := fins3 hU
  obtain ⟨y1, y2, y3⟩ := fins3 hW
  have fU : Fin3 (xyz U) := ⟨x1, x2, x3⟩
  have fW : Fin3 (xyz W) := ⟨y1, y2, y3⟩
  have pu : ∀ j, |u j| ≤ len u := abs_le_len u
  have pw : ∀ j, |w j| ≤ len w := abs_le_len w
  have Uw : len u * len w ≤ 2^82 := by
    have := mul_le_mul h1 h3 w0.le (by positivity)
    exact this.trans (by norm_num)
  have lan : ∀ j : Fin 3, Fin' (F3.lane (xyz D) j) ∧ |val (F3.lane (xyz D) j) - (u - (u ⬝ᵥ w / w ⬝ᵥ w) • w) j| ≤ 64/2^24 * len u + 1/2^62 := by
    intro j
    have hd := C93_dot3 c U W hU hW j.castSucc
    have e3 : vals U 0 * vals W 0 + vals U 1 * vals W 1 + vals U 2 * vals W 2 = u ⬝ᵥ w := by
      simp only [dotProduct, Fin.sum_univ_three]; rfl
    have pr : ∀ k : Fin 3, |u k * w k| ≤ len u * len w := fun k => by rw [abs_mul]; exact mul_le_mul (pu k) (pw k) (abs_nonneg _) n0
    have s3 : |vals U 0 * vals W 0| + |vals U 1 * vals W 1| + |vals U 2 * vals W 2| ≤ 3 * (len u * len w) := by
      have a := pr 0; have b := pr 1; have d := pr 2
      have : |u 0 * w 0| + |u 1 * w 1| + |u 2 * w 2| ≤ 3 * (len u * len w) := by linarith
      exact this
    have aw : |u ⬝ᵥ w| ≤ 3 * (len u * len w) := by
      rw [← e3]
      exact ((abs_add_le _ _).trans (add_le_add_left (abs_add_le _ _) _)).trans s3
    have A1 : Ap ((XMVector3Dot c U W).lane j.castSucc) (u ⬝ᵥ w) (3 * (len u * len w) + 3 * tiny) 3 := by
      intro _
      refine ⟨by linarith, by norm_num, fun hM => ?_⟩
      rw [e3] at hd
      obtain ⟨f, e⟩ := hd (le_trans (by linarith) hM)
      exact ⟨f, e.trans (mul_le_mul_of_nonneg_left (by linarith) (gam_nonneg (by norm_num)))⟩
    have A2 : Ap ((XMVector3LengthSq c W).lane j.castSucc) (w ⬝ᵥ w) |w ⬝ᵥ w| 4 := by
      rw [abs_of_pos wp, ← eww]
      have := (lsq3 hW c).2.2.2.2 j.castSucc
      rw [← sqs3] at this
      exact this.ap mid (by norm_num)
    have A3 := A1.div A2 wp.ne' (by linarith) (by rw [abs_of_pos wp, ← eww]; exact mid.2.trans (by norm_num))
    rw [abs_of_pos wp] at A3
    have g : (3 * (len u * len w) + 3 * tiny) / (w ⬝ᵥ w) * len w ≤ 3 * len u + 1/2^66 := by
      have : (3 * (len u * len w) + 3 * tiny) / (w ⬝ᵥ w) * len w = 3 * len u + 3 * tiny / len w := by rw [ww]; field_simp
      rw [this]
      have k : 3 * tiny / len w ≤ 1/2^66 := by
        rw [div_le_iff₀ w0]; change 1/2^41 ≤ len w at h2; linarith
      linarith
    have gb : (3 * (len u * len w) + 3 * tiny) / (w ⬝ᵥ w) + tiny ≤ 2^127 := by
      have k : (3 * (len u * len w) + 3 * tiny) / (w ⬝ᵥ w) ≤ 2^126 := by
        rw [div_le_iff₀ wp]
        have := mid.1; rw [eww] at this
        have k1 : 3 * len u ≤ 2^125 * len w := by
          change 1/2^41 ≤ len w at h2
          have : len u ≤ 2^41 := h1
          linarith
        have k2 := mul_le_mul_of_nonneg_right k1 w0.le
        rw [ww] at this ⊢
        linarith
      linarith
    have A4 := (leaf (fin3_lane fW j)).mul A3 (by rw [← ptOf_lane]; exact ((pw j).trans h3).trans (by norm_num)) gb
    have A5 := (leaf (fin3_lane fU j)).sub A4
    have wl : |val (F3.lane (xyz W) j)| ≤ len w := by rw [← ptOf_lane]; exact pw j
    have ul : |val (F3.lane (xyz U) j)| ≤ len u := by rw [← ptOf_lane]; exact pu j
    have mb : |val (F3.lane (xyz U) j)| + (|val (F3.lane (xyz W) j)| * ((3 * (len u * len w) + 3 * tiny) / (w ⬝ᵥ w) + tiny) + tiny) ≤ 4 * len u + 1/2^64 := by
      have g0 : 0 ≤ (3 * (len u * len w) + 3 * tiny) / (w ⬝ᵥ w) := by positivity
      have k1 := mul_le_mul_of_nonneg_right wl (show 0 ≤ (3 * (len u * len w) + 3 * tiny) / (w ⬝ᵥ w) + tiny by linarith)
      have k2 : len w * tiny ≤ 2^41 * (1/2^110) := mul_le_mul h3 t100 tp.le (by positivity)
      have k3 : len w * ((3 * (len u * len w) + 3 * tiny) / (w ⬝ᵥ w) + tiny) = (3 * (len u * len w) + 3 * tiny) / (w ⬝ᵥ w) * len w + len w * tiny := by ring
      rw [k3] at k1
      linarith
    obtain ⟨f, e⟩ := (A5 (by norm_num)).2.2 (mb.trans (by linarith))
    have el : F3.lane (xyz D) j = Lane.sub (F3.lane (xyz U) j) (Lane.mul (F3.lane (xyz W) j) (Lane.div ((XMVector3Dot c U W).lane j.castSucc) ((XMVector3LengthSq c W).lane j.castSucc))) := by fin_cases j <;> rfl
    rw [el]
    refine ⟨f, ?_⟩
    have ev : (u - (u ⬝ᵥ w / w ⬝ᵥ w) • w) j = val (F3.lane (xyz U) j) - val (F3.lane (xyz W) j) * (u ⬝ᵥ w / w ⬝ᵥ w) := by
      rw [Pi.sub_apply, Pi.smul_apply, smul_eq_mul, ← ptOf_lane, ← ptOf_lane]; ring
    rw [ev]
    have g14 : gam (max 0 (0 + (3 + 2 * 4 + 1) + 1) + 1) ≤ 15/2^24 := by unfold gam ulp2; norm_num
    exact (e.trans (mul_le_mul g14 mb (by positivity) (by norm_num))).trans (by linarith)
  constructor
  · intro k hk
    fin_cases k
    · exact (lan 0).1
    · exact (lan 1).1
    · exact (lan 2).1
    · exact absurd hk (by decide)
  · have := BoxSph.len_small (v := ptOf (xyz D) - (u - (u ⬝ᵥ w / w ⬝ᵥ w) • w)) (e := 64/2^24 * len u + 1/2^62) (by positivity) (fun j => by
      rw [Pi.sub_apply, ptOf_lane]; exact (lan j).2)
    linarith
end LineD

/-- C140: the length of every vector of length at most 2^60, also where squares underflow. -/
theorem C140_length3 (c : Cfg) (V : V4 (F32 P)) (h : Fins 3 V) (hS : len (ptOf (xyz V)) ≤ 2^60) (i : Fin 4) :
    IsFinite ((XMVector3Length c V).lane i).bits ∧ |value ((XMVector3Length c V).lane i).bits - len (ptOf (xyz V))| ≤ 6/2^24 * len (ptOf (xyz V)) + 1/2^45 :=
  LineD.length c V h hS i

/-- C140: the distance of the point `X` from the line through `A` and `B`: up to 2^-16 of the distance of `X` from `A`, it is at most the distance to every point of the line, and some point of the line is that near. -/
theorem C140_linePointDistance3 (c : Cfg) (A B X : V4 (F32 P)) (hA : Fins 3 A) (hB : Fins 3 B) (hX : Fins 3 X)
    (h1 : len (ptOf (xyz X) - ptOf (xyz A)) ≤ 2^40) (h2 : 1/2^40 ≤ len (ptOf (xyz B) - ptOf (xyz A))) (h3 : len (ptOf (xyz B) - ptOf (xyz A)) ≤ 2^40) (i : Fin 4) :
    let d := value ((XMVector3LinePointDistance c A B X).lane i).bits
    let a := ptOf (xyz A); let b := ptOf (xyz B); let x := ptOf (xyz X)
    let m := len (x - a) / 2^16 + 1/2^40
    IsFinite ((XMVector3LinePointDistance c A B X).lane i).bits ∧
    (∀ t : ℝ, d ≤ len (x - (a + t • (b - a))) + m) ∧ ∃ t : ℝ, len (x - (a + t • (b - a))) ≤ d + m := by
  intro d a b x m
  obtain ⟨fU, eU⟩ := LineD.diff hA hX h1
  obtain ⟨fW, eW⟩ := LineD.diff hA hB h3
  set U := XMVectorSubtract X A with hU
  set W := XMVectorSubtract B A with hW
  set u := ptOf (xyz U) with hu
  set w := ptOf (xyz W) with hw
  change len (u - (x - a)) ≤ 1/2^24 * len (x - a) at eU
  change len (w - (b - a)) ≤ 1/2^24 * len (b - a) at eW
  change len (x - a) ≤ 2^40 at h1
  change 1/2^40 ≤ len (b - a) at h2
  change len (b - a) ≤ 2^40 at h3
  have lu := abs_le.1 ((Mrg.len_abs_sub u (x - a)).trans eU)
  have lw := abs_le.1 ((Mrg.len_abs_sub w (b - a)).trans eW)
  have n0 := len_nonneg (x - a)
  obtain ⟨fD, eD⟩ := LineD.perp c fU fW (by linarith) (by linarith) (by linarith)
  set D := XMVectorSubtract U (XMVectorMultiply W (XMVectorDivide (XMVector3Dot c U W) (XMVector3LengthSq c W))) with hD
  have w0 : w ≠ 0 := fun h => by
    rw [h, RG.len_zero] at lw
    linarith
  have b0 : b - a ≠ 0 := fun h => by
    rw [h, RG.len_zero] at h2
    norm_num at h2
  set s := u ⬝ᵥ w / w ⬝ᵥ w with hs
  change len (ptOf (xyz D) - (u - s • w)) ≤ 130/2^24 * len u + 1/2^60 at eD
  have ns := foot_nearest u w w0
  have ns0 := ns 0
  rw [zero_smul, sub_zero] at ns0
  change len (u - s • w) ≤ len u at ns0
  have ld := abs_le.1 ((Mrg.len_abs_sub _ _).trans eD)
  have dn := len_nonneg (u - s • w)
  obtain ⟨fL, eL⟩ := LineD.length c D fD (by linarith) i
  have e : XMVector3LinePointDistance c A B X = XMVector3Length c D := rfl
  have vd : d = val ((XMVector3Length c D).lane i) := rfl
  rw [← vd] at eL
  have el := abs_le.1 eL
  have key : |d - len (u - s • w)| ≤ 150/2^24 * len (x - a) + 1/2^44 := abs_le.2 ⟨by linarith, by linarith⟩
  have key' := abs_le.1 key
  -- moving a combination from the rounded to the real differences
  have move : ∀ t : ℝ, len ((u - t • w) - ((x - a) - t • (b - a))) ≤ 1/2^24 * len (x - a) + 1/2^24 * (|t| * len (b - a)) := fun t => by
    have q : (u - t • w) - ((x - a) - t • (b - a)) = (u - (x - a)) - t • (w - (b - a)) := by rw [smul_sub t w]; abel
    rw [q]
    have := len_add_le (u - (x - a)) (-(t • (w - (b - a))))
    rw [← sub_eq_add_neg, RG.len_neg, len_smul] at this
    have k := mul_le_mul_of_nonneg_left eW (abs_nonneg t)
    linarith
  refine ⟨fL, fun t => ?_, s, ?_⟩
  · set r := (x - a) ⬝ᵥ (b - a) / (b - a) ⬝ᵥ (b - a) with hr
    have nr := foot_nearest (x - a) (b - a) b0
    have nr0 := nr 0
    rw [zero_smul, sub_zero] at nr0
    have nt := nr t
    change len (x - a - r • (b - a)) ≤ _ at nr0 nt
    have rb : |r| * len (b - a) ≤ 2 * len (x - a) := by
      rw [← len_smul]
      have := len_sub_le (r • (b - a)) (x - a) 0
      rw [sub_zero, sub_zero, len_sub_comm] at this
      linarith
    have nsr := ns r
    have mv := abs_le.1 ((Mrg.len_abs_sub _ _).trans (move r))
    change len (u - s • w) ≤ _ at nsr
    rw [← sub_sub]
    show d ≤ _ + (len (x - a) / 2^16 + 1/2^40)
    linarith
  · have sb : |s| * len w ≤ 2 * len u := by
      rw [← len_smul]
      have := len_sub_le (s • w) u 0
      rw [sub_zero, sub_zero, len_sub_comm] at this
      linarith
    have sb' : |s| * len (b - a) ≤ 5 * len (x - a) := by
      have k := mul_le_mul_of_nonneg_left (show len (b - a) ≤ 2 * len w by linarith) (abs_nonneg s)
      linarith
    have mv := abs_le.1 ((Mrg.len_abs_sub _ _).trans (move s))
    rw [← sub_sub]
    show _ ≤ d + (len (x - a) / 2^16 + 1/2^40)
    linarith

/-! The hypotheses are met: the point (0, 2, 0) and the line through the origin and (2, 0, 0). The result is within 2^-14 of the distance 2, in every build. -/
open Loc in
example (c : Cfg) (i : Fin 4) : |value ((XMVector3LinePointDistance c (⟨fl 0#32, fl 0#32, fl 0#32, fl 0#32⟩ : V4 (F32 P)) ⟨fl 0x40000000#32, fl 0#32, fl 0#32, fl 0#32⟩ ⟨fl 0#32, fl 0x40000000#32, fl 0#32, fl 0#32⟩).lane i).bits - 2| ≤ 1/2^14 := by
  have z : IsFinite 0#32 := by decide
  have t : IsFinite 0x40000000#32 := by decide
  have fA : Fins 3 (⟨fl 0#32, fl 0#32, fl 0#32, fl 0#32⟩ : V4 (F32 P)) := fun k _ => by fin_cases k <;> exact z
  have fB : Fins 3 (⟨fl 0x40000000#32, fl 0#32, fl 0#32, fl 0#32⟩ : V4 (F32 P)) := fun k _ => by
    fin_cases k
    exacts [t, z, z, z]
  have fX : Fins 3 (⟨fl 0#32, fl 0x40000000#32, fl 0#32, fl 0#32⟩ : V4 (F32 P)) := fun k _ => by
    fin_cases k
    exacts [z, t, z, z]
  have eA : ptOf (xyz (⟨fl 0#32, fl 0#32, fl 0#32, fl 0#32⟩ : V4 (F32 P))) = 0 := by funext k; fin_cases k <;> exact v0
  have eB : ptOf (xyz (⟨fl 0x40000000#32, fl 0#32, fl 0#32, fl 0#32⟩ : V4 (F32 P))) = ![2, 0, 0] := by
    funext k; fin_cases k
    exacts [v2, v0, v0]
  have eX : ptOf (xyz (⟨fl 0#32, fl 0x40000000#32, fl 0#32, fl 0#32⟩ : V4 (F32 P))) = ![0, 2, 0] := by
    funext k; fin_cases k
    exacts [v0, v2, v0]
  have lB : len (![2, 0, 0] : Pt) = 2 := by
    have := len_sq (![2, 0, 0] : Pt)
    rw [show (![2, 0, 0] : Pt) ⬝ᵥ ![2, 0, 0] = 2 * 2 by simp [dotProduct, Fin.sum_univ_three]] at this
    nlinarith [len_nonneg (![2, 0, 0] : Pt)]
  have lX : len (![0, 2, 0] : Pt) = 2 := by
    have := len_sq (![0, 2, 0] : Pt)
    rw [show (![0, 2, 0] : Pt) ⬝ᵥ ![0, 2, 0] = 2 * 2 by simp [dotProduct, Fin.sum_univ_three]] at this
    nlinarith [len_nonneg (![0, 2, 0] : Pt)]
  obtain ⟨-, k1, t, k2⟩ := C140_linePointDistance3 c _ _ _ fA fB fX (by rw [eA, eX, sub_zero, lX]; norm_num) (by rw [eA, eB, sub_zero, lB]; norm_num) (by rw [eA, eB, sub_zero, lB]; norm_num) i
  have k0 := k1 0
  simp only [eA, eB, eX, sub_zero, zero_add, zero_smul, lX] at k0 k2
  have k3 := abs_le_len (![0, 2, 0] - t • ![2, 0, 0] : Pt) 1
  have e3 : (![0, 2, 0] - t • ![2, 0, 0] : Pt) 1 = 2 := by simp
  rw [e3, abs_of_pos (by norm_num)] at k3
  rw [abs_le]
  constructor <;> linarith
end DXM.Props
