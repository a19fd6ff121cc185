import Verif.Props.FloatSix

/-
C139: merging two spheres on binary32 lanes.
-/

set_option linter.all false

namespace DXM.Props
open DXM.Spec DXM.FErr DXM.IEEE DXM.RG Matrix
variable {P : Env}

namespace Mrg
theorem len_abs_sub (a b : Pt) : |len a - len b| ≤ len (a - b) := by
  have h1 := len_add_le (a - b) b; rw [sub_add_cancel] at h1
  have h2 := len_add_le (b - a) a; rw [sub_add_cancel, len_sub_comm b a] at h2
  rw [abs_le]; constructor <;> linarith
theorem len_sqs (V : V4 (F32 P)) : Real.sqrt (sqs 3 V) = len (ptOf (xyz V)) ∧ sqs 3 V = len (ptOf (xyz V)) * len (ptOf (xyz V)) := by
  have e : sqs 3 V = ptOf (xyz V) ⬝ᵥ ptOf (xyz V) := by
    rw [sqs3]; simp only [dotProduct, Fin.sum_univ_three]
    show _ = val V.x * val V.x + val V.y * val V.y + val V.z * val V.z
    ring
  rw [← len_sq] at e
  exact ⟨by rw [e, Real.sqrt_mul_self (len_nonneg _)], e⟩
/-- The rounded difference of the centers and its rounded length. -/
theorem dist (c : Cfg) {A B : F3 (F32 P)} (hA : Fin3 A) (hB : Fin3 B) {L : ℝ} (hL : L = len (ptOf B - ptOf A)) (h1 : 1/2^40 ≤ L) (h2 : L ≤ 2^60) (hW : ∀ i, |ptOf B i - ptOf A i| ≤ 2^60) (i : Fin 4) :
    (∀ j : Fin 3, Ap (F3.lane (xyz (XMVectorSubtract (load3 B) (load3 A))) j) (ptOf B j - ptOf A j) |ptOf B j - ptOf A j| 1) ∧
    Ap ((XMVector3Length c (XMVectorSubtract (load3 B) (load3 A))).lane i) L |L| 7 := by
  set V := XMVectorSubtract (load3 B) (load3 A : V4 (F32 P)) with hV
  have hj : ∀ j : Fin 3, Fin' (F3.lane (xyz V) j) ∧ |val (F3.lane (xyz V) j) - (ptOf B j - ptOf A j)| ≤ ulp2 * |ptOf B j - ptOf A j| := fun j => by
    have w := hW j
    rw [ptOf_lane, ptOf_lane] at *
    have := sub_rel (fin3_lane hB j) (fin3_lane hA j) (w.trans (by norm_num))
    rw [show F3.lane (xyz V) j = Lane.sub (F3.lane B j) (F3.lane A j) by fin_cases j <;> rfl]
    exact this
  have u0 : 0 < ulp2 := by unfold ulp2; positivity
  have g1 : ulp2 ≤ gam 1 := by unfold gam ulp2; norm_num
  have hlen : |len (ptOf (xyz V)) - L| ≤ ulp2 * L := by
    rw [hL]
    refine (len_abs_sub _ _).trans ?_
    have e : ulp2 * len (ptOf B - ptOf A) = len (ulp2 • (ptOf B - ptOf A)) := by rw [len_smul, abs_of_pos u0]
    rw [e]
    refine BoxSph.len_mono fun j => ?_
    rw [Pi.sub_apply, ptOf_lane, Pi.smul_apply, smul_eq_mul, abs_mul, abs_of_pos u0]
    exact (hj j).2
  have hu : ulp2 = 1/2^24 := by unfold ulp2; norm_num
  have hl := abs_le.1 hlen
  rw [hu] at hl
  have l1 : 1/2^41 ≤ len (ptOf (xyz V)) := by norm_num at *; linarith
  have l2 : len (ptOf (xyz V)) ≤ 2^61 := by norm_num at *; linarith
  obtain ⟨q1, q2⟩ := len_sqs V
  have mid : Mid (sqs 3 V) := by
    rw [q2]
    have p : (0:ℝ) < 1/2^41 := by positivity
    exact ⟨by nlinarith, by nlinarith⟩
  have fV : Fins 3 V := by
    intro k hk
    fin_cases k
    · exact (hj 0).1
    · exact (hj 1).1
    · exact (hj 2).1
    · exact absurd hk (by decide)
  obtain ⟨f, e⟩ := C95_length3 c V fV mid i
  rw [q1, abs_of_nonneg (len_nonneg _)] at e
  refine ⟨fun j _ => ⟨le_rfl, by norm_num, fun _ => ⟨(hj j).1, (hj j).2.trans (mul_le_mul_of_nonneg_right g1 (abs_nonneg _))⟩⟩, fun _ => ⟨le_rfl, by norm_num, fun _ => ⟨f, ?_⟩⟩⟩
  have L0 : 0 ≤ L := le_trans (by positivity) h1
  rw [abs_of_nonneg L0]
  have g5 : gam 5 ≤ 5/2^24 + 1/2^40 := by unfold gam ulp2; norm_num
  have g7 : 7/2^24 ≤ gam 7 := by unfold gam ulp2; norm_num
  have e2 := e.trans (mul_le_mul_of_nonneg_right g5 (len_nonneg _))
  have e3 := abs_le.1 e2
  have g7' := mul_le_mul_of_nonneg_right g7 L0
  refine le_trans ?_ g7'
  change |val _ - L| ≤ _
  change -(_) ≤ val _ - _ ∧ val _ - _ ≤ _ at e3
  rw [abs_le]
  constructor <;> norm_num at * <;> linarith
/-- A ball about `C1` and one about `C1 + L n` in the ball about a point near `C1 + τ n`. -/
theorem cover {C1 n x : Pt} {L τ r R e ε a : ℝ} (hn : len n = 1) (hr : 0 ≤ r) (hx : len (x - (C1 + τ • n)) ≤ e) (h1 : τ - a + r ≤ R + ε) (h2 : a - τ + r ≤ R + ε) :
    ball (C1 + a • n) r ⊆ ball x (R + (ε + e)) := by
  rw [ball_subset _ _ _ _ hr]
  have k : len (C1 + a • n - (C1 + τ • n)) = |a - τ| := by
    rw [add_sub_add_left_eq_sub, ← sub_smul, len_smul, hn, mul_one]
  have t := len_sub_le (C1 + a • n) (C1 + τ • n) x
  rw [k, len_sub_comm (C1 + τ • n)] at t
  rcases abs_cases (a - τ) with ⟨q, _⟩ | ⟨q, _⟩ <;> rw [q] at t <;> linarith
set_option maxHeartbeats 2000000 in
/-- The result of merging, with the radius compared with the smallest one possible. -/
theorem merged (c : Cfg) (S1 S2 : BoundingSphere (F32 P)) (W : ℝ) (h1 : FinSphere S1) (h2 : FinSphere S2) (r1 : 0 ≤ value S1.Radius.bits) (r2 : 0 ≤ value S2.Radius.bits)
    (b1 : ∀ i, |ptOf S1.Center i| ≤ W) (b2 : ∀ i, |ptOf S2.Center i| ≤ W) (w1 : value S1.Radius.bits ≤ W) (w2 : value S2.Radius.bits ≤ W) (hW : W ≤ 2^50)
    (hL : 1/2^40 ≤ len (ptOf S2.Center - ptOf S1.Center)) :
    let D := BoundingSphere.CreateMerged c S1 S2
    FinSphere D ∧ ball (ptOf S1.Center) (value S1.Radius.bits) ⊆ ball (ptOf D.Center) (value D.Radius.bits + W / 2^15) ∧
    ball (ptOf S2.Center) (value S2.Radius.bits) ⊆ ball (ptOf D.Center) (value D.Radius.bits + W / 2^15) ∧
    value D.Radius.bits ≤ max (max (value S1.Radius.bits) (value S2.Radius.bits)) ((len (ptOf S2.Center - ptOf S1.Center) + value S1.Radius.bits + value S2.Radius.bits) / 2) + W / 2^15 := by
  intro D
  set L := len (ptOf S2.Center - ptOf S1.Center) with hLL
  set ρ1 := value S1.Radius.bits with hρ1
  set ρ2 := value S2.Radius.bits with hρ2
  have W0 : 0 ≤ W := r1.trans w1
  have p40 : (0:ℝ) < 1/2^40 := by positivity
  have L0 : 0 < L := p40.trans_le hL
  have v2 : ∀ i, |ptOf S2.Center i - ptOf S1.Center i| ≤ 2 * W := fun i => (abs_sub _ _).trans (by linarith [b1 i, b2 i])
  have L4 : L ≤ 4 * W := by have := BoxSph.len_small (v := ptOf S2.Center - ptOf S1.Center) (e := 2 * W) (by linarith) v2; linarith
  have Wlow : 1/2^42 ≤ W := by linarith
  obtain ⟨-, hd⟩ := Mrg.dist c h1.1 h2.1 hLL hL (by linarith) (fun i => (v2 i).trans (by linarith)) 0
  have hv := fun i => (Mrg.dist c h1.1 h2.1 hLL hL (by linarith) (fun i => (v2 i).trans (by linarith)) i).1
  have hdl := fun i => (Mrg.dist c h1.1 h2.1 hLL hL (by linarith) (fun i => (v2 i).trans (by linarith)) i).2
  set V := XMVectorSubtract (load3 S2.Center) (load3 S1.Center : V4 (F32 P)) with hV
  set Dl := XMVector3Length c V with hDl
  set d := Dl.lane 0 with hdd
  have aL : |L| = L := abs_of_pos L0
  obtain ⟨fd, ed⟩ := (hd (by norm_num)).2.2 (by rw [aL]; linarith)
  rw [aL] at ed
  have g7 : gam 7 ≤ 8/2^24 := by unfold gam ulp2; norm_num
  have hu : ulp2 = 1/2^24 := by unfold ulp2; norm_num
  have ed' := abs_le.1 (ed.trans (mul_le_mul_of_nonneg_right g7 L0.le))
  have e : D = if (Lane.ge (Lane.add S1.Radius S2.Radius) d && Lane.ge (Lane.sub S1.Radius S2.Radius) d) = true then S1 else
      if (Lane.ge (Lane.add S1.Radius S2.Radius) d && Lane.ge (Lane.sub S2.Radius S1.Radius) d) = true then S2 else
      { Center := store3 (XMVectorAdd (load3 S1.Center) (XMVectorMultiply (XMVectorDivide V Dl) (XMVectorReplicate
          (Lane.add (Lane.mul (Lane.sub (Lane.maxps S1.Radius (Lane.add d S2.Radius)) (Lane.minps (Lane.neg S1.Radius) (Lane.sub d S2.Radius))) Lane.cHalf) (Lane.minps (Lane.neg S1.Radius) (Lane.sub d S2.Radius))))))
        Radius := Lane.mul (Lane.sub (Lane.maxps S1.Radius (Lane.add d S2.Radius)) (Lane.minps (Lane.neg S1.Radius) (Lane.sub d S2.Radius))) Lane.cHalf } := rfl
  -- the two spheres on one line
  set n : Pt := (1/L) • (ptOf S2.Center - ptOf S1.Center) with hn
  have n1 : len n = 1 := by rw [hn, len_smul, ← hLL, abs_of_pos (by positivity)]; field_simp
  have c2 : ptOf S2.Center = ptOf S1.Center + L • n := by
    rw [hn, smul_smul, mul_one_div_cancel L0.ne', one_smul]; abel
  have c1 : ptOf S1.Center = ptOf S1.Center + (0:ℝ) • n := by rw [zero_smul, add_zero]
  have nest : ∀ A B : BoundingSphere (F32 P), FinSphere A → FinSphere B → 0 ≤ value A.Radius.bits → 0 ≤ value B.Radius.bits → value A.Radius.bits ≤ W → value B.Radius.bits ≤ W →
      len (ptOf B.Center - ptOf A.Center) = L → Lane.ge (Lane.sub A.Radius B.Radius) d = true → ball (ptOf B.Center) (value B.Radius.bits) ⊆ ball (ptOf A.Center) (value A.Radius.bits + W / 2^15) := by
    intro A B hA hB a0 b0 aW bW hl hg
    rw [ball_subset _ _ _ _ b0, hl]
    have ab : |val A.Radius - val B.Radius| ≤ W := abs_le.2 ⟨by show _ ≤ value _ - value _; linarith, by show value _ - value _ ≤ _; linarith⟩
    obtain ⟨q1, q2⟩ := sub_rel hA.2 hB.2 (ab.trans (by linarith))
    rw [ge_iff', fle_val fd q1] at hg
    rw [hu] at q2
    have q3 := abs_le.1 q2
    change -(_) ≤ _ - (value A.Radius.bits - value B.Radius.bits) ∧ _ - (value A.Radius.bits - value B.Radius.bits) ≤ _ at q3
    linarith
  have mono : ∀ (p : Pt) (r : ℝ), ball p r ⊆ ball p (r + W / 2^15) := fun p r q hq => by
    rw [mem_ball] at *; have : 0 ≤ W / 2^15 := by positivity
    linarith
  have Wp : 0 ≤ W / 2^15 := by positivity
  by_cases g1 : (Lane.ge (Lane.add S1.Radius S2.Radius) d && Lane.ge (Lane.sub S1.Radius S2.Radius) d) = true
  · rw [e, if_pos g1]
    refine ⟨h1, mono _ _, nest S1 S2 h1 h2 r1 r2 w1 w2 rfl (by simp only [Bool.and_eq_true] at g1; exact g1.2), ?_⟩
    have := (le_max_left ρ1 ρ2).trans (le_max_left (max ρ1 ρ2) ((L + ρ1 + ρ2) / 2))
    linarith
  by_cases g2 : (Lane.ge (Lane.add S1.Radius S2.Radius) d && Lane.ge (Lane.sub S2.Radius S1.Radius) d) = true
  · rw [e, if_neg g1, if_pos g2]
    refine ⟨h2, nest S2 S1 h2 h1 r2 r1 w2 w1 (by rw [len_sub_comm]) (by simp only [Bool.and_eq_true] at g2; exact g2.2), mono _ _, ?_⟩
    have := (le_max_right ρ1 ρ2).trans (le_max_left (max ρ1 ρ2) ((L + ρ1 + ρ2) / 2))
    linarith
  rw [e, if_neg g1, if_neg g2]
  have d0 : 0 ≤ val d ∧ val d ≤ 5 * W := by constructor <;> linarith
  -- the ends of the union on the line
  have vr2 : val S2.Radius = ρ2 := rfl
  have vr1 : val S1.Radius = ρ1 := rfl
  obtain ⟨fa, ea⟩ := sub_rel fd h2.2 (by rw [vr2]; exact abs_le.2 ⟨by linarith, by linarith⟩)
  obtain ⟨fb, eb⟩ := add_rel fd h2.2 (by rw [vr2]; exact abs_le.2 ⟨by linarith, by linarith⟩)
  rw [vr2, hu] at ea eb
  have ea1 : |val d - ρ2| ≤ 6 * W := abs_le.2 ⟨by linarith, by linarith⟩
  have eb1 : |val d + ρ2| ≤ 6 * W := abs_le.2 ⟨by linarith, by linarith⟩
  have ea' := abs_le.1 ea; have eb' := abs_le.1 eb
  have fn : Fin' (Lane.neg S1.Radius) := finite_neg.2 h1.2
  obtain ⟨ft1, et1⟩ := min_val (a := Lane.neg S1.Radius) fn fa
  obtain ⟨ft2, et2⟩ := max_val h1.2 fb
  rw [show val (Lane.neg S1.Radius) = -ρ1 from neg_value _] at et1
  rw [vr1] at et2
  set t1 := Lane.minps (Lane.neg S1.Radius) (Lane.sub d S2.Radius) with ht1
  set t2 := Lane.maxps S1.Radius (Lane.add d S2.Radius) with ht2
  have t1a : val t1 ≤ -ρ1 := by rw [et1]; exact min_le_left _ _
  have t1b : val t1 ≤ L - ρ2 + 40 / 2^24 * W := by
    have : val t1 ≤ val (Lane.sub d S2.Radius) := by rw [et1]; exact min_le_right _ _
    linarith
  have t2a : ρ1 ≤ val t2 := by rw [et2]; exact le_max_left _ _
  have t2b : L + ρ2 - 40 / 2^24 * W ≤ val t2 := by
    have : val (Lane.add d S2.Radius) ≤ val t2 := by rw [et2]; exact le_max_right _ _
    linarith
  have t1c : val t1 = -ρ1 ∨ L - ρ2 - 40 / 2^24 * W ≤ val t1 := by
    rw [et1]; rcases min_choice (-ρ1) (val (Lane.sub d S2.Radius)) with h | h <;> rw [h]
    · exact Or.inl rfl
    · right; linarith
  have t2c : val t2 = ρ1 ∨ val t2 ≤ L + ρ2 + 40 / 2^24 * W := by
    rw [et2]; rcases max_choice ρ1 (val (Lane.add d S2.Radius)) with h | h <;> rw [h]
    · exact Or.inl rfl
    · right; linarith
  have t1l : -(2 * W) ≤ val t1 := by rcases t1c with h | h <;> linarith
  have t2l : val t2 ≤ 6 * W := by rcases t2c with h | h <;> linarith
  have tab : |val t2 - val t1| ≤ 8 * W := abs_le.2 ⟨by linarith, by linarith⟩
  obtain ⟨fs, es⟩ := sub_rel ft2 ft1 (tab.trans (by linarith))
  rw [hu] at es
  have es' := abs_le.1 es
  have fh : Fin' (Lane.cHalf : F32 P) := (by decide : IsFinite 0x3F000000#32)
  have vh : val (Lane.cHalf : F32 P) = 1/2 := half_value
  have sab : |val (Lane.sub t2 t1)| ≤ 9 * W := abs_le.2 ⟨by linarith, by linarith⟩
  have t0 : tiny ≤ 1/2^50 * W := by
    have : tiny ≤ 1/2^50 * (1/2^42) := by unfold tiny; norm_num
    exact this.trans (mul_le_mul_of_nonneg_left Wlow (by positivity))
  have tp := tiny_pos
  obtain ⟨f5, e5⟩ := (mulL fs fh (by norm_num)).2.2 (by rw [vh, abs_mul, abs_of_pos (by norm_num : (0:ℝ) < 1/2)]; linarith)
  rw [vh] at e5
  have g1' : gam 1 ≤ 2/2^24 := by unfold gam ulp2; norm_num
  have e5' := abs_le.1 (e5.trans (mul_le_mul_of_nonneg_right g1' (by positivity)))
  rw [abs_mul, abs_of_pos (by norm_num : (0:ℝ) < 1/2)] at e5'
  set R := Lane.mul (Lane.sub t2 t1) (Lane.cHalf : F32 P) with hR
  -- radius and offset
  have R1 : |val R - (val t2 - val t1) / 2| ≤ 16 / 2^24 * W := abs_le.2 ⟨by linarith, by linarith⟩
  have R1' := abs_le.1 R1
  have R2 : 0 ≤ val R + 1/2^10 * W ∧ val R ≤ 5 * W := by constructor <;> linarith
  have rab : |val R + val t1| ≤ 6 * W := abs_le.2 ⟨by linarith, by linarith⟩
  obtain ⟨fτ, eτ⟩ := add_rel f5 ft1 (rab.trans (by linarith))
  rw [hu] at eτ
  have eτ' := abs_le.1 eτ
  set τ := Lane.add R t1 with hτ
  have τab : |val τ| ≤ 7 * W := by
    have := abs_le.1 rab
    exact abs_le.2 ⟨by linarith, by linarith⟩
  -- the new center
  have cen : ∀ j : Fin 3, Fin' (F3.lane (store3 (XMVectorAdd (load3 S1.Center) (XMVectorMultiply (XMVectorDivide V Dl) (XMVectorReplicate τ)))) j) ∧
      |val (F3.lane (store3 (XMVectorAdd (load3 S1.Center) (XMVectorMultiply (XMVectorDivide V Dl) (XMVectorReplicate τ)))) j) - (ptOf S1.Center + val τ • n) j| ≤ 200 / 2^24 * W := by
    intro j
    have hle : |ptOf S2.Center j - ptOf S1.Center j| ≤ L := by
      have := RG.abs_le_len (ptOf S2.Center - ptOf S1.Center) j
      exact this
    have q1 := (hv 0 j).div (hdl j.castSucc) L0.ne' ((v2 j).trans (by linarith)) (by rw [aL]; linarith)
    have q2 := q1.le (M' := 1 + tiny) rfl (by rw [aL]; have := (div_le_one L0).2 hle; linarith) le_rfl
    have q3 := q2.mul (leaf fτ) (by linarith) (τab.trans (by linarith))
    have q4 := (leaf (fin3_lane h1.1 j)).add q3
    have m0 : (1 + tiny) * |val τ| ≤ 8 * W := by
      have h7 := mul_le_mul_of_nonneg_left τab (show 0 ≤ 1 + tiny by linarith)
      have h8 : tiny ≤ 1/7 := by unfold tiny; norm_num
      have h9 := mul_le_mul_of_nonneg_right h8 (show 0 ≤ 7 * W by linarith)
      linarith
    have mb : |val (F3.lane S1.Center j)| + ((1 + tiny) * |val τ| + tiny) ≤ 10 * W := by
      have := b1 j; rw [ptOf_lane] at this
      linarith
    obtain ⟨q5, q6⟩ := (q4 (by norm_num)).2.2 (mb.trans (by linarith))
    have el : F3.lane (store3 (XMVectorAdd (load3 S1.Center) (XMVectorMultiply (XMVectorDivide V Dl) (XMVectorReplicate τ)))) j =
      Lane.add (F3.lane S1.Center j) (Lane.mul (Lane.div (F3.lane (xyz V) j) (Dl.lane j.castSucc)) τ) := by fin_cases j <;> rfl
    rw [el]
    refine ⟨q5, ?_⟩
    have ev : (ptOf S1.Center + val τ • n) j = val (F3.lane S1.Center j) + (ptOf S2.Center j - ptOf S1.Center j) / L * val τ := by
      rw [Pi.add_apply, ← ptOf_lane, Pi.smul_apply, hn, Pi.smul_apply, Pi.sub_apply, smul_eq_mul, smul_eq_mul]; ring
    rw [ev]
    have g18 : gam (max 0 (1 + 2 * 7 + 1 + 0 + 1) + 1) ≤ 20/2^24 := by unfold gam ulp2; norm_num
    exact (q6.trans (mul_le_mul g18 mb (by positivity) (by norm_num))).trans (by norm_num; linarith)
  set X := store3 (XMVectorAdd (load3 S1.Center) (XMVectorMultiply (XMVectorDivide V Dl) (XMVectorReplicate τ))) with hX
  have ex : len (ptOf X - (ptOf S1.Center + val τ • n)) ≤ 400 / 2^24 * W := by
    have := BoxSph.len_small (v := ptOf X - (ptOf S1.Center + val τ • n)) (e := 200 / 2^24 * W) (by positivity) (fun j => by
      rw [Pi.sub_apply, ptOf_lane]; exact (cen j).2)
    linarith
  have fX : Fin3 X := ⟨(cen 0).1, (cen 1).1, (cen 2).1⟩
  have wide : ∀ (x : Pt), ball x (val R + (100 / 2^24 * W + 400 / 2^24 * W)) ⊆ ball x (val R + W / 2^15) := fun x q hq => by
    rw [mem_ball] at *; refine hq.trans ?_; linarith
  refine ⟨⟨fX, f5⟩, ?_, ?_, ?_⟩
  · have := Mrg.cover (C1 := ptOf S1.Center) (n := n) (x := ptOf X) (L := L) (τ := val τ) (r := ρ1) (R := val R) (e := 400 / 2^24 * W) (ε := 100 / 2^24 * W) (a := 0) n1 r1 ex
      (by linarith) (by linarith)
    rw [← c1] at this
    exact this.trans (wide _)
  · have := Mrg.cover (C1 := ptOf S1.Center) (n := n) (x := ptOf X) (L := L) (τ := val τ) (r := ρ2) (R := val R) (e := 400 / 2^24 * W) (ε := 100 / 2^24 * W) (a := L) n1 r2 ex
      (by linarith) (by linarith)
    rw [← c2] at this
    exact this.trans (wide _)
  · show val R ≤ _
    have m1 := (le_max_left ρ1 ρ2).trans (le_max_left (max ρ1 ρ2) ((L + ρ1 + ρ2) / 2))
    have m2 := (le_max_right ρ1 ρ2).trans (le_max_left (max ρ1 ρ2) ((L + ρ1 + ρ2) / 2))
    have m3 := le_max_right (max ρ1 ρ2) ((L + ρ1 + ρ2) / 2)
    generalize max (max ρ1 ρ2) ((L + ρ1 + ρ2) / 2) = mm at *
    rcases t1c with h | h <;> rcases t2c with h' | h' <;> linarith
end Mrg

/-- C139: on binary32 lanes the merged sphere contains both spheres, and its radius is at most that of any sphere containing both, up to 2^-15 times a bound `W` on the coordinates and radii. -/
theorem C139_sphereMerged (c : Cfg) (S1 S2 : BoundingSphere (F32 P)) (W : ℝ) (h1 : FinSphere S1) (h2 : FinSphere S2) (r1 : 0 ≤ value S1.Radius.bits) (r2 : 0 ≤ value S2.Radius.bits)
    (b1 : ∀ i, |ptOf S1.Center i| ≤ W) (b2 : ∀ i, |ptOf S2.Center i| ≤ W) (w1 : value S1.Radius.bits ≤ W) (w2 : value S2.Radius.bits ≤ W) (hW : W ≤ 2^50)
    (hL : 1/2^40 ≤ len (ptOf S2.Center - ptOf S1.Center)) :
    let D := BoundingSphere.CreateMerged c S1 S2
    FinSphere D ∧
    ball (ptOf S1.Center) (value S1.Radius.bits) ⊆ ball (ptOf D.Center) (value D.Radius.bits + W / 2^15) ∧
    ball (ptOf S2.Center) (value S2.Radius.bits) ⊆ ball (ptOf D.Center) (value D.Radius.bits + W / 2^15) ∧
    ∀ (y : Pt) (ρ : ℝ), ball (ptOf S1.Center) (value S1.Radius.bits) ⊆ ball y ρ → ball (ptOf S2.Center) (value S2.Radius.bits) ⊆ ball y ρ → value D.Radius.bits ≤ ρ + W / 2^15 := by
  obtain ⟨q1, q2, q3, q4⟩ := Mrg.merged c S1 S2 W h1 h2 r1 r2 b1 b2 w1 w2 hW hL
  refine ⟨q1, q2, q3, fun y ρ e1 e2 => q4.trans ?_⟩
  rw [ball_subset _ _ _ _ r1] at e1
  rw [ball_subset _ _ _ _ r2] at e2
  have t := len_sub_le (ptOf S2.Center) y (ptOf S1.Center)
  rw [len_sub_comm y] at t
  have n1 := len_nonneg (ptOf S1.Center - y); have n2 := len_nonneg (ptOf S2.Center - y)
  have : max (max (value S1.Radius.bits) (value S2.Radius.bits)) ((len (ptOf S2.Center - ptOf S1.Center) + value S1.Radius.bits + value S2.Radius.bits) / 2) ≤ ρ :=
    max_le (max_le (by linarith) (by linarith)) (by linarith)
  linarith

/-! The hypotheses are met: two spheres of radius 1/2 about the origin and about (2, 0, 0). The merged radius is at most 3/2 + 2^-14, and the merged sphere reaches both far ends. -/
open Loc in
example (c : Cfg) : let D := BoundingSphere.CreateMerged c (⟨o3, fl 0x3F000000#32⟩ : BoundingSphere (F32 P)) ⟨⟨fl 0x40000000#32, fl 0#32, fl 0#32⟩, fl 0x3F000000#32⟩
    FinSphere D ∧ value D.Radius.bits ≤ 3/2 + 1/2^14 := by
  intro D
  have f2 : Fin3 (⟨fl 0x40000000#32, fl 0#32, fl 0#32⟩ : F3 (F32 P)) := ⟨(by decide : IsFinite 0x40000000#32), (by decide : IsFinite 0#32), (by decide : IsFinite 0#32)⟩
  have fr : Fin' (fl 0x3F000000#32 : F32 P) := (by decide : IsFinite 0x3F000000#32)
  have rh : value (fl 0x3F000000#32 : F32 P).bits = 1/2 := vh
  have e2 : ptOf (⟨fl 0x40000000#32, fl 0#32, fl 0#32⟩ : F3 (F32 P)) = (2:ℝ) • ![1, 0, 0] := by
    funext i; fin_cases i
    · exact v2.trans (by simp)
    · exact v0.trans (by simp)
    · exact v0.trans (by simp)
  have l1 : len (![1, 0, 0] : Pt) = 1 := by
    have := len_sq (![1, 0, 0] : Pt)
    rw [show (![1, 0, 0] : Pt) ⬝ᵥ ![1, 0, 0] = 1 by simp [dotProduct, Fin.sum_univ_three]] at this
    nlinarith [len_nonneg (![1, 0, 0] : Pt)]
  have k := C139_sphereMerged c (⟨o3, fl 0x3F000000#32⟩ : BoundingSphere (F32 P)) ⟨⟨fl 0x40000000#32, fl 0#32, fl 0#32⟩, fl 0x3F000000#32⟩ 2 ⟨fo3, fr⟩ ⟨f2, fr⟩ (by rw [rh]; norm_num) (by rw [rh]; norm_num)
    (fun i => by show |ptOf o3 i| ≤ _; rw [po3]; simp) (fun i => by show |ptOf (⟨fl 0x40000000#32, fl 0#32, fl 0#32⟩ : F3 (F32 P)) i| ≤ _; rw [e2]; fin_cases i <;> simp) (by rw [rh]; norm_num) (by rw [rh]; norm_num) (by norm_num)
    (by show _ ≤ len (ptOf (⟨fl 0x40000000#32, fl 0#32, fl 0#32⟩ : F3 (F32 P)) - ptOf o3); rw [e2, po3, sub_zero, len_smul, l1]; norm_num)
  refine ⟨k.1, (k.2.2.2 ![1, 0, 0] (3/2) ?_ ?_).trans (by norm_num)⟩
  · rw [ball_subset _ _ _ _ (by rw [rh]; norm_num)]
    show len (ptOf o3 - _) + value _ ≤ _
    rw [po3, len_sub_comm, sub_zero, l1, rh]; norm_num
  · rw [ball_subset _ _ _ _ (by rw [rh]; norm_num)]
    show len (ptOf (⟨fl 0x40000000#32, fl 0#32, fl 0#32⟩ : F3 (F32 P)) - _) + value _ ≤ _
    rw [e2, show (2:ℝ) • ![1, 0, 0] - ![1, 0, 0] = (![1, 0, 0] : Pt) by rw [two_smul, add_sub_cancel_right], l1, rh]; norm_num
end DXM.Props
