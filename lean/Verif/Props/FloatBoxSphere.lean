import Verif.Props.FloatSphere
import Verif.Props.FloatAgree
import Verif.Props.FloatObb

/-
C135: boxes against spheres on binary32 lanes.
-/

set_option linter.all false

namespace DXM.Props
open DXM.Spec DXM.FErr DXM.IEEE DXM.RG
variable {P : Env}

namespace BoxSph
/-- The signed distance from `s` to the interval from `l` to `h`. -/
noncomputable def gap (l h s : ℝ) : ℝ := if h < s then s - h else if s < l then s - l else 0
theorem gap_le {l h s p : ℝ} (h1 : l ≤ p) (h2 : p ≤ h) : |gap l h s| ≤ |s - p| := by
  unfold gap; split_ifs with a b
  · rw [abs_of_pos (by linarith), abs_of_pos (by linarith)]; linarith
  · rw [abs_of_neg (by linarith), abs_of_neg (by linarith)]; linarith
  · rw [abs_zero]; exact abs_nonneg _
theorem gap_mem {l h s : ℝ} (lh : l ≤ h) : l ≤ s - gap l h s ∧ s - gap l h s ≤ h := by
  unfold gap; split_ifs with a b
  · constructor <;> linarith
  · constructor <;> linarith
  · constructor <;> linarith
/-- A point of one interval has a close point in the other. -/
theorem move {a b l h p e : ℝ} (lh : l ≤ h) (h1 : |l - a| ≤ e) (h2 : |h - b| ≤ e) (p1 : a ≤ p) (p2 : p ≤ b) : ∃ q, l ≤ q ∧ q ≤ h ∧ |q - p| ≤ e := by
  rw [abs_le] at h1 h2
  have e0 : 0 ≤ e := by linarith
  by_cases c1 : p < l
  · exact ⟨l, le_rfl, lh, by rw [abs_of_pos (by linarith)]; linarith⟩
  · by_cases c2 : h < p
    · exact ⟨h, lh, le_rfl, by rw [abs_of_neg (by linarith)]; linarith⟩
    · exact ⟨p, by linarith, by linarith, by rw [sub_self, abs_zero]; exact e0⟩
theorem len_small {v : Pt} {e : ℝ} (he : 0 ≤ e) (h : ∀ i, |v i| ≤ e) : len v ≤ 2 * e := by
  rw [len_le_iff (by positivity)]
  have k : ∀ i, v i * v i ≤ e * e := fun i => by rw [← abs_mul_abs_self (v i)]; exact mul_self_le_mul_self (abs_nonneg _) (h i)
  simp only [dotProduct, Fin.sum_univ_three]
  nlinarith [k 0, k 1, k 2]
theorem len_mono {v w : Pt} (h : ∀ i, |v i| ≤ |w i|) : len v ≤ len w := by
  have w0 : 0 ≤ len w := (abs_nonneg _).trans (abs_le_len w 0)
  rw [len_le_iff w0]
  have e := (len_le_iff w0 (a := w)).1 le_rfl
  refine le_trans ?_ e
  have k : ∀ i, v i * v i ≤ w i * w i := fun i => by rw [← abs_mul_abs_self (v i), ← abs_mul_abs_self (w i)]; exact mul_self_le_mul_self (abs_nonneg _) (h i)
  simp only [dotProduct, Fin.sum_univ_three]
  linarith [k 0, k 1, k 2]
/-- The delta vector of the test. -/
def dvec (B : BoundingBox (F32 P)) (S : BoundingSphere (F32 P)) : V4 (F32 P) :=
  XMVectorSelect (XMVectorSelect XMVectorZero (XMVectorSubtract (load3 S.Center) (XMVectorSubtract (load3 B.Center) (load3 B.Extents)))
      (XMVectorLess (load3 S.Center) (XMVectorSubtract (load3 B.Center) (load3 B.Extents))))
    (XMVectorSubtract (load3 S.Center) (XMVectorAdd (load3 B.Center) (load3 B.Extents))) (XMVectorGreater (load3 S.Center) (XMVectorAdd (load3 B.Center) (load3 B.Extents)))
theorem dvec_lane (B : BoundingBox (F32 P)) (S : BoundingSphere (F32 P)) (j : Fin 3) : F3.lane (xyz (dvec B S)) j =
    if Lane.gt (F3.lane S.Center j) (hi B j) then Lane.sub (F3.lane S.Center j) (hi B j) else if Lane.lt (F3.lane S.Center j) (lo B j) then Lane.sub (F3.lane S.Center j) (lo B j) else Lane.c0 := by
  simp only [dvec, XMVectorSelect, SSE.or, SSE.and, SSE.andnot, XMVectorLess, XMVectorGreater, SSE.cmplt, SSE.cmpgt, V4.map2, sel_mask, XMVectorSubtract, XMVectorAdd, SSE.sub, SSE.add, load3, XMVectorZero, V4.splat]
  fin_cases j <;> rfl
theorem lo_le_hi {B : BoundingBox (F32 P)} (hB : FinBox B) (hE : ∀ i, 0 ≤ ptOf B.Extents i) {M : ℝ} (hM : M ≤ 2^127) (bB : BoundedBy M B) (i : Fin 3) : val (lo B i) ≤ val (hi B i) := by
  have e := hE i
  rw [ptOf_lane] at e
  have fc := fin3_lane hB.1 i
  have a := rounds_le (sub_rounds P fc (fin3_lane hB.2 i)) fc (by show val (F3.lane B.Center i) - val (F3.lane B.Extents i) ≤ val (F3.lane B.Center i); linarith)
  have b := le_rounds (add_rounds P fc (fin3_lane hB.2 i)) fc (by show val (F3.lane B.Center i) ≤ val (F3.lane B.Center i) + val (F3.lane B.Extents i); linarith)
  have f1 := (lo_err hB i hM bB).1
  have f2 := (hi_err hB i hM bB).1
  have a' : evalue (lo B i).bits ≤ (value (F3.lane B.Center i).bits : EReal) := a
  have b' : (value (F3.lane B.Center i).bits : EReal) ≤ evalue (hi B i).bits := b
  rw [evalue_finite f1] at a'
  rw [evalue_finite f2] at b'
  exact EReal.coe_le_coe_iff.1 (a'.trans b')
theorem dvec_err {B : BoundingBox (F32 P)} {S : BoundingSphere (F32 P)} (hB : FinBox B) (hS : Fin3 S.Center) (mS : Moderate S.Center) {M : ℝ} (hM : M ≤ 2^59) (bB : BoundedBy M B) (j : Fin 3) :
    Fin' (F3.lane (xyz (dvec B S)) j) ∧ |val (F3.lane (xyz (dvec B S)) j) - gap (val (lo B j)) (val (hi B j)) (ptOf S.Center j)| ≤ ulp2 * |gap (val (lo B j)) (val (hi B j)) (ptOf S.Center j)| ∧
      |gap (val (lo B j)) (val (hi B j)) (ptOf S.Center j)| ≤ 2^61 := by
  obtain ⟨f1, e1⟩ := lo_err hB j (hM.trans (by norm_num)) bB
  obtain ⟨f2, e2⟩ := hi_err hB j (hM.trans (by norm_num)) bB
  have fs := fin3_lane hS j
  have ms := mS j
  have bb := bB j
  have M0 : 0 ≤ M := le_trans (by positivity) bb
  have u0 : ulp2 * M ≤ 2^36 := by unfold ulp2; norm_num at hM ⊢; linarith
  have b1 : |val (lo B j)| ≤ 2^59 + 2^36 := by
    have := abs_sub (ptOf B.Center j) (ptOf B.Extents j)
    have t := abs_add_le (val (lo B j) - (ptOf B.Center j - ptOf B.Extents j)) (ptOf B.Center j - ptOf B.Extents j); rw [sub_add_cancel] at t
    linarith
  have b2 : |val (hi B j)| ≤ 2^59 + 2^36 := by
    have := abs_add_le (ptOf B.Center j) (ptOf B.Extents j)
    have t := abs_add_le (val (hi B j) - (ptOf B.Center j + ptOf B.Extents j)) (ptOf B.Center j + ptOf B.Extents j); rw [sub_add_cancel] at t
    linarith
  rw [ptOf_lane] at ms ⊢
  have n1 : |val (F3.lane S.Center j) - val (lo B j)| ≤ 2^61 := (abs_sub _ _).trans (by norm_num at *; linarith)
  have n2 : |val (F3.lane S.Center j) - val (hi B j)| ≤ 2^61 := (abs_sub _ _).trans (by norm_num at *; linarith)
  have g1 : Lane.gt (F3.lane S.Center j) (hi B j) = true ↔ val (hi B j) < val (F3.lane S.Center j) := by
    rw [gt_iff']; unfold FLt; rw [evalue_finite f2, evalue_finite fs, EReal.coe_lt_coe_iff]
    exact ⟨fun h => h.2.2, fun h => ⟨not_nan_of_finite f2, not_nan_of_finite fs, h⟩⟩
  have g2 : Lane.lt (F3.lane S.Center j) (lo B j) = true ↔ val (F3.lane S.Center j) < val (lo B j) := by
    rw [lt_iff']; unfold FLt; rw [evalue_finite f1, evalue_finite fs, EReal.coe_lt_coe_iff]
    exact ⟨fun h => h.2.2, fun h => ⟨not_nan_of_finite fs, not_nan_of_finite f1, h⟩⟩
  rw [dvec_lane]
  unfold gap
  simp only [g1, g2]
  split_ifs with a b
  · obtain ⟨x, y⟩ := sub_rel fs f2 (n2.trans (by norm_num)); exact ⟨x, y, n2⟩
  · obtain ⟨x, y⟩ := sub_rel fs f1 (n1.trans (by norm_num)); exact ⟨x, y, n1⟩
  · refine ⟨(by decide : IsFinite 0#32), ?_, by rw [abs_zero]; norm_num⟩
    rw [show val (Lane.c0 : F32 P) = 0 from val_zero]; simp
/-- The gaps of the three axes. -/
noncomputable def gaps (B : BoundingBox (F32 P)) (S : BoundingSphere (F32 P)) : Pt := fun j => gap (val (lo B j)) (val (hi B j)) (ptOf S.Center j)
theorem d2_err (c : Cfg) {B : BoundingBox (F32 P)} {S : BoundingSphere (F32 P)} (hB : FinBox B) (hS : Fin3 S.Center) (mS : Moderate S.Center) {M : ℝ} (hM : M ≤ 2^59) (bB : BoundedBy M B) (i : Fin 4) :
    Fin' ((boxDist2 c B S).lane i) ∧ |val ((boxDist2 c B S).lane i) - gaps B S ⬝ᵥ gaps B S| ≤ gam 5 * (gaps B S ⬝ᵥ gaps B S + 3 * tiny) := by
  obtain ⟨f0, e0, b0⟩ := dvec_err hB hS mS hM bB 0
  obtain ⟨f1, e1, b1⟩ := dvec_err hB hS mS hM bB 1
  obtain ⟨f2, e2, b2⟩ := dvec_err hB hS mS hM bB 2
  have hV : Fins 3 (dvec B S) := by
    intro k hk
    fin_cases k
    · exact f0
    · exact f1
    · exact f2
    · exact absurd hk (by decide)
  have hN := C93_dot3 c (dvec B S) (dvec B S) hV hV i
  rw [abs_mul_self, abs_mul_self, abs_mul_self, ← sq, ← sq, ← sq] at hN
  have s0 := sq_rel e0; have s1 := sq_rel e1; have s2 := sq_rel e2
  change |vals (dvec B S) 0 ^ 2 - (gaps B S 0)^2| ≤ _ * (gaps B S 0)^2 at s0
  change |vals (dvec B S) 1 ^ 2 - (gaps B S 1)^2| ≤ _ * (gaps B S 1)^2 at s1
  change |vals (dvec B S) 2 ^ 2 - (gaps B S 2)^2| ≤ _ * (gaps B S 2)^2 at s2
  have q : ∀ x : ℝ, |x| ≤ 2^61 → x^2 ≤ 2^122 := fun x h => by
    rw [← sq_abs]; exact (pow_le_pow_left₀ (abs_nonneg _) h 2).trans (by norm_num)
  have r := dist_core (sq_nonneg _) (sq_nonneg _) (sq_nonneg _) (q _ b0) (q _ b1) (q _ b2) s0 s1 s2 (x := (boxDist2 c B S).lane i) hN
  have eD : gaps B S ⬝ᵥ gaps B S = (gaps B S 0)^2 + (gaps B S 1)^2 + (gaps B S 2)^2 := by
    simp only [dotProduct, Fin.sum_univ_three]; ring
  rw [eD]
  exact ⟨r.2.1, r.2.2⟩
end BoxSph

/-- C135: a sphere whose ball, with the radius reduced by the relative amount 2^-21 and the absolute amount 2^-23 times the size of the box, meets the box is
reported as intersecting it; a sphere reported as intersecting meets the box once its radius is enlarged by these amounts. -/
theorem C135_boxIntersectsSphere (c : Cfg) (B : BoundingBox (F32 P)) (S : BoundingSphere (F32 P)) (hB : FinBox B) (hS : FinSphere S) (hE : ∀ i, 0 ≤ ptOf B.Extents i) (mS : Moderate S.Center)
    (M : ℝ) (hM : M ≤ 2^59) (bB : BoundedBy M B) (hr : 1 / 2^50 ≤ value S.Radius.bits) (hr' : value S.Radius.bits ≤ 2^60) :
    ((ball (ptOf S.Center) ((1 - 1/2^21) * value S.Radius.bits - 2 * (ulp2 * M)) ∩ boxSet B).Nonempty → BoundingBox.IntersectsSphere c B S = true) ∧
    (BoundingBox.IntersectsSphere c B S = true → (ball (ptOf S.Center) ((1 + 1/2^21) * value S.Radius.bits + 2 * (ulp2 * M)) ∩ boxSet B).Nonempty) := by
  set r := value S.Radius.bits with hrr
  have p50 : (0:ℝ) < 1/2^50 := by positivity
  have u0 : 0 < ulp2 := by unfold ulp2; positivity
  have M0 : 0 ≤ M := le_trans (by positivity) (bB 0)
  have hR : Fin' (Lane.mul S.Radius S.Radius) ∧ |val (Lane.mul S.Radius S.Radius) - r * r| ≤ gam 3 * (r * r + tiny) := by
    have := (mulL hS.2 hS.2).le rfl le_rfl (show 1 ≤ 3 by norm_num) (by norm_num)
    have h2 := this.2.2 (by
      change |r * r| + tiny ≤ _
      have ht1 : tiny ≤ 1 := by unfold tiny; norm_num
      rw [abs_of_nonneg (mul_self_nonneg r)]
      nlinarith)
    change Fin' _ ∧ |_ - r * r| ≤ gam 3 * (|r * r| + tiny) at h2
    rwa [abs_of_nonneg (mul_self_nonneg r)] at h2
  have hR1 : 1 / 2^100 ≤ r * r := by
    have : (1:ℝ) / 2^100 = (1/2^50) * (1/2^50) := by norm_num
    rw [this]; exact mul_self_le_mul_self (by positivity) hr
  have hd := BoxSph.d2_err c hB hS.1 mS hM bB
  have cmp := fun i => cmp_sq (dotSelf (BoxSph.gaps B S)) hR1 (hd i).2 hR.2
  have hc : BoundingBox.IntersectsSphere c B S = true ↔ ∀ i : Fin 4, i.val < 3 → val ((boxDist2 c B S).lane i) ≤ val (Lane.mul S.Radius S.Radius) := by
    rw [(boxSphere_forms c B S).1, le3_iff c _ _ (fun i => (hd i).1) (fun i => by fin_cases i <;> exact hR.1)]
    exact forall_congr' fun i => forall_congr' fun _ => by fin_cases i <;> rfl
  have lh := fun i => BoxSph.lo_le_hi hB hE (hM.trans (by norm_num)) bB i
  have el := fun i => (lo_err hB i (hM.trans (by norm_num)) bB).2
  have eh := fun i => (hi_err hB i (hM.trans (by norm_num)) bB).2
  have el' := fun i => (abs_sub_comm (ptOf B.Center i - ptOf B.Extents i) (val (lo B i))).trans_le (el i)
  have eh' := fun i => (abs_sub_comm (ptOf B.Center i + ptOf B.Extents i) (val (hi B i))).trans_le (eh i)
  rw [hc]
  constructor
  · rintro ⟨p, hp1, hp2⟩ i _
    apply (cmp i).1
    have hp2' : ∀ j, ptOf B.Center j - ptOf B.Extents j ≤ p j ∧ p j ≤ ptOf B.Center j + ptOf B.Extents j := fun j => by
      have := abs_le.1 (hp2 j); constructor <;> linarith [this.1, this.2]
    choose q q1 q2 q3 using fun j => BoxSph.move (lh j) (el j) (eh j) (hp2' j).1 (hp2' j).2
    have l1 : len (BoxSph.gaps B S) ≤ len (ptOf S.Center - q) := BoxSph.len_mono fun j => BoxSph.gap_le (q1 j) (q2 j)
    have l2 := len_sub_le (ptOf S.Center) p q
    have l3 : len (p - q) ≤ 2 * (ulp2 * M) := BoxSph.len_small (by positivity) fun j => by rw [Pi.sub_apply, abs_sub_comm]; exact q3 j
    have l4 : len (ptOf S.Center - p) ≤ (1 - 1/2^21) * r - 2 * (ulp2 * M) := by rw [len_sub_comm]; exact hp1
    have l5 : len (BoxSph.gaps B S) ≤ (1 - 1/2^21) * r := by linarith
    have := (len_le_iff (by norm_num; linarith)).1 l5
    linarith
  · intro h
    have h1 := (cmp 0).2 (h 0 (by decide))
    have l5 : len (BoxSph.gaps B S) ≤ (1 + 1/2^21) * r := (len_le_iff (by norm_num; linarith)).2 (by linarith)
    have ab : ∀ j, ptOf B.Center j - ptOf B.Extents j ≤ ptOf B.Center j + ptOf B.Extents j := fun j => by linarith [hE j]
    choose q q1 q2 q3 using fun j => BoxSph.move (ab j) (el' j) (eh' j) (BoxSph.gap_mem (s := ptOf S.Center j) (lh j)).1 (BoxSph.gap_mem (s := ptOf S.Center j) (lh j)).2
    refine ⟨q, ?_, fun j => abs_le.2 ⟨by linarith [q1 j], by linarith [q2 j]⟩⟩
    have l2 := len_sub_le q (ptOf S.Center - BoxSph.gaps B S) (ptOf S.Center)
    have l3 : len (q - (ptOf S.Center - BoxSph.gaps B S)) ≤ 2 * (ulp2 * M) := BoxSph.len_small (by positivity) q3
    rw [sub_sub_cancel_left, len_neg] at l2
    show len (q - ptOf S.Center) ≤ _
    linarith

/-- C135: the containment test answers DISJOINT under the same margins. -/
theorem C135_boxSphereDisjoint (c : Cfg) (B : BoundingBox (F32 P)) (S : BoundingSphere (F32 P)) (hB : FinBox B) (hS : FinSphere S) (hE : ∀ i, 0 ≤ ptOf B.Extents i) (mS : Moderate S.Center)
    (M : ℝ) (hM : M ≤ 2^59) (bB : BoundedBy M B) (hr : 1 / 2^50 ≤ value S.Radius.bits) (hr' : value S.Radius.bits ≤ 2^60) :
    ((ball (ptOf S.Center) ((1 - 1/2^21) * value S.Radius.bits - 2 * (ulp2 * M)) ∩ boxSet B).Nonempty → BoundingBox.ContainsSphere c B S ≠ .DISJOINT) ∧
    (BoundingBox.ContainsSphere c B S ≠ .DISJOINT → (ball (ptOf S.Center) ((1 + 1/2^21) * value S.Radius.bits + 2 * (ulp2 * M)) ∩ boxSet B).Nonempty) := by
  obtain ⟨h1, h2⟩ := C135_boxIntersectsSphere c B S hB hS hE mS M hM bB hr hr'
  have k := (C126_box_sphere c B S).2 hB hS.1 (not_nan_of_finite hS.2)
  have k' : BoundingBox.ContainsSphere c B S ≠ .DISJOINT ↔ BoundingBox.IntersectsSphere c B S = true := by rw [ne_eq, k, Bool.not_eq_false]
  rw [k']
  exact ⟨h1, h2⟩

/-! The hypotheses are met: the sphere of radius 2 about (2, 2, 2) reaches the cube of half-size 2 about (1, 1, 1) in every build. -/
open Loc in
example (c : Cfg) : BoundingBox.IntersectsSphere c (⟨⟨fl 0x3F800000#32, fl 0x3F800000#32, fl 0x3F800000#32⟩, ⟨fl 0x40000000#32, fl 0x40000000#32, fl 0x40000000#32⟩⟩ : BoundingBox (F32 P))
    ⟨⟨fl 0x40000000#32, fl 0x40000000#32, fl 0x40000000#32⟩, fl 0x40000000#32⟩ = true := by
  have f1 : Fin3 (⟨fl 0x3F800000#32, fl 0x3F800000#32, fl 0x3F800000#32⟩ : F3 (F32 P)) := ⟨(by decide : IsFinite 0x3F800000#32), (by decide : IsFinite 0x3F800000#32), (by decide : IsFinite 0x3F800000#32)⟩
  have f2 : Fin3 (⟨fl 0x40000000#32, fl 0x40000000#32, fl 0x40000000#32⟩ : F3 (F32 P)) := ⟨(by decide : IsFinite 0x40000000#32), (by decide : IsFinite 0x40000000#32), (by decide : IsFinite 0x40000000#32)⟩
  have p1 : ∀ i, ptOf (⟨fl 0x3F800000#32, fl 0x3F800000#32, fl 0x3F800000#32⟩ : F3 (F32 P)) i = 1 := by intro i; fin_cases i <;> exact v1
  have p2 : ∀ i, ptOf (⟨fl 0x40000000#32, fl 0x40000000#32, fl 0x40000000#32⟩ : F3 (F32 P)) i = 2 := by intro i; fin_cases i <;> exact v2
  have r2 : value (⟨⟨fl 0x40000000#32, fl 0x40000000#32, fl 0x40000000#32⟩, fl 0x40000000#32⟩ : BoundingSphere (F32 P)).Radius.bits = 2 := v2
  have fs : FinSphere (⟨⟨fl 0x40000000#32, fl 0x40000000#32, fl 0x40000000#32⟩, fl 0x40000000#32⟩ : BoundingSphere (F32 P)) := ⟨f2, (by decide : IsFinite 0x40000000#32)⟩
  refine (C135_boxIntersectsSphere c _ _ ⟨f1, f2⟩ fs (fun i => by rw [p2]; norm_num) (fun i => by rw [p2]; norm_num) 3 (by norm_num)
    (fun i => by rw [p1, p2]; norm_num) (by rw [r2]; norm_num) (by rw [r2]; norm_num)).1 ⟨fun _ => 2, ?_, fun i => by rw [p1, p2]; norm_num⟩
  have : (fun _ => 2 : Pt) = ptOf (⟨fl 0x40000000#32, fl 0x40000000#32, fl 0x40000000#32⟩ : F3 (F32 P)) := funext fun i => (p2 i).symm
  rw [mem_ball, this, sub_self, RG.len_zero, r2]
  unfold ulp2; norm_num
end DXM.Props
