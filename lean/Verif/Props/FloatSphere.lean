import Verif.Props.FloatBounds
import Verif.Props.Movement

/-
Sphere tests and plane tests on binary32 lanes (interpretation I): correct outside a small relative margin.
-/

set_option linter.all false

namespace DXM.Props
open DXM.Spec DXM.FErr DXM.IEEE DXM.RG Matrix
variable {P : Env}

/-- Finite center, finite radius. -/
def FinSphere (S : BoundingSphere (F32 P)) : Prop := Fin3 S.Center ∧ IsFinite S.Radius.bits
/-- Coordinates at most 2^60 in magnitude. -/
def Moderate (p : F3 (F32 P)) : Prop := ∀ i, |ptOf p i| ≤ 2^60

theorem dotSelf (v : Pt) : 0 ≤ v ⬝ᵥ v := by
  simp only [dotProduct, Fin.sum_univ_three]; nlinarith [mul_self_nonneg (v 0), mul_self_nonneg (v 1), mul_self_nonneg (v 2)]
theorem gam5 : gam 5 ≤ 6 * ulp2 := by unfold gam ulp2; norm_num
theorem gam3 : gam 3 ≤ 4 * ulp2 := by unfold gam ulp2; norm_num

/-- One rounded difference. -/
theorem sub_rel {a b : F32 P} (ha : Fin' a) (hb : Fin' b) (h : |val a - val b| ≤ 2^127) :
    Fin' (Lane.sub a b) ∧ |val (Lane.sub a b) - (val a - val b)| ≤ ulp2 * |val a - val b| := by
  obtain ⟨n, hn⟩ := int_val a; obtain ⟨m, hm⟩ := int_val b
  exact rounds_err' (sub_rounds P ha hb) (h.trans_lt (by have := big_lt; linarith)) (n - m) (by push_cast; rw [sub_mul, ← hn, ← hm])
theorem add_rel {a b : F32 P} (ha : Fin' a) (hb : Fin' b) (h : |val a + val b| ≤ 2^127) :
    Fin' (Lane.add a b) ∧ |val (Lane.add a b) - (val a + val b)| ≤ ulp2 * |val a + val b| := by
  obtain ⟨n, hn⟩ := int_val a; obtain ⟨m, hm⟩ := int_val b
  exact rounds_err' (add_rounds P ha hb) (h.trans_lt (by have := big_lt; linarith)) (n + m) (by push_cast; rw [add_mul, ← hn, ← hm])

theorem sq_rel {x y : ℝ} (h : |x - y| ≤ ulp2 * |y|) : |x ^ 2 - y ^ 2| ≤ gam 2 * y ^ 2 := by
  have h1 : ulp2 ≤ gam 1 := by unfold gam ulp2; norm_num
  have h2 : |x - y| ≤ gam 1 * |y| := h.trans (mul_le_mul_of_nonneg_right h1 (abs_nonneg _))
  have := prod_err (j := 1) (k := 1) (by norm_num) le_rfl le_rfl h2 h2
  rw [← sq, ← sq, ← abs_mul, abs_mul_self, ← sq] at this
  exact this

theorem dist_core {d0 d1 d2 v0 v1 v2 : ℝ} {x : F32 P} (p0 : 0 ≤ d0) (p1 : 0 ≤ d1) (p2 : 0 ≤ d2) (q0 : d0 ≤ 2^122) (q1 : d1 ≤ 2^122) (q2 : d2 ≤ 2^122)
    (s0 : |v0 ^ 2 - d0| ≤ gam 2 * d0) (s1 : |v1 ^ 2 - d1| ≤ gam 2 * d1) (s2 : |v2 ^ 2 - d2| ≤ gam 2 * d2)
    (hN : Spec.Near x.bits (v0 ^ 2 + v1 ^ 2 + v2 ^ 2) (v0 ^ 2 + v1 ^ 2 + v2 ^ 2 + 3 * tiny) 3) :
    d0 + d1 + d2 ≤ 2^124 ∧ Fin' x ∧ |val x - (d0 + d1 + d2)| ≤ gam 5 * ((d0 + d1 + d2) + 3 * tiny) := by
  have g3 := gam_nonneg (k := 3) (by norm_num)
  have g2' : gam 2 ≤ 1 := by unfold gam ulp2; norm_num
  have ht := tiny_pos
  have ht1 : tiny ≤ 1 := by unfold tiny; norm_num
  rw [abs_le] at s0 s1 s2
  have hd1 : v0 ^ 2 + v1 ^ 2 + v2 ^ 2 ≤ (d0 + d1 + d2) + gam 2 * (d0 + d1 + d2) := by linarith [s0.2, s1.2, s2.2]
  have hd2 : (d0 + d1 + d2) - gam 2 * (d0 + d1 + d2) ≤ v0 ^ 2 + v1 ^ 2 + v2 ^ 2 := by linarith [s0.1, s1.1, s2.1]
  have hS : 0 ≤ d0 + d1 + d2 := by linarith
  have hS2 : d0 + d1 + d2 ≤ 3 * 2^122 := by linarith
  generalize v0 ^ 2 + v1 ^ 2 + v2 ^ 2 = D' at *
  generalize d0 + d1 + d2 = S at *
  clear p0 p1 p2 q0 q1 q2 s0 s1 s2
  have hgS : gam 2 * S ≤ S := by nlinarith
  obtain ⟨hf, he⟩ := hN (by norm_num at hS2 ⊢; linarith)
  refine ⟨by norm_num at hS2 ⊢; linarith, hf, ?_⟩
  have hkey : gam 2 + gam 3 * (1 + gam 2) ≤ gam 5 := by unfold gam ulp2; norm_num
  have h35 : gam 3 ≤ gam 5 := by unfold gam ulp2; norm_num
  have hb : gam 3 * D' ≤ gam 3 * (S + gam 2 * S) := mul_le_mul_of_nonneg_left hd1 g3
  have hc : (gam 2 + gam 3 * (1 + gam 2)) * S ≤ gam 5 * S := mul_le_mul_of_nonneg_right hkey hS
  have ht3 : gam 3 * (3 * tiny) ≤ gam 5 * (3 * tiny) := mul_le_mul_of_nonneg_right h35 (by linarith)
  have he' := abs_le.1 he
  change -(gam 3 * (D' + 3 * tiny)) ≤ val x - D' ∧ val x - D' ≤ gam 3 * (D' + 3 * tiny) at he'
  rw [abs_le]
  constructor <;> linarith [he'.1, he'.2]

/-- The squared distance as computed. -/
theorem dist_err (c : Cfg) (A B : V4 (F32 P)) (hA : Fin3 (xyz A)) (hB : Fin3 (xyz B)) (mA : Moderate (xyz A)) (mB : Moderate (xyz B)) (i : Fin 4) :
    let D := (ptOf (xyz A) - ptOf (xyz B)) ⬝ᵥ (ptOf (xyz A) - ptOf (xyz B))
    D ≤ 2^124 ∧ Fin' ((XMVector3LengthSq c (XMVectorSubtract A B)).lane i) ∧
      |val ((XMVector3LengthSq c (XMVectorSubtract A B)).lane i) - D| ≤ gam 5 * (D + 3 * tiny) := by
  intro D
  have key : ∀ j : Fin 3, Fin' (F3.lane (xyz (XMVectorSubtract A B)) j) ∧
      |val (F3.lane (xyz (XMVectorSubtract A B)) j) - (ptOf (xyz A) j - ptOf (xyz B) j)| ≤ ulp2 * |ptOf (xyz A) j - ptOf (xyz B) j| ∧ |ptOf (xyz A) j - ptOf (xyz B) j| ≤ 2^61 := by
    intro j
    have h1 := mA j; have h2 := mB j
    have h3 : |ptOf (xyz A) j - ptOf (xyz B) j| ≤ 2^61 := (abs_sub _ _).trans (by linarith)
    rw [ptOf_lane (xyz A), ptOf_lane (xyz B)] at h3 ⊢
    obtain ⟨g1, g2⟩ := sub_rel (fin3_lane hA j) (fin3_lane hB j) (by linarith)
    have e : F3.lane (xyz (XMVectorSubtract A B)) j = Lane.sub (F3.lane (xyz A) j) (F3.lane (xyz B) j) := by fin_cases j <;> rfl
    rw [e]
    exact ⟨g1, g2, h3⟩
  obtain ⟨f0, e0, b0⟩ := key 0
  obtain ⟨f1, e1, b1⟩ := key 1
  obtain ⟨f2, e2, b2⟩ := key 2
  set V := XMVectorSubtract A B
  have eD : D = (ptOf (xyz A) 0 - ptOf (xyz B) 0) ^ 2 + (ptOf (xyz A) 1 - ptOf (xyz B) 1) ^ 2 + (ptOf (xyz A) 2 - ptOf (xyz B) 2) ^ 2 := by
    simp only [D, dotProduct, Fin.sum_univ_three, Pi.sub_apply]; ring
  have hV : Fins 3 V := by
    intro k hk
    fin_cases k
    · exact f0
    · exact f1
    · exact f2
    · exact absurd hk (by decide)
  have hN := (C93_lengthSq c V i).2.1 hV
  have s0 := sq_rel e0; have s1 := sq_rel e1; have s2 := sq_rel e2
  change |vals V 0 ^ 2 - _| ≤ _ at s0
  change |vals V 1 ^ 2 - _| ≤ _ at s1
  change |vals V 2 ^ 2 - _| ≤ _ at s2
  have q0 : (ptOf (xyz A) 0 - ptOf (xyz B) 0) ^ 2 ≤ 2^122 := by rw [← sq_abs]; nlinarith [abs_nonneg (ptOf (xyz A) 0 - ptOf (xyz B) 0)]
  have q1 : (ptOf (xyz A) 1 - ptOf (xyz B) 1) ^ 2 ≤ 2^122 := by rw [← sq_abs]; nlinarith [abs_nonneg (ptOf (xyz A) 1 - ptOf (xyz B) 1)]
  have q2 : (ptOf (xyz A) 2 - ptOf (xyz B) 2) ^ 2 ≤ 2^122 := by rw [← sq_abs]; nlinarith [abs_nonneg (ptOf (xyz A) 2 - ptOf (xyz B) 2)]
  have p0 := sq_nonneg (ptOf (xyz A) 0 - ptOf (xyz B) 0)
  have p1 := sq_nonneg (ptOf (xyz A) 1 - ptOf (xyz B) 1)
  have p2 := sq_nonneg (ptOf (xyz A) 2 - ptOf (xyz B) 2)
  generalize (ptOf (xyz A) 0 - ptOf (xyz B) 0) ^ 2 = d0 at *
  generalize (ptOf (xyz A) 1 - ptOf (xyz B) 1) ^ 2 = d1 at *
  generalize (ptOf (xyz A) 2 - ptOf (xyz B) 2) ^ 2 = d2 at *
  rw [eD]
  exact dist_core p0 p1 p2 q0 q1 q2 s0 s1 s2 hN

/-- Comparing two rounded squares. -/
theorem cmp_sq {t s D R : ℝ} (hD : 0 ≤ D) (hR : 1 / 2^100 ≤ R) (ht : |t - D| ≤ gam 5 * (D + 3 * tiny)) (hs : |s - R| ≤ gam 3 * (R + tiny)) :
    (D ≤ ((1 - 1/2^21) ^ 2) * R → t ≤ s) ∧ (t ≤ s → D ≤ ((1 + 1/2^21) ^ 2) * R) := by
  have h1 : 4 * tiny ≤ R / 2^24 := by
    have : 4 * tiny ≤ (1/2^100) / 2^24 := by unfold tiny; norm_num
    linarith
  have ht0 := tiny_pos
  have a1 : |t - D| ≤ 6 / 2^24 * (D + 3 * tiny) := ht.trans (mul_le_mul_of_nonneg_right (by have := gam5; unfold ulp2 at this; linarith) (by linarith))
  have a2 : |s - R| ≤ 4 / 2^24 * (R + tiny) := hs.trans (mul_le_mul_of_nonneg_right (by have := gam3; unfold ulp2 at this; linarith) (by linarith))
  rw [abs_le] at a1 a2
  constructor
  · intro h; norm_num at *; linarith
  · intro h; norm_num at *; linarith

theorem le3_iff (c : Cfg) (A B : V4 (F32 P)) (fA : ∀ i, Fin' (A.lane i)) (fB : ∀ i, Fin' (B.lane i)) :
    XMVector3LessOrEqual c A B = true ↔ ∀ i : Fin 4, i.val < 3 → val (A.lane i) ≤ val (B.lane i) := by
  rw [(C09_vector3 c A B).2.2.2.2.1]
  exact forall_congr' fun i => forall_congr' fun _ => fle_val (fA i) (fB i)

/-- C98: with coordinates at most 2^60 and a radius from 2^-50 to 2^60, a point at most `(1 - 2^-21)` radii from the center is reported as contained,
and a point reported as contained is at most `(1 + 2^-21)` radii away. -/
theorem C98_containsPoint (c : Cfg) (S : BoundingSphere (F32 P)) (V : V4 (F32 P)) (hS : FinSphere S) (hV : Fins 3 V) (mS : Moderate S.Center) (mV : Moderate (xyz V))
    (hr : 1 / 2^50 ≤ value S.Radius.bits) (hr' : value S.Radius.bits ≤ 2^60) :
    (ptOf (xyz V) ∈ ball (ptOf S.Center) ((1 - 1/2^21) * value S.Radius.bits) → BoundingSphere.ContainsPoint c S V = .CONTAINS) ∧
    (BoundingSphere.ContainsPoint c S V = .CONTAINS → ptOf (xyz V) ∈ ball (ptOf S.Center) ((1 + 1/2^21) * value S.Radius.bits)) := by
  have hd := dist_err c V (load3 S.Center) (fins3 hV) hS.1 mV mS
  set r := value S.Radius.bits with hrr
  have hR : Fin' (Lane.mul S.Radius S.Radius) ∧ |val (Lane.mul S.Radius S.Radius) - r * r| ≤ gam 3 * (r * r + tiny) := by
    have := (mulL hS.2 hS.2).le rfl le_rfl (show 1 ≤ 3 by norm_num) (by norm_num)
    have h2 := this.2.2 (by
      change |r * r| + tiny ≤ _
      have ht1 : tiny ≤ 1 := by unfold tiny; norm_num
      rw [abs_of_nonneg (mul_self_nonneg r)]
      nlinarith)
    change Fin' _ ∧ |_ - r * r| ≤ gam 3 * (|r * r| + tiny) at h2
    rwa [abs_of_nonneg (mul_self_nonneg r)] at h2
  have hR1 : 1 / 2^100 ≤ r * r := by
    have : (1:ℝ) / 2^100 = (1/2^50) * (1/2^50) := by norm_num
    rw [this]; exact mul_self_le_mul_self (by positivity) hr
  have eD : (ptOf (xyz V) - ptOf (xyz (load3 S.Center))) = ptOf (xyz V) - ptOf S.Center := rfl
  rw [eD] at hd
  have hD0 : 0 ≤ (ptOf (xyz V) - ptOf S.Center) ⬝ᵥ (ptOf (xyz V) - ptOf S.Center) := dotSelf _
  have cmp := fun i => cmp_sq hD0 hR1 (hd i).2.2 hR.2
  have hc : BoundingSphere.ContainsPoint c S V = .CONTAINS ↔ ∀ i : Fin 4, i.val < 3 →
      val ((XMVector3LengthSq c (XMVectorSubtract V (load3 S.Center))).lane i) ≤ val (Lane.mul S.Radius S.Radius) := by
    refine Iff.trans (contains_iff _) ?_
    rw [le3_iff c _ _ (fun i => (hd i).2.1) (fun i => by fin_cases i <;> exact hR.1)]
    exact forall_congr' fun i => forall_congr' fun _ => by fin_cases i <;> rfl
  rw [hc, mem_ball, mem_ball, len_le_iff (by norm_num; linarith [show (0:ℝ) ≤ 1/2^50 by positivity]), len_le_iff (by norm_num; linarith [show (0:ℝ) ≤ 1/2^50 by positivity])]
  constructor
  · intro h i _; exact (cmp i).1 (by linarith)
  · intro h; have := (cmp 0).2 (h 0 (by decide)); linarith

/-- C98: two spheres whose balls with radii scaled by `1 - 2^-21` meet are reported as intersecting; spheres reported as intersecting meet once the radii
are scaled by `1 + 2^-21`. -/
theorem C98_intersectsSphere (c : Cfg) (S T : BoundingSphere (F32 P)) (hS : FinSphere S) (hT : FinSphere T) (mS : Moderate S.Center) (mT : Moderate T.Center)
    (hr : 1 / 2^50 ≤ value S.Radius.bits) (hr' : value S.Radius.bits ≤ 2^60) (hq : 1 / 2^50 ≤ value T.Radius.bits) (hq' : value T.Radius.bits ≤ 2^60) :
    ((ball (ptOf S.Center) ((1 - 1/2^21) * value S.Radius.bits) ∩ ball (ptOf T.Center) ((1 - 1/2^21) * value T.Radius.bits)).Nonempty →
      BoundingSphere.IntersectsSphere c S T = true) ∧
    (BoundingSphere.IntersectsSphere c S T = true →
      (ball (ptOf S.Center) ((1 + 1/2^21) * value S.Radius.bits) ∩ ball (ptOf T.Center) ((1 + 1/2^21) * value T.Radius.bits)).Nonempty) := by
  have hd := dist_err c (load3 T.Center) (load3 S.Center) hT.1 hS.1 mT mS
  have p50 : (0:ℝ) < 1/2^50 := by positivity
  obtain ⟨f1, e1⟩ := add_rel (P := P) hS.2 hT.2 (by
    change |value S.Radius.bits + value T.Radius.bits| ≤ _
    rw [abs_of_nonneg (by linarith)]; norm_num at hr' hq' ⊢; linarith)
  change |_ - (value S.Radius.bits + value T.Radius.bits)| ≤ ulp2 * |value S.Radius.bits + value T.Radius.bits| at e1
  set r := value S.Radius.bits
  set q := value T.Radius.bits
  have hu : ulp2 ≤ 1 := by unfold ulp2; norm_num
  have e2 := sq_rel e1
  set R := r + q with hRdef
  set a : F32 P := Lane.add S.Radius T.Radius
  have hR0 : 0 < R := by rw [hRdef]; linarith
  have hR61 : R ≤ 2^61 := by rw [hRdef]; norm_num at hr' hq' ⊢; linarith
  have hRR : R * R ≤ 2^61 * 2^61 := mul_self_le_mul_self hR0.le hR61
  have ht := tiny_pos
  have ht1 : tiny ≤ 1 := by unfold tiny; norm_num
  rw [sq, sq] at e2
  have e2' := abs_le.1 e2
  have g2 : gam 2 ≤ 1 := by unfold gam ulp2; norm_num
  have hg2 : gam 2 * (R * R) ≤ R * R := by nlinarith [mul_self_nonneg R]
  have hR : Fin' (Lane.mul a a) ∧ |val (Lane.mul a a) - R * R| ≤ gam 3 * (R * R + tiny) := by
    have h1 := ((mulL f1 f1) (by norm_num)).2.2 (by
      rw [abs_of_nonneg (mul_self_nonneg _)]
      norm_num at hRR ⊢; linarith)
    refine ⟨h1.1, ?_⟩
    have h2 := abs_le.1 h1.2
    rw [abs_of_nonneg (mul_self_nonneg _)] at h2
    have hkey : gam 2 + gam 1 * (1 + gam 2) ≤ gam 3 := by unfold gam ulp2; norm_num
    have h13 : gam 1 ≤ gam 3 := by unfold gam ulp2; norm_num
    have g1 := gam_nonneg (k := 1) (by norm_num)
    have k1 : gam 1 * (val a * val a) ≤ gam 1 * (R * R + gam 2 * (R * R)) := mul_le_mul_of_nonneg_left (by linarith [e2'.2]) g1
    have k2 : (gam 2 + gam 1 * (1 + gam 2)) * (R * R) ≤ gam 3 * (R * R) := mul_le_mul_of_nonneg_right hkey (mul_self_nonneg R)
    have k3 : gam 1 * tiny ≤ gam 3 * tiny := mul_le_mul_of_nonneg_right h13 ht.le
    rw [abs_le]
    constructor <;> linarith [h2.1, h2.2, e2'.1, e2'.2]
  have hR1 : 1 / 2^100 ≤ R * R := by
    have : (1:ℝ) / 2^100 = (1/2^50) * (1/2^50) := by norm_num
    rw [this]; exact mul_self_le_mul_self (by positivity) (by rw [hRdef]; linarith)
  have eD : (ptOf (xyz (load3 T.Center)) - ptOf (xyz (load3 S.Center))) = ptOf T.Center - ptOf S.Center := rfl
  rw [eD] at hd
  have hD0 : 0 ≤ (ptOf T.Center - ptOf S.Center) ⬝ᵥ (ptOf T.Center - ptOf S.Center) := dotSelf _
  have cmp := fun i => cmp_sq hD0 hR1 (hd i).2.2 hR.2
  have hc : BoundingSphere.IntersectsSphere c S T = true ↔ ∀ i : Fin 4, i.val < 3 →
      val ((XMVector3LengthSq c (XMVectorSubtract (load3 T.Center) (load3 S.Center))).lane i) ≤ val (Lane.mul a a) := by
    unfold BoundingSphere.IntersectsSphere
    refine (le3_iff c _ _ (fun i => (hd i).2.1) (fun i => by fin_cases i <;> exact hR.1)).trans ?_
    exact forall_congr' fun i => forall_congr' fun _ => by fin_cases i <;> rfl
  have n1 : (0:ℝ) ≤ 1 - 1/2^21 := by norm_num
  have n2 : (0:ℝ) ≤ 1 + 1/2^21 := by norm_num
  rw [hc, ball_inter _ _ _ _ (mul_nonneg n1 (by linarith)) (mul_nonneg n1 (by linarith)), ball_inter _ _ _ _ (mul_nonneg n2 (by linarith)) (mul_nonneg n2 (by linarith)),
    ← mul_add, ← mul_add, len_le_iff (mul_nonneg n1 hR0.le), len_le_iff (mul_nonneg n2 hR0.le)]
  constructor
  · intro h i _; exact (cmp i).1 (by linarith)
  · intro h; have := (cmp 0).2 (h 0 (by decide)); linarith

/-! planes -/
theorem fin_of_evalue {a : BitVec 32} {x : ℝ} (h : ¬ IsNaN a) (e : evalue a = (x : EReal)) : IsFinite a ∧ value a = x := by
  rcases finite_or h with hf | hi
  · rw [evalue_finite hf] at e; exact ⟨hf, by exact_mod_cast e⟩
  · unfold evalue at e; rw [if_pos hi] at e
    split_ifs at e
    · exact absurd e.symm (EReal.coe_ne_bot _)
    · exact absurd e.symm (EReal.coe_ne_top _)
theorem exact_sub0 {v : F32 P} (h : Fin' v) : Fin' (Lane.sub (Lane.ofBits 0#32) v) ∧ val (Lane.sub (Lane.ofBits 0#32) v) = - val v := by
  obtain ⟨h1, h2⟩ := zero_sub_spec (P := P) (not_nan_of_finite h)
  rw [evalue_finite h, ← EReal.coe_neg] at h2
  exact fin_of_evalue h1 h2
theorem abs_spec {v : F32 P} (h : Fin' v) : Fin' (Lane.abs v) ∧ val (Lane.abs v) = |val v| := by
  have hn : ¬ IsNaN (IEEE.abs v.bits) := by rw [isNaN_am (am_abs v.bits)]; exact not_nan_of_finite h
  have h0 := abs_nonneg' (not_nan_of_finite h)
  rcases evalue_abs v.bits with e | e <;> rw [evalue_finite h] at e
  · rw [e] at h0
    obtain ⟨a, b⟩ := fin_of_evalue hn e
    have : (0:ℝ) ≤ val v := by exact_mod_cast h0
    exact ⟨a, by rw [abs_of_nonneg this]; exact b⟩
  · rw [e] at h0
    rw [← EReal.coe_neg] at e h0
    obtain ⟨a, b⟩ := fin_of_evalue hn e
    have : (0:ℝ) ≤ - val v := by exact_mod_cast h0
    exact ⟨a, by rw [abs_of_nonpos (by linarith)]; exact b⟩
theorem abs_lanes (c : Cfg) (V : V4 (F32 P)) (i : Fin 4) (h : Fin' (V.lane i)) :
    Fin' ((XMVectorAbs c V).lane i) ∧ val ((XMVectorAbs c V).lane i) = |val (V.lane i)| := by
  by_cases hs : c.sse = true
  · obtain ⟨h1, h2⟩ := exact_sub0 h
    obtain ⟨g1, g2⟩ := max_val h1 h
    rw [show (XMVectorAbs c V).lane i = Lane.maxps (Lane.sub (Lane.ofBits 0#32) (V.lane i)) (V.lane i) by unfold XMVectorAbs; rw [if_pos hs]; fin_cases i <;> rfl]
    refine ⟨g1, ?_⟩
    rw [g2, h2, max_comm]; rfl
  · rw [show (XMVectorAbs c V).lane i = Lane.abs (V.lane i) by unfold XMVectorAbs; rw [if_neg hs]; fin_cases i <;> rfl]
    exact abs_spec h
theorem neg_lanes (c : Cfg) (V : V4 (F32 P)) (h : ∀ i, Fin' (V.lane i)) (i : Fin 4) :
    Fin' ((XMVectorNegate c V).lane i) ∧ val ((XMVectorNegate c V).lane i) = - val (V.lane i) := by
  by_cases hs : c.sse = true
  · have := exact_sub0 (h i)
    rw [show (XMVectorNegate c V).lane i = Lane.sub (Lane.ofBits 0#32) (V.lane i) by unfold XMVectorNegate; rw [if_pos hs]; fin_cases i <;> rfl]
    exact this
  · rw [show (XMVectorNegate c V).lane i = Lane.neg (V.lane i) by unfold XMVectorNegate; rw [if_neg hs]; fin_cases i <;> rfl]
    exact ⟨finite_neg.2 (h i), neg_value _⟩
theorem ins_w1 (c : Cfg) (p : F3 (F32 P)) : insertC c (load3 p) (XMVectorSplatOne c) 0 0 0 1 = ⟨p.x, p.y, p.z, Lane.ofBits 0x3F800000#32⟩ := by
  have := C04_insert c true (load3 p) (XMVectorSplatOne c) 0 false false false true
  simp at this
  have this' : XMVectorInsert c true (load3 p) (XMVectorSplatOne c) 0 0 0 0 1 = _ := this
  unfold insertC
  rw [this']
  simp [Outcome.getD, Spec.cyc, load3]
  by_cases hs : c.sse = true <;> simp [XMVectorSplatOne, V4.lane, hs] <;> rfl

/-- The four lanes of the two plane masks, from bounds on the computed distance and radius. -/
theorem plane_core (c : Cfg) (D R : V4 (F32 P)) {s r g h : ℝ} (hr : 0 ≤ r) (hD : ∀ i, Fin' (D.lane i) ∧ |val (D.lane i) - s| ≤ g) (hR : ∀ i, Fin' (R.lane i) ∧ |val (R.lane i) - r| ≤ h) :
    let res := planeResult c (XMVectorGreater D R, XMVectorLess D (XMVectorNegate c R))
    (r + (g + h) < s → res = .FRONT) ∧ (s < -r - (g + h) → res = .BACK) ∧ (res = .FRONT → r - (g + h) < s) ∧ (res = .BACK → s < -r + (g + h)) := by
  intro res
  have hN := fun i => neg_lanes c R (fun i => (hR i).1) i
  have e : res = if (Lane.gt D.x R.x && Lane.gt D.y R.y && Lane.gt D.z R.z && Lane.gt D.w R.w) then .FRONT else
      if (Lane.lt D.x (XMVectorNegate c R).x && Lane.lt D.y (XMVectorNegate c R).y && Lane.lt D.z (XMVectorNegate c R).z && Lane.lt D.w (XMVectorNegate c R).w) then .BACK else .INTERSECTING := by
    show (if XMVector4EqualInt c (XMVectorGreater D R) XMVectorTrueInt then _ else if XMVector4EqualInt c (XMVectorLess D (XMVectorNegate c R)) XMVectorTrueInt then _ else _) = _
    have e1 := equal4_mask (α := F32 P) c (Lane.gt D.x R.x) (Lane.gt D.y R.y) (Lane.gt D.z R.z) (Lane.gt D.w R.w)
    have e2 := equal4_mask (α := F32 P) c (Lane.lt D.x (XMVectorNegate c R).x) (Lane.lt D.y (XMVectorNegate c R).y) (Lane.lt D.z (XMVectorNegate c R).z) (Lane.lt D.w (XMVectorNegate c R).w)
    rw [← e1, ← e2]; rfl
  have gt : ∀ i, Lane.gt (D.lane i) (R.lane i) = true ↔ val (R.lane i) < val (D.lane i) := fun i => flt_val (hR i).1 (hD i).1
  have lt : ∀ i, Lane.lt (D.lane i) ((XMVectorNegate c R).lane i) = true ↔ val (D.lane i) < - val (R.lane i) := fun i => by rw [flt_val (hD i).1 (hN i).1, (hN i).2]
  have bD := fun i => abs_le.1 (hD i).2
  have bR := fun i => abs_le.1 (hR i).2
  have g0 := gt 0; have g1 := gt 1; have g2 := gt 2; have g3 := gt 3
  have l0 := lt 0; have l1 := lt 1; have l2 := lt 2; have l3 := lt 3
  change (Lane.gt D.x R.x = true ↔ _) at g0
  change (Lane.gt D.y R.y = true ↔ _) at g1
  change (Lane.gt D.z R.z = true ↔ _) at g2
  change (Lane.gt D.w R.w = true ↔ _) at g3
  change (Lane.lt D.x (XMVectorNegate c R).x = true ↔ _) at l0
  change (Lane.lt D.y (XMVectorNegate c R).y = true ↔ _) at l1
  change (Lane.lt D.z (XMVectorNegate c R).z = true ↔ _) at l2
  change (Lane.lt D.w (XMVectorNegate c R).w = true ↔ _) at l3
  rw [e]
  simp only [Bool.and_eq_true, g0, g1, g2, g3, l0, l1, l2, l3]
  refine ⟨fun hs => ?_, fun hs => ?_, fun hs => ?_, fun hs => ?_⟩
  · rw [if_pos]
    exact ⟨⟨⟨by linarith [(bD 0).1, (bR 0).2], by linarith [(bD 1).1, (bR 1).2]⟩, by linarith [(bD 2).1, (bR 2).2]⟩, by linarith [(bD 3).1, (bR 3).2]⟩
  · rw [if_neg (fun hc => by linarith [(bD 0).2, (bR 0).1, (bR 0).2, hc.1.1.1]), if_pos]
    exact ⟨⟨⟨by linarith [(bD 0).2, (bR 0).2], by linarith [(bD 1).2, (bR 1).2]⟩, by linarith [(bD 2).2, (bR 2).2]⟩, by linarith [(bD 3).2, (bR 3).2]⟩
  · split_ifs at hs with h1 h2
    linarith [(bD 0).2, (bR 0).1, h1.1.1.1]
  · split_ifs at hs with h1 h2
    linarith [(bD 0).1, (bR 0).1, h2.1.1.1]

/-- Size of the terms of the plane equation at `p`. -/
noncomputable def planeSize (V : V4 (F32 P)) (p : Pt) : ℝ := |p 0 * vals V 0| + |p 1 * vals V 1| + |p 2 * vals V 2| + |vals V 3| + 4 * tiny
theorem dist_lanes (c : Cfg) (p : F3 (F32 P)) (V : V4 (F32 P)) (hp : Fin3 p) (hV : Fins 4 V) (hM : planeSize V (ptOf p) ≤ 2^127) (i : Fin 4) :
    Fin' ((XMVector4Dot c (insertC c (load3 p) (XMVectorSplatOne c) 0 0 0 1) V).lane i) ∧
    |val ((XMVector4Dot c (insertC c (load3 p) (XMVectorSplatOne c) 0 0 0 1) V).lane i) - planeAt (ptOf (xyz V)) (vals V 3) (ptOf p)| ≤ gam 4 * planeSize V (ptOf p) := by
  rw [ins_w1]
  have hf : Fins 4 (⟨p.x, p.y, p.z, Lane.ofBits 0x3F800000#32⟩ : V4 (F32 P)) := by
    intro k hk; fin_cases k
    · exact hp.1
    · exact hp.2.1
    · exact hp.2.2
    · exact fin_one
  have := C93_dot4 c _ V hf hV i
  have e3 : vals (⟨p.x, p.y, p.z, Lane.ofBits 0x3F800000#32⟩ : V4 (F32 P)) 3 = 1 := val_one
  rw [e3, one_mul] at this
  have h2 := this hM
  refine ⟨h2.1, ?_⟩
  have e : planeAt (ptOf (xyz V)) (vals V 3) (ptOf p) = ptOf p 0 * vals V 0 + ptOf p 1 * vals V 1 + ptOf p 2 * vals V 2 + vals V 3 := by
    simp only [Spec.planeAt, dotProduct, Fin.sum_univ_three]
    have : ∀ x y z w a b d: ℝ, x * a + y * b + z * d + w = a * x + b * y + d * z + w := by intros; ring
    exact this _ _ _ _ _ _ _
  rw [e]; exact h2.2

/-- C98: a sphere is classified against a plane as its exact signed distance says, once that distance is at least the rounding error
`gam 4 * planeSize` away from the radius. -/
theorem C98_spherePlane (c : Cfg) (S : BoundingSphere (F32 P)) (V : V4 (F32 P)) (hS : FinSphere S) (hV : Fins 4 V) (hr : 0 ≤ value S.Radius.bits)
    (hM : planeSize V (ptOf S.Center) ≤ 2^127) :
    let s := planeAt (ptOf (xyz V)) (vals V 3) (ptOf S.Center)
    let r := value S.Radius.bits
    let g := gam 4 * planeSize V (ptOf S.Center)
    (r + g < s → BoundingSphere.IntersectsPlane c S V = .FRONT) ∧ (s < -r - g → BoundingSphere.IntersectsPlane c S V = .BACK) ∧
    (BoundingSphere.IntersectsPlane c S V = .FRONT → r - g < s) ∧ (BoundingSphere.IntersectsPlane c S V = .BACK → s < -r + g) := by
  intro s r g
  have := plane_core c _ (XMVectorReplicate S.Radius) (h := 0) hr (dist_lanes c S.Center V hS.1 hV hM) (fun i => by
    have : (XMVectorReplicate S.Radius).lane i = S.Radius := by fin_cases i <;> rfl
    rw [this]
    exact ⟨hS.2, by rw [show val S.Radius = value S.Radius.bits from rfl]; simp⟩)
  simp only [add_zero] at this
  exact this

/-- C98: the same for a box, whose radius along the normal `∑ e_i |n_i|` is rounded too. -/
theorem C98_boxPlane (c : Cfg) (B : BoundingBox (F32 P)) (V : V4 (F32 P)) (hB : FinBox B) (hV : Fins 4 V) (he : ∀ i, 0 ≤ ptOf B.Extents i)
    (hM : planeSize V (ptOf B.Center) ≤ 2^127)
    (hR : ptOf B.Extents 0 * |vals V 0| + ptOf B.Extents 1 * |vals V 1| + ptOf B.Extents 2 * |vals V 2| + 3 * tiny ≤ 2^127) :
    let s := planeAt (ptOf (xyz V)) (vals V 3) (ptOf B.Center)
    let r := ptOf B.Extents 0 * |vals V 0| + ptOf B.Extents 1 * |vals V 1| + ptOf B.Extents 2 * |vals V 2|
    let g := gam 4 * planeSize V (ptOf B.Center) + gam 3 * (r + 3 * tiny)
    (r + g < s → BoundingBox.IntersectsPlane c B V = .FRONT) ∧ (s < -r - g → BoundingBox.IntersectsPlane c B V = .BACK) ∧
    (BoundingBox.IntersectsPlane c B V = .FRONT → r - g < s) ∧ (BoundingBox.IntersectsPlane c B V = .BACK → s < -r + g) := by
  intro s r g
  have hE : Fins 3 (load3 B.Extents) := by
    intro k hk; fin_cases k
    · exact hB.2.1
    · exact hB.2.2.1
    · exact hB.2.2.2
    · exact absurd hk (by decide)
  have hA : Fins 3 (XMVectorAbs c V) := fun k hk => (abs_lanes c V k (hV k (by omega))).1
  have eA : ∀ k : Fin 4, vals (XMVectorAbs c V) k = |vals V k| := fun k => (abs_lanes c V k (hV k k.2)).2
  have hd := C93_dot3 c _ _ hE hA
  rw [eA, eA, eA] at hd
  have e0 : ∀ k : Fin 3, 0 ≤ ptOf B.Extents k * |vals V k.castSucc| := fun k => mul_nonneg (he k) (abs_nonneg _)
  have h0 : |vals (load3 B.Extents) 0 * (|vals V 0|)| = ptOf B.Extents 0 * |vals V 0| := abs_of_nonneg (e0 0)
  have h1 : |vals (load3 B.Extents) 1 * (|vals V 1|)| = ptOf B.Extents 1 * |vals V 1| := abs_of_nonneg (e0 1)
  have h2 : |vals (load3 B.Extents) 2 * (|vals V 2|)| = ptOf B.Extents 2 * |vals V 2| := abs_of_nonneg (e0 2)
  rw [h0, h1, h2] at hd
  have hr : 0 ≤ r := by have a := e0 0; have b := e0 1; have d := e0 2; exact add_nonneg (add_nonneg a b) d
  exact plane_core c _ _ hr (dist_lanes c B.Center V hB.1 hV hM) (fun i => hd i hR)

/-- A concrete sphere: center (3, -2, 1.5), radius 1. -/
def exSphere : BoundingSphere (F32 P) := ⟨⟨exV.x, exV.y, exV.z⟩, exV.w⟩
/-- The hypotheses of C96 - C98 on a concrete box, sphere and plane. -/
example : FinBox (exBox : BoundingBox (F32 P)) ∧ BoundedBy 10 (exBox : BoundingBox (F32 P)) ∧ (∀ i, 0 ≤ ptOf (exBox : BoundingBox (F32 P)).Extents i) ∧
    FinSphere (exSphere : BoundingSphere (F32 P)) ∧ Moderate (exSphere : BoundingSphere (F32 P)).Center ∧ Moderate (xyz (exV : V4 (F32 P))) ∧
    value (exSphere : BoundingSphere (F32 P)).Radius.bits = 1 ∧ planeSize (exV : V4 (F32 P)) (ptOf (exSphere : BoundingSphere (F32 P)).Center) ≤ 2^127 := by
  obtain ⟨e0, e1, e2, e3⟩ := exV_vals (P := P)
  have f := exV_fin (P := P) 4
  have e0' : value (exV : V4 (F32 P)).x.bits = 3 := e0
  have e1' : value (exV : V4 (F32 P)).y.bits = -2 := e1
  have e2' : value (exV : V4 (F32 P)).z.bits = 3/2 := e2
  have e3' : value (exV : V4 (F32 P)).w.bits = 1 := e3
  have f0 : IsFinite (exV : V4 (F32 P)).x.bits := f 0 (by decide)
  have f1 : IsFinite (exV : V4 (F32 P)).y.bits := f 1 (by decide)
  have f2 : IsFinite (exV : V4 (F32 P)).z.bits := f 2 (by decide)
  have f3 : IsFinite (exV : V4 (F32 P)).w.bits := f 3 (by decide)
  have ht1 : tiny ≤ 1 := by unfold tiny; norm_num
  refine ⟨⟨⟨f0, f1, f2⟩, f2, f0, f3⟩, ?_, ?_, ⟨⟨f0, f1, f2⟩, f3⟩, ?_, ?_, e3', ?_⟩
  · intro i; fin_cases i <;> simp [exBox, ptOf, e0', e1', e2', e3'] <;> norm_num
  · intro i; fin_cases i <;> simp [exBox, ptOf, e0', e1', e2', e3'] <;> norm_num
  · intro i; fin_cases i <;> simp [exSphere, ptOf, e0', e1', e2', e3'] <;> norm_num
  · intro i; fin_cases i <;> simp [xyz, ptOf, e0', e1', e2', e3'] <;> norm_num
  · simp [planeSize, exSphere, ptOf, e0, e1, e2, e3, e0', e1', e2']; norm_num; linarith

end DXM.Props
