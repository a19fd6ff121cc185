import Verif.Props.FloatDrift
import Verif.Props.FloatSphere
import Verif.Lemmas.FRel
import Verif.Props.FloatNaN
import Verif.Lemmas.Integral
import Verif.Props.CollisionOBB

/-
C134: points in oriented boxes and frustums on binary32 lanes.
-/

set_option linter.all false

namespace DXM.Props
open DXM.Spec DXM.FErr DXM.IEEE DXM.RG
open scoped Quaternion
variable {P : Env}

namespace Loc
theorem im_le (q : ℍ[ℝ]) : |q.imI| ≤ ‖q‖ ∧ |q.imJ| ≤ ‖q‖ ∧ |q.imK| ≤ ‖q‖ := by
  have h := Drift.nsq q
  refine ⟨abs_le_of_sq_le_sq ?_ (norm_nonneg _), abs_le_of_sq_le_sq ?_ (norm_nonneg _), abs_le_of_sq_le_sq ?_ (norm_nonneg _)⟩ <;>
    nlinarith [sq_nonneg q.re, sq_nonneg q.imI, sq_nonneg q.imJ, sq_nonneg q.imK]
theorem pure_norm {v : Pt} {e : ℝ} (he : 0 ≤ e) (h : ∀ i, |v i| ≤ e) : ‖pureQ v‖ ≤ 2 * e :=
  Drift.comps he (by show |(0:ℝ)| ≤ e; simpa using he) (h 0) (h 1) (h 2)
theorem pure_sub (v w : Pt) : pureQ v - pureQ w = pureQ (v - w) := by
  ext
  · rw [Quaternion.re_sub]; exact sub_zero _
  · rw [Quaternion.imI_sub]; rfl
  · rw [Quaternion.imJ_sub]; rfl
  · rw [Quaternion.imK_sub]; rfl
/-- The local coordinates of a point. -/
theorem coords (c : Cfg) (V C Q : V4 (F32 P)) (u : ℍ[ℝ]) (N : ℝ) (hV : Fins 3 V) (hC : Fins 3 C) (hQ : Fins 4 Q) (hu : Quaternion.normSq u = 1) (hq : QClose (quatOf Q) u (1/10^6))
    (hN : ∀ i, |axisOf V i - axisOf C i| ≤ N) (hN' : N ≤ 2^90) :
    Fins 4 (XMVector3InverseRotate c (XMVectorSubtract V C) Q) ∧
    ∀ i, |axisOf (XMVector3InverseRotate c (XMVectorSubtract V C) Q) i - rot (star u) (axisOf V - axisOf C) i| ≤ 17/10^6 * N + 1/10^40 := by
  have N0 : 0 ≤ N := (abs_nonneg _).trans (hN 0)
  have g1 : gam 1 ≤ 6/10^8 := by unfold gam ulp2; norm_num
  have sub1 : ∀ i : Fin 4, i.val < 3 → ∀ n, |vals V i - vals C i| ≤ n → n ≤ 2^90 → Fin' ((XMVectorSubtract V C).lane i) ∧ |vals (XMVectorSubtract V C) i - (vals V i - vals C i)| ≤ 6/10^8 * n := by
    intro i hi n hn hn'
    have e : (XMVectorSubtract V C).lane i = Lane.sub (V.lane i) (C.lane i) := by fin_cases i <;> rfl
    obtain ⟨a, b⟩ := rel_sub (hV i hi) (hC i hi) (hn.trans (hn'.trans (by norm_num)))
    rw [← e] at a b
    exact ⟨a, b.trans (mul_le_mul g1 hn (abs_nonneg _) (by norm_num))⟩
  have s0 := sub1 0 (by decide) N (hN 0) hN'
  have s1 := sub1 1 (by decide) N (hN 1) hN'
  have s2 := sub1 2 (by decide) N (hN 2) hN'
  set D := XMVectorSubtract V C with hD
  have fD : Fins 3 D := by
    intro i hi
    fin_cases i
    · exact s0.1
    · exact s1.1
    · exact s2.1
    · exact absurd hi (by decide)
  have bD : ∀ i, |axisOf D i - (axisOf V - axisOf C) i| ≤ 6/10^8 * N := by
    intro i
    fin_cases i
    · exact s0.2
    · exact s1.2
    · exact s2.2
  have dD : ∀ i, |(axisOf V - axisOf C) i| ≤ N := hN
  have aD : ∀ i, |axisOf D i| ≤ (1 + 6/10^8) * N := by
    intro i
    have := abs_add_le (axisOf D i - (axisOf V - axisOf C) i) ((axisOf V - axisOf C) i)
    rw [sub_add_cancel] at this
    linarith [bD i, dD i]
  have nu : ‖u‖ = 1 := by
    have h := Quaternion.normSq_eq_norm_mul_self u
    rw [hu] at h
    nlinarith [norm_nonneg u]
  have nd : ‖quatOf Q - u‖ ≤ 2 * (1/10^6) := by
    obtain ⟨q1, q2, q3, q4⟩ := hq
    refine Drift.comps (by norm_num) ?_ ?_ ?_ ?_
    · rw [Quaternion.re_sub]; exact q4
    · rw [Quaternion.imI_sub]; exact q1
    · rw [Quaternion.imJ_sub]; exact q2
    · rw [Quaternion.imK_sub]; exact q3
  have nQ : ‖quatOf Q‖ ≤ 1 + 2/10^6 := by
    have := norm_add_le (quatOf Q - u) u
    rw [sub_add_cancel, nu] at this
    linarith
  have hb : ∀ i, |vals Q i| ≤ 101/100 := by
    intro i
    have n2 := Drift.nsq (quatOf Q)
    have n3 : ‖quatOf Q‖^2 ≤ (101/100)^2 := pow_le_pow_left₀ (norm_nonneg _) (nQ.trans (by norm_num)) 2
    have n4 : vals Q 3^2 + vals Q 0^2 + vals Q 1^2 + vals Q 2^2 ≤ (101/100)^2 := by rw [n2] at n3; exact n3
    refine abs_le_of_sq_le_sq ?_ (by norm_num)
    fin_cases i
    · show vals Q 0 ^2 ≤ _; nlinarith [sq_nonneg (vals Q 0), sq_nonneg (vals Q 1), sq_nonneg (vals Q 2), sq_nonneg (vals Q 3)]
    · show vals Q 1 ^2 ≤ _; nlinarith [sq_nonneg (vals Q 0), sq_nonneg (vals Q 1), sq_nonneg (vals Q 2), sq_nonneg (vals Q 3)]
    · show vals Q 2 ^2 ≤ _; nlinarith [sq_nonneg (vals Q 0), sq_nonneg (vals Q 1), sq_nonneg (vals Q 2), sq_nonneg (vals Q 3)]
    · show vals Q 3 ^2 ≤ _; nlinarith [sq_nonneg (vals Q 0), sq_nonneg (vals Q 1), sq_nonneg (vals Q 2), sq_nonneg (vals Q 3)]
  have R := C117_inverseRotate c D Q ((1 + 6/10^8) * N) fD hQ hb (fun i hi => by
    fin_cases i
    · exact aD 0
    · exact aD 1
    · exact aD 2
    · exact absurd hi (by decide)) (by norm_num at hN' ⊢; linarith)
  have nX := pure_norm (v := axisOf D) (by positivity) aD
  have nY := pure_norm (v := axisOf V - axisOf C) N0 dD
  have nXY : ‖pureQ (axisOf D) - pureQ (axisOf V - axisOf C)‖ ≤ 2 * (6/10^8 * N) := by
    rw [pure_sub]; exact pure_norm (by positivity) bD
  set A := quatOf Q
  set X := pureQ (axisOf D)
  set Y := pureQ (axisOf V - axisOf C)
  have key : ‖star A * X * A - star u * Y * u‖ ≤ 82/10^7 * N := by
    have e : star A * X * A - star u * Y * u = star (A - u) * X * A + star u * (X - Y) * A + star u * Y * (A - u) := by
      rw [star_sub]; noncomm_ring
    rw [e]
    refine (norm_add_le _ _).trans ((add_le_add (norm_add_le _ _) le_rfl).trans ?_)
    rw [norm_mul, norm_mul, norm_mul, norm_mul, norm_mul, norm_mul, norm_star, norm_star, nu, one_mul, one_mul]
    have h1 : ‖A - u‖ * ‖X‖ * ‖A‖ ≤ (2 * (1/10^6)) * (2 * ((1 + 6/10^8) * N)) * (1 + 2/10^6) := by gcongr
    have h2 : ‖X - Y‖ * ‖A‖ ≤ 2 * (6/10^8 * N) * (1 + 2/10^6) := by gcongr
    have h3 : ‖Y‖ * ‖A - u‖ ≤ 2 * N * (2 * (1/10^6)) := by gcongr
    linarith
  obtain ⟨R0, R1, R2, R3, -⟩ := R
  refine ⟨R0, fun i => ?_⟩
  obtain ⟨k1, k2, k3⟩ := im_le (star A * X * A - star u * Y * u)
  have fin : ∀ {x y z : ℝ}, |x - y| ≤ 8/10^6 * ((1 + 6/10^8) * N) + 1/10^40 → |y - z| ≤ ‖star A * X * A - star u * Y * u‖ → |x - z| ≤ 17/10^6 * N + 1/10^40 := by
    intro x y z h1 h2
    have := abs_add_le (x - y) (y - z); rw [sub_add_sub_cancel] at this; linarith
  rw [Quaternion.imI_sub] at k1; rw [Quaternion.imJ_sub] at k2; rw [Quaternion.imK_sub] at k3
  have e : rot (star u) (axisOf V - axisOf C) = ![(star u * Y * u).imI, (star u * Y * u).imJ, (star u * Y * u).imK] := by unfold rot; rw [star_star]
  rw [e]
  fin_cases i
  · exact fin R1 k1
  · exact fin R2 k2
  · exact fin R3 k3
theorem within_fin {t e : F32 P} (ht : Fin' t) (he : Fin' e) : Within t.bits e.bits ↔ |val t| ≤ val e := by
  unfold Within
  rw [evalue_finite ht, evalue_finite he, abs_le, ← EReal.coe_neg, EReal.coe_le_coe_iff, EReal.coe_le_coe_iff]
  exact ⟨fun h => ⟨h.2.2.1, h.2.2.2⟩, fun h => ⟨not_nan_of_finite ht, not_nan_of_finite he, h.1, h.2⟩⟩
theorem axis_lane (T : V4 (F32 P)) (i : Fin 3) : axisOf T i = val (F3.lane (xyz T) i) := by fin_cases i <;> rfl
end Loc

/-- C134: a point deeper inside the oriented box than the margin is reported as contained, and a point reported as contained is within the margin of the
box. The margin is 17 millionths of the distance to the center, and the orientation may be a unit quaternion up to one millionth. -/
theorem C134_orientedBox (c : Cfg) (O : BoundingOrientedBox (F32 P)) (V : V4 (F32 P)) (u : ℍ[ℝ]) (N : ℝ) (hc : Fin3 O.Center) (he : Fin3 O.Extents) (ho : Fins 4 O.Orientation) (hV : Fins 3 V)
    (hu : Quaternion.normSq u = 1) (hq : QClose (quatOf O.Orientation) u (1/10^6)) (hN : ∀ i, |ptOf (xyz V) i - ptOf O.Center i| ≤ N) (hN' : N ≤ 2^90) :
    (ptOf (xyz V) ∈ obox (ptOf O.Center) (fun i => ptOf O.Extents i - (17/10^6 * N + 1/10^40)) u → O.ContainsPoint c V = .CONTAINS) ∧
    (O.ContainsPoint c V = .CONTAINS → ptOf (xyz V) ∈ obox (ptOf O.Center) (fun i => ptOf O.Extents i + (17/10^6 * N + 1/10^40)) u) := by
  have fC : Fins 3 (load3 O.Center : V4 (F32 P)) := by
    intro i hi
    fin_cases i
    · exact hc.1
    · exact hc.2.1
    · exact hc.2.2
    · exact absurd hi (by decide)
  obtain ⟨hT, hE⟩ := Loc.coords c V (load3 O.Center) O.Orientation u N hV fC ho hu hq hN hN'
  have key : O.ContainsPoint c V = .CONTAINS ↔ ∀ i, |axisOf (XMVector3InverseRotate c (XMVectorSubtract V (load3 O.Center)) O.Orientation) i| ≤ ptOf O.Extents i := by
    refine Iff.trans (contains_iff _) ?_
    rw [(C11_predicates c _ (load3 O.Extents) (load3 O.Extents)).2.2.2.2.1, all_lanes3]
    refine forall_congr' fun i => ?_
    rw [Loc.axis_lane, ptOf_lane, ← Loc.within_fin]
    · fin_cases i <;> rfl
    · fin_cases i
      · exact hT 0 (by decide)
      · exact hT 1 (by decide)
      · exact hT 2 (by decide)
    · exact fin3_lane he i
  rw [key, mem_obox' hu, mem_obox' hu]
  have e : axisOf V - axisOf (load3 O.Center : V4 (F32 P)) = ptOf (xyz V) - ptOf O.Center := rfl
  rw [e] at hE
  constructor
  · intro h i
    have h1 := abs_add_le (axisOf (XMVector3InverseRotate c (XMVectorSubtract V (load3 O.Center)) O.Orientation) i - rot (star u) (ptOf (xyz V) - ptOf O.Center) i) (rot (star u) (ptOf (xyz V) - ptOf O.Center) i)
    rw [sub_add_cancel] at h1
    have := hE i; have := h i
    linarith
  · intro h i
    have h1 := abs_sub_abs_le_abs_sub (rot (star u) (ptOf (xyz V) - ptOf O.Center) i) (axisOf (XMVector3InverseRotate c (XMVectorSubtract V (load3 O.Center)) O.Orientation) i)
    rw [abs_sub_comm] at h1
    have := hE i; have := h i
    show _ ≤ ptOf O.Extents i + _
    linarith

namespace Loc
theorem fold_lane (f : V4 (F32 P) → V4 (F32 P)) (i : Fin 4) (l : List (V4 (F32 P))) : ∀ (V : V4 (F32 P)) (a : Bool), V.lane i = Lane.mask a →
    (l.foldl (fun O Q => XMVectorOrInt O (XMVectorGreater (f Q) XMVectorZero)) V).lane i = Lane.mask (a || l.any fun Q => Lane.gt ((f Q).lane i) Lane.c0) := by
  induction l with
  | nil => intro V a h; simpa using h
  | cons Q l ih =>
    intro V a h
    rw [List.foldl_cons, ih _ (a || Lane.gt ((f Q).lane i) Lane.c0), List.any_cons, Bool.or_assoc]
    have e : (XMVectorOrInt V (XMVectorGreater (f Q) XMVectorZero)).lane i = Lane.bor (V.lane i) (Lane.mask (Lane.gt ((f Q).lane i) Lane.c0)) := by fin_cases i <;> rfl
    rw [e, h, bor_mask]
/-- The frustum test, plane by plane. -/
theorem frustum_iff (c : Cfg) (F : BoundingFrustum (F32 P)) (V : V4 (F32 P)) : let T := XMVector3InverseRotate c (XMVectorSubtract V (load3 F.Origin)) F.Orientation
    F.ContainsPoint c V = .CONTAINS ↔ ∃ i : Fin 4, ∀ Q ∈ F.localPlanes, Lane.gt ((XMVector4Dot c ⟨T.x, T.y, T.z, Lane.ofBits 0x3F800000#32⟩ Q).lane i) Lane.c0 = false := by
  intro T
  have e : F.ContainsPoint c V = if XMVector4NotEqualInt c ((BoundingFrustum.localPlanes F).foldl (fun Outside Q => XMVectorOrInt Outside
      (XMVectorGreater (XMVector4Dot c (insertC c T (XMVectorSplatOne c) 0 0 0 1) Q) XMVectorZero)) XMVectorZero) XMVectorTrueInt = true
      then .CONTAINS else .DISJOINT := rfl
  rw [e, contains_iff, (C09_vector4 c _ _).2.2.2.2.2.2.2, insert_w]
  have fl := fun i => fold_lane (fun Q => XMVector4Dot c ⟨T.x, T.y, T.z, Lane.ofBits 0x3F800000#32⟩ Q) i F.localPlanes XMVectorZero false (by fin_cases i <;> rfl)
  unfold AllLanes
  push Not
  refine ⟨fun ⟨i, _, h⟩ => ⟨i, fun Q hQ => ?_⟩, fun ⟨i, h⟩ => ⟨i, i.isLt, ?_⟩⟩
  · by_contra hg
    rw [Bool.not_eq_false] at hg
    apply h
    rw [fl i, Bool.false_or, List.any_eq_true.2 ⟨Q, hQ, hg⟩]
    fin_cases i <;> rfl
  · rw [fl i, Bool.false_or, List.any_eq_false.2 (fun Q hQ => by rw [h Q hQ]; simp)]
    have : ((XMVectorTrueInt : V4 (F32 P)).lane i).bits = 0xFFFFFFFF#32 := by fin_cases i <;> rfl
    rw [this]
    show ¬ (0#32 = 0xFFFFFFFF#32)
    decide
theorem g4 : gam 4 ≤ 239 / 10^9 := Drift.gam4
/-- One plane. -/
theorem plane_err (c : Cfg) (T Q : V4 (F32 P)) (l : Pt) (S Z N : ℝ) (hT : Fins 4 T) (hQ : Fins 4 Q) (hw : T.w = Lane.ofBits 0x3F800000#32) (N0 : 0 ≤ N) (hN : N ≤ 2^50) (S0 : 0 ≤ S) (hS : S ≤ 2^50) (Z0 : 0 ≤ Z) (hZ : Z ≤ 2^90)
    (hl : ∀ i, |l i| ≤ 2 * N) (hTl : ∀ i, |axisOf T i - l i| ≤ 17/10^6 * N + 1/10^40) (hs : |vals Q 0| + |vals Q 1| + |vals Q 2| ≤ 1 + S) (hz : |vals Q 3| ≤ Z) (i : Fin 4) :
    Fin' ((XMVector4Dot c T Q).lane i) ∧ |vals (XMVector4Dot c T Q) i - (vals Q 0 * l 0 + vals Q 1 * l 1 + vals Q 2 * l 2 + vals Q 3)| ≤ (1 + S) * (18/10^6 * N + 1/10^39) + 3/10^7 * Z := by
  have h := C93_dot4 c T Q hT hQ i
  have w1 : vals T 3 = 1 := by show val T.w = 1; rw [hw]; exact val_one
  rw [w1, one_mul] at h
  have tt : tiny ≤ 12/10^39 := by unfold tiny; norm_num
  have t0 : 0 < tiny := Drift.tiny_pos
  set m := 17/10^6 * N + 1/10^40 with hm
  have m0 : 0 ≤ m := by positivity
  have tb : ∀ j, |axisOf T j| ≤ 2 * N + m := fun j => by
    have := abs_add_le (axisOf T j - l j) (l j); rw [sub_add_cancel] at this; linarith [hl j, hTl j]
  have t1 : |vals T 0| ≤ 2 * N + m := tb 0
  have t2 : |vals T 1| ≤ 2 * N + m := tb 1
  have t3 : |vals T 2| ≤ 2 * N + m := tb 2
  have d1 : |vals T 0 - l 0| ≤ m := hTl 0
  have d2 : |vals T 1 - l 1| ≤ m := hTl 1
  have d3 : |vals T 2 - l 2| ≤ m := hTl 2
  have hM : |vals T 0 * vals Q 0| + |vals T 1 * vals Q 1| + |vals T 2 * vals Q 2| + |vals Q 3| + 4 * tiny ≤ (1 + S) * (2 * N + m) + Z + 4 * tiny := by
    rw [abs_mul, abs_mul, abs_mul]
    have a1 := mul_le_mul_of_nonneg_right t1 (abs_nonneg (vals Q 0))
    have a2 := mul_le_mul_of_nonneg_right t2 (abs_nonneg (vals Q 1))
    have a3 := mul_le_mul_of_nonneg_right t3 (abs_nonneg (vals Q 2))
    have a4 := mul_le_mul_of_nonneg_right hs (show 0 ≤ 2 * N + m by linarith)
    nlinarith
  have hbig : (1 + S) * (2 * N + m) + Z + 4 * tiny ≤ 2^127 := by
    have a : (1 + S) * (2 * N + m) ≤ (1 + 2^50) * (2 * 2^50 + (17/10^6 * 2^50 + 1/10^40)) := by rw [hm]; gcongr
    refine (add_le_add (add_le_add a hZ) (mul_le_mul_of_nonneg_left tt (by norm_num))).trans ?_
    norm_num
  obtain ⟨f, e⟩ := h (hM.trans hbig)
  refine ⟨f, ?_⟩
  have e' : |vals (XMVector4Dot c T Q) i - (vals T 0 * vals Q 0 + vals T 1 * vals Q 1 + vals T 2 * vals Q 2 + vals Q 3)| ≤ 239/10^9 * ((1 + S) * (2 * N + m) + Z + 4 * tiny) :=
    e.trans (mul_le_mul g4 hM (by positivity) (by norm_num))
  have k : |(vals T 0 * vals Q 0 + vals T 1 * vals Q 1 + vals T 2 * vals Q 2 + vals Q 3) - (vals Q 0 * l 0 + vals Q 1 * l 1 + vals Q 2 * l 2 + vals Q 3)| ≤ (1 + S) * m := by
    have e2 : (vals T 0 * vals Q 0 + vals T 1 * vals Q 1 + vals T 2 * vals Q 2 + vals Q 3) - (vals Q 0 * l 0 + vals Q 1 * l 1 + vals Q 2 * l 2 + vals Q 3) =
      (vals T 0 - l 0) * vals Q 0 + (vals T 1 - l 1) * vals Q 1 + (vals T 2 - l 2) * vals Q 2 := by ring
    rw [e2]
    refine (abs_add_three _ _ _).trans ?_
    rw [abs_mul, abs_mul, abs_mul]
    have a1 := mul_le_mul_of_nonneg_right d1 (abs_nonneg (vals Q 0))
    have a2 := mul_le_mul_of_nonneg_right d2 (abs_nonneg (vals Q 1))
    have a3 := mul_le_mul_of_nonneg_right d3 (abs_nonneg (vals Q 2))
    have a4 := mul_le_mul_of_nonneg_right hs m0
    nlinarith
  have := abs_add_le (vals (XMVector4Dot c T Q) i - (vals T 0 * vals Q 0 + vals T 1 * vals Q 1 + vals T 2 * vals Q 2 + vals Q 3)) ((vals T 0 * vals Q 0 + vals T 1 * vals Q 1 + vals T 2 * vals Q 2 + vals Q 3) - (vals Q 0 * l 0 + vals Q 1 * l 1 + vals Q 2 * l 2 + vals Q 3))
  rw [sub_add_sub_cancel] at this
  have SN : 0 ≤ S * N := mul_nonneg S0 N0
  rw [hm] at e' k
  ring_nf at e' k this ⊢
  nlinarith
theorem rot_le {u : ℍ[ℝ]} (hu : Quaternion.normSq u = 1) {v : Pt} {N : ℝ} (N0 : 0 ≤ N) (h : ∀ i, |v i| ≤ N) (i : Fin 3) : |rot (star u) v i| ≤ 2 * N := by
  have hs : Quaternion.normSq (star u) = 1 := by rw [Quaternion.normSq_star]; exact hu
  have e := rot_pure hs v
  have nu : ‖u‖ = 1 := by
    have h := Quaternion.normSq_eq_norm_mul_self u
    rw [hu] at h
    nlinarith [norm_nonneg u]
  have n : ‖pureQ (rot (star u) v)‖ ≤ 2 * N := by
    rw [e, norm_mul, norm_mul, star_star, norm_star, nu, one_mul, mul_one]
    exact pure_norm N0 h
  obtain ⟨k1, k2, k3⟩ := im_le (pureQ (rot (star u) v))
  fin_cases i
  · exact k1.trans n
  · exact k2.trans n
  · exact k3.trans n
theorem gt0 {t : F32 P} (ht : Fin' t) : Lane.gt t Lane.c0 = false ↔ val t ≤ 0 := by
  have z : Fin' (Lane.c0 : F32 P) := by show IsFinite 0#32; decide
  have zv : value (Lane.c0 : F32 P).bits = 0 := val_zero
  rw [gt_le (not_nan_of_finite ht) (not_nan_of_finite z)]
  unfold FLe
  rw [evalue_finite ht, evalue_finite z, EReal.coe_le_coe_iff, zv]
  exact ⟨fun h => h.2.2, fun h => ⟨not_nan_of_finite ht, not_nan_of_finite z, h⟩⟩
end Loc

/-- The fields of the frustum are finite numbers. -/
def FinFrustum (F : BoundingFrustum (F32 P)) : Prop := Fin3 F.Origin ∧ Fins 4 F.Orientation ∧ Fin' F.RightSlope ∧ Fin' F.LeftSlope ∧ Fin' F.TopSlope ∧ Fin' F.BottomSlope ∧ Fin' F.Near ∧ Fin' F.Far
/-- How far the point `l` of the frustum's frame is outside face `k` (near, far, right, left, top, bottom). -/
noncomputable def faceOf (F : BoundingFrustum (F32 P)) (k : Fin 6) (l : Pt) : ℝ :=
  frustumFace (value F.RightSlope.bits) (value F.LeftSlope.bits) (value F.TopSlope.bits) (value F.BottomSlope.bits) (value F.Near.bits) (value F.Far.bits) k l

/-- C134: a point that is inside all six faces of the frustum by more than the margin is reported as contained, and a point reported as contained is outside
no face by more than the margin. -/
theorem C134_frustum (c : Cfg) (F : BoundingFrustum (F32 P)) (V : V4 (F32 P)) (u : ℍ[ℝ]) (N S Z : ℝ) (hF : FinFrustum F) (hV : Fins 3 V)
    (hu : Quaternion.normSq u = 1) (hq : QClose (quatOf F.Orientation) u (1/10^6)) (hN : ∀ i, |ptOf (xyz V) i - ptOf F.Origin i| ≤ N) (hN' : N ≤ 2^50)
    (hR : |value F.RightSlope.bits| ≤ S) (hL : |value F.LeftSlope.bits| ≤ S) (hT : |value F.TopSlope.bits| ≤ S) (hB : |value F.BottomSlope.bits| ≤ S) (hS : S ≤ 2^50)
    (hn : |value F.Near.bits| ≤ Z) (hf : |value F.Far.bits| ≤ Z) (hZ : Z ≤ 2^90) :
    let l := rot (star u) (ptOf (xyz V) - ptOf F.Origin)
    let g := (1 + S) * (18/10^6 * N + 1/10^39) + 3/10^7 * Z
    ((∀ k, faceOf F k l ≤ -g) → F.ContainsPoint c V = .CONTAINS) ∧ (F.ContainsPoint c V = .CONTAINS → ∀ k, faceOf F k l ≤ g) := by
  intro l g
  obtain ⟨f0, f1, fR, fL, fT, fB, fn, ff⟩ := hF
  have N0 : 0 ≤ N := (abs_nonneg _).trans (hN 0)
  have S0 : 0 ≤ S := (abs_nonneg _).trans hR
  have Z0 : 0 ≤ Z := (abs_nonneg _).trans hn
  have fC : Fins 3 (load3 F.Origin : V4 (F32 P)) := by
    intro i hi
    fin_cases i
    · exact f0.1
    · exact f0.2.1
    · exact f0.2.2
    · exact absurd hi (by decide)
  obtain ⟨hTf, hE⟩ := Loc.coords c V (load3 F.Origin) F.Orientation u N hV fC f1 hu hq hN (hN'.trans (by norm_num))
  have key := Loc.frustum_iff c F V
  simp only at key
  rw [key]
  set T := XMVector3InverseRotate c (XMVectorSubtract V (load3 F.Origin)) F.Orientation with hTT
  set T1 : V4 (F32 P) := ⟨T.x, T.y, T.z, Lane.ofBits 0x3F800000#32⟩ with hT1
  have fT1 : Fins 4 T1 := by
    intro i hi
    fin_cases i
    · exact hTf 0 (by decide)
    · exact hTf 1 (by decide)
    · exact hTf 2 (by decide)
    · exact fin_one
  have hl : ∀ i, |l i| ≤ 2 * N := Loc.rot_le hu N0 hN
  have hE' : ∀ i, |axisOf T1 i - l i| ≤ 17/10^6 * N + 1/10^40 := hE
  have z0 : Fin' (Lane.c0 : F32 P) := by show IsFinite 0#32; decide
  have zv : val (Lane.c0 : F32 P) = 0 := val_zero
  have nv : ∀ x : F32 P, val (Lane.neg x) = - val x := fun x => neg_value _
  have nf : ∀ x : F32 P, Fin' x → Fin' (Lane.neg x) := fun x h => finite_neg.2 h
  have oneF : Fin' (Lane.c1 : F32 P) := fin_one
  have onev : val (Lane.c1 : F32 P) = 1 := val_one
  have negF : Fin' (Lane.cNeg1 : F32 P) := by show IsFinite 0xBF800000#32; decide
  have negv : val (Lane.cNeg1 : F32 P) = -1 := val_negOne
  have mk4 : ∀ a b d e : F32 P, Fin' a → Fin' b → Fin' d → Fin' e → Fins 4 (XMVectorSet a b d e) := by
    intro a b d e h1 h2 h3 h4 i hi
    fin_cases i
    · exact h1
    · exact h2
    · exact h3
    · exact h4
  have st : ∀ (a b d e : F32 P) (i : Fin 4) (y : ℝ), Fin' a → Fin' b → Fin' d → Fin' e → |val a| + |val b| + |val d| ≤ 1 + S → |val e| ≤ Z →
      val a * l 0 + val b * l 1 + val d * l 2 + val e = y → Fin' ((XMVector4Dot c T1 (XMVectorSet a b d e)).lane i) ∧ |val ((XMVector4Dot c T1 (XMVectorSet a b d e)).lane i) - y| ≤ g := by
    intro a b d e i y h1 h2 h3 h4 h5 h6 h7
    rw [← h7]
    exact Loc.plane_err c T1 (XMVectorSet a b d e) l S Z N fT1 (mk4 a b d e h1 h2 h3 h4) rfl N0 hN' S0 hS Z0 hZ hl hE' h5 h6 i
  have all : ∀ i : Fin 4, (∀ k : Fin 6, ∃ Q ∈ F.localPlanes, Fin' ((XMVector4Dot c T1 Q).lane i) ∧ |val ((XMVector4Dot c T1 Q).lane i) - faceOf F k l| ≤ g) ∧
      (∀ Q ∈ F.localPlanes, ∃ k : Fin 6, Fin' ((XMVector4Dot c T1 Q).lane i) ∧ |val ((XMVector4Dot c T1 Q).lane i) - faceOf F k l| ≤ g) := by
    intro i
    have p0 := st Lane.c0 Lane.c0 Lane.cNeg1 F.Near i (faceOf F 0 l) z0 z0 negF fn (by rw [zv, negv]; simp; linarith) hn (by rw [zv, negv]; show _ = value F.Near.bits - l 2; unfold val; ring)
    have p1 := st Lane.c0 Lane.c0 Lane.c1 (Lane.neg F.Far) i (faceOf F 1 l) z0 z0 oneF (nf _ ff) (by rw [zv, onev]; simp; linarith) (by rw [nv, abs_neg]; exact hf) (by rw [zv, onev, nv]; show _ = l 2 - value F.Far.bits; unfold val; ring)
    have p2 := st Lane.c1 Lane.c0 (Lane.neg F.RightSlope) Lane.c0 i (faceOf F 2 l) oneF z0 (nf _ fR) z0 (by rw [zv, onev, nv, abs_neg]; simp; exact hR) (by rw [zv]; simpa using Z0) (by rw [zv, onev, nv]; show _ = l 0 - value F.RightSlope.bits * l 2; unfold val; ring)
    have p3 := st Lane.cNeg1 Lane.c0 F.LeftSlope Lane.c0 i (faceOf F 3 l) negF z0 fL z0 (by rw [zv, negv]; simp; exact hL) (by rw [zv]; simpa using Z0) (by rw [zv, negv]; show _ = value F.LeftSlope.bits * l 2 - l 0; unfold val; ring)
    have p4 := st Lane.c0 Lane.c1 (Lane.neg F.TopSlope) Lane.c0 i (faceOf F 4 l) z0 oneF (nf _ fT) z0 (by rw [zv, onev, nv, abs_neg]; simp; exact hT) (by rw [zv]; simpa using Z0) (by rw [zv, onev, nv]; show _ = l 1 - value F.TopSlope.bits * l 2; unfold val; ring)
    have p5 := st Lane.c0 Lane.cNeg1 F.BottomSlope Lane.c0 i (faceOf F 5 l) z0 negF fB z0 (by rw [zv, negv]; simp; exact hB) (by rw [zv]; simpa using Z0) (by rw [zv, negv]; show _ = value F.BottomSlope.bits * l 2 - l 1; unfold val; ring)
    constructor
    · intro k
      fin_cases k
      · exact ⟨_, by simp [BoundingFrustum.localPlanes], p0⟩
      · exact ⟨XMVectorSet Lane.c0 Lane.c0 Lane.c1 (Lane.neg F.Far), by simp [BoundingFrustum.localPlanes], p1⟩
      · exact ⟨XMVectorSet Lane.c1 Lane.c0 (Lane.neg F.RightSlope) Lane.c0, by simp [BoundingFrustum.localPlanes], p2⟩
      · exact ⟨XMVectorSet Lane.cNeg1 Lane.c0 F.LeftSlope Lane.c0, by simp [BoundingFrustum.localPlanes], p3⟩
      · exact ⟨XMVectorSet Lane.c0 Lane.c1 (Lane.neg F.TopSlope) Lane.c0, by simp [BoundingFrustum.localPlanes], p4⟩
      · exact ⟨XMVectorSet Lane.c0 Lane.cNeg1 F.BottomSlope Lane.c0, by simp [BoundingFrustum.localPlanes], p5⟩
    · intro Q hQ
      simp only [BoundingFrustum.localPlanes, List.mem_cons, List.not_mem_nil, or_false] at hQ
      rcases hQ with rfl | rfl | rfl | rfl | rfl | rfl
      · exact ⟨0, p0⟩
      · exact ⟨1, p1⟩
      · exact ⟨2, p2⟩
      · exact ⟨3, p3⟩
      · exact ⟨4, p4⟩
      · exact ⟨5, p5⟩
  constructor
  · intro h
    refine ⟨0, fun Q hQ => ?_⟩
    obtain ⟨k, hk1, hk2⟩ := (all 0).2 Q hQ
    rw [Loc.gt0 hk1]
    have := (abs_le.1 hk2).2; have := h k
    linarith
  · rintro ⟨i, h⟩ k
    obtain ⟨Q, hQ, hk1, hk2⟩ := (all i).1 k
    have := (Loc.gt0 hk1).1 (h Q hQ); have := (abs_le.1 hk2).1
    linarith

/-! The hypotheses are met by concrete shapes: the cube of half-size 1 and a frustum from depth 1/2 to depth 2, both unrotated; they contain the
points (1/2, 1/2, 1/2) and (1/2, 1/2, 1) in every build. -/
namespace Loc
def fl (b : BitVec 32) : F32 P := Lane.ofBits b
def o3 : F3 (F32 P) := ⟨fl 0#32, fl 0#32, fl 0#32⟩
def cube : BoundingOrientedBox (F32 P) := ⟨o3, ⟨fl 0x3F800000#32, fl 0x3F800000#32, fl 0x3F800000#32⟩, ⟨fl 0#32, fl 0#32, fl 0#32, fl 0x3F800000#32⟩⟩
def frus : BoundingFrustum (F32 P) := ⟨o3, ⟨fl 0#32, fl 0#32, fl 0#32, fl 0x3F800000#32⟩, fl 0x3F800000#32, fl 0xBF800000#32, fl 0x3F800000#32, fl 0xBF800000#32, fl 0x3F000000#32, fl 0x40000000#32⟩
theorem v0 : value (fl 0#32 : F32 P).bits = 0 := val_zero
theorem v1 : value (fl 0x3F800000#32 : F32 P).bits = 1 := value_one
theorem vn : value (fl 0xBF800000#32 : F32 P).bits = -1 := val_negOne
theorem vh : value (fl 0x3F000000#32 : F32 P).bits = 1/2 := half_value
theorem v2 : value (fl 0x40000000#32 : F32 P).bits = 2 := two_value
theorem idq : QClose (quatOf (⟨fl 0#32, fl 0#32, fl 0#32, fl 0x3F800000#32⟩ : V4 (F32 P))) 1 (1/10^6) := by
  have a : vals (⟨fl 0#32, fl 0#32, fl 0#32, fl 0x3F800000#32⟩ : V4 (F32 P)) 0 = 0 := v0
  have b : vals (⟨fl 0#32, fl 0#32, fl 0#32, fl 0x3F800000#32⟩ : V4 (F32 P)) 1 = 0 := v0
  have d : vals (⟨fl 0#32, fl 0#32, fl 0#32, fl 0x3F800000#32⟩ : V4 (F32 P)) 2 = 0 := v0
  have e : vals (⟨fl 0#32, fl 0#32, fl 0#32, fl 0x3F800000#32⟩ : V4 (F32 P)) 3 = 1 := v1
  unfold QClose quatOf
  simp only [a, b, d, e]
  norm_num
theorem fidq : Fins 4 (⟨fl 0#32, fl 0#32, fl 0#32, fl 0x3F800000#32⟩ : V4 (F32 P)) := by
  intro i hi
  fin_cases i
  · show IsFinite 0#32; decide
  · show IsFinite 0#32; decide
  · show IsFinite 0#32; decide
  · show IsFinite 0x3F800000#32; decide
theorem fhalf : Fins 3 (⟨fl 0x3F000000#32, fl 0x3F000000#32, fl 0x3F800000#32, fl 0#32⟩ : V4 (F32 P)) ∧ Fins 3 (⟨fl 0x3F000000#32, fl 0x3F000000#32, fl 0x3F000000#32, fl 0#32⟩ : V4 (F32 P)) := by
  constructor <;> intro i hi <;> fin_cases i
  · show IsFinite 0x3F000000#32; decide
  · show IsFinite 0x3F000000#32; decide
  · show IsFinite 0x3F800000#32; decide
  · exact absurd hi (by decide)
  · show IsFinite 0x3F000000#32; decide
  · show IsFinite 0x3F000000#32; decide
  · show IsFinite 0x3F000000#32; decide
  · exact absurd hi (by decide)
theorem fo3 : Fin3 (o3 : F3 (F32 P)) := ⟨(by decide : IsFinite 0#32), (by decide : IsFinite 0#32), (by decide : IsFinite 0#32)⟩
theorem po3 : ptOf (o3 : F3 (F32 P)) = 0 := by
  ext i; fin_cases i <;> exact v0
end Loc
open Loc in
example (c : Cfg) : (cube : BoundingOrientedBox (F32 P)).ContainsPoint c ⟨fl 0x3F000000#32, fl 0x3F000000#32, fl 0x3F000000#32, fl 0#32⟩ = .CONTAINS := by
  have pv : ∀ i, ptOf (xyz (⟨fl 0x3F000000#32, fl 0x3F000000#32, fl 0x3F000000#32, fl 0#32⟩ : V4 (F32 P))) i = 1/2 := by intro i; fin_cases i <;> exact vh
  have pe : ∀ i, ptOf (⟨fl 0x3F800000#32, fl 0x3F800000#32, fl 0x3F800000#32⟩ : F3 (F32 P)) i = 1 := by intro i; fin_cases i <;> exact v1
  refine (C134_orientedBox c cube _ 1 (1/2) fo3 ⟨(by decide : IsFinite 0x3F800000#32), (by decide : IsFinite 0x3F800000#32), (by decide : IsFinite 0x3F800000#32)⟩ fidq fhalf.2 (by simp) idq ?_ (by norm_num)).1 ?_
  · intro i
    rw [pv, show ptOf (cube : BoundingOrientedBox (F32 P)).Center = 0 from po3]
    norm_num [abs_of_pos]
  · rw [mem_obox' (by simp), show ptOf (cube : BoundingOrientedBox (F32 P)).Center = 0 from po3]
    intro i
    rw [star_one, rot_one, sub_zero, pv, show (cube : BoundingOrientedBox (F32 P)).Extents = ⟨fl 0x3F800000#32, fl 0x3F800000#32, fl 0x3F800000#32⟩ from rfl, pe]
    norm_num [abs_of_pos]
open Loc in
example (c : Cfg) : (frus : BoundingFrustum (F32 P)).ContainsPoint c ⟨fl 0x3F000000#32, fl 0x3F000000#32, fl 0x3F800000#32, fl 0#32⟩ = .CONTAINS := by
  have pv : ptOf (xyz (⟨fl 0x3F000000#32, fl 0x3F000000#32, fl 0x3F800000#32, fl 0#32⟩ : V4 (F32 P))) = ![1/2, 1/2, 1] := by
    ext i; fin_cases i
    · exact vh
    · exact vh
    · exact v1
  refine (C134_frustum c frus _ 1 1 1 2 ⟨fo3, fidq, (by decide : IsFinite 0x3F800000#32), (by decide : IsFinite 0xBF800000#32), (by decide : IsFinite 0x3F800000#32), (by decide : IsFinite 0xBF800000#32),
    (by decide : IsFinite 0x3F000000#32), (by decide : IsFinite 0x40000000#32)⟩ fhalf.1 (by simp) idq ?_ (by norm_num) ?_ ?_ ?_ ?_ (by norm_num) ?_ ?_ (by norm_num)).1 ?_
  · intro i
    rw [pv, show ptOf (frus : BoundingFrustum (F32 P)).Origin = 0 from po3]
    fin_cases i <;> norm_num [abs_of_pos]
  · exact le_of_eq (by rw [show value (frus : BoundingFrustum (F32 P)).RightSlope.bits = 1 from v1]; norm_num)
  · exact le_of_eq (by rw [show value (frus : BoundingFrustum (F32 P)).LeftSlope.bits = -1 from vn]; norm_num)
  · exact le_of_eq (by rw [show value (frus : BoundingFrustum (F32 P)).TopSlope.bits = 1 from v1]; norm_num)
  · exact le_of_eq (by rw [show value (frus : BoundingFrustum (F32 P)).BottomSlope.bits = -1 from vn]; norm_num)
  · rw [show value (frus : BoundingFrustum (F32 P)).Near.bits = 1/2 from vh]; norm_num [abs_of_pos]
  · exact le_of_eq (by rw [show value (frus : BoundingFrustum (F32 P)).Far.bits = 2 from v2]; norm_num)
  · rw [show ptOf (frus : BoundingFrustum (F32 P)).Origin = 0 from po3, star_one, rot_one, sub_zero, pv]
    intro k
    unfold faceOf
    rw [show value (frus : BoundingFrustum (F32 P)).RightSlope.bits = 1 from v1, show value (frus : BoundingFrustum (F32 P)).LeftSlope.bits = -1 from vn,
      show value (frus : BoundingFrustum (F32 P)).TopSlope.bits = 1 from v1, show value (frus : BoundingFrustum (F32 P)).BottomSlope.bits = -1 from vn,
      show value (frus : BoundingFrustum (F32 P)).Near.bits = 1/2 from vh, show value (frus : BoundingFrustum (F32 P)).Far.bits = 2 from v2]
    fin_cases k <;> simp [frustumFace] <;> norm_num
end DXM.Props
