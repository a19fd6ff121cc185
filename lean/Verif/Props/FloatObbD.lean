import Verif.Props.FloatSphereD
import Verif.Props.CollisionTransform

/-
C144: oriented boxes and frusta moved by a scale, a rotation and a translation on binary32 lanes.
-/

set_option linter.all false

namespace DXM.Props
open DXM.Spec DXM.FErr DXM.IEEE DXM.RG Matrix
open scoped Quaternion
variable {P : Env}

namespace SphD
theorem norm_unit {u : ℍ[ℝ]} (hu : Quaternion.normSq u = 1) : ‖u‖ = 1 := by
  have h := Quaternion.normSq_eq_norm_mul_self u
  rw [hu] at h
  nlinarith [norm_nonneg u]
theorem near {p u : ℍ[ℝ]} (hq : QClose p u (1/10^6)) : ‖p - u‖ ≤ 2/10^6 := by
  obtain ⟨q1, q2, q3, q4⟩ := hq
  refine (Drift.comps (e := 1/10^6) (by norm_num) ?_ ?_ ?_ ?_).trans (by norm_num)
  · rw [Quaternion.re_sub]; exact q4
  · rw [Quaternion.imI_sub]; exact q1
  · rw [Quaternion.imJ_sub]; exact q2
  · rw [Quaternion.imK_sub]; exact q3
theorem close_of_norm {p u : ℍ[ℝ]} {e : ℝ} (h : ‖p - u‖ ≤ e) : QClose p u e := by
  obtain ⟨h1, h2, h3⟩ := Loc.im_le (p - u)
  have h4 : |(p - u).re| ≤ ‖p - u‖ := by
    refine abs_le_of_sq_le_sq ?_ (norm_nonneg _)
    rw [Drift.nsq]; nlinarith [sq_nonneg (p - u).imI, sq_nonneg (p - u).imJ, sq_nonneg (p - u).imK]
  rw [Quaternion.imI_sub] at h1; rw [Quaternion.imJ_sub] at h2; rw [Quaternion.imK_sub] at h3; rw [Quaternion.re_sub] at h4
  exact ⟨h1.trans h, h2.trans h, h3.trans h, h4.trans h⟩
/-- The orientation of the result. -/
theorem turn (c : Cfg) (A Q : V4 (F32 P)) (q u : ℍ[ℝ]) (hA : Fins 4 A) (hQ : Fins 4 Q) (nq : Quaternion.normSq q = 1) (nu : Quaternion.normSq u = 1)
    (ha : QClose (quatOf A) q (1/10^6)) (hq : QClose (quatOf Q) u (1/10^6)) : QFClose (XMQuaternionMultiply c A Q) (u * q) (5/10^6) := by
  have a1 := near ha; have q1 := near hq
  have n1 := norm_unit nq; have n2 := norm_unit nu
  have bA : ‖quatOf A‖ ≤ 1 + 2/10^6 := by
    have := norm_add_le (quatOf A - q) q
    rw [sub_add_cancel, n1] at this
    linarith
  have bQ : ‖quatOf Q‖ ≤ 1 + 2/10^6 := by
    have := norm_add_le (quatOf Q - u) u
    rw [sub_add_cancel, n2] at this
    linarith
  have m : ‖quatOf Q‖ * ‖quatOf A‖ ≤ (1 + 2/10^6) * (1 + 2/10^6) := by gcongr
  obtain ⟨f, e⟩ := Drift.mul_step c hA hQ (m.trans (by norm_num))
  refine ⟨f, close_of_norm ?_⟩
  have t1 := Drift.tiny_le
  have e2 : quatOf Q * quatOf A - u * q = (quatOf Q - u) * quatOf A + u * (quatOf A - q) := by noncomm_ring
  have e3 : ‖quatOf Q * quatOf A - u * q‖ ≤ 2/10^6 * (1 + 2/10^6) + 1 * (2/10^6) := by
    rw [e2]
    refine (norm_add_le _ _).trans ?_
    rw [norm_mul, norm_mul, n2]
    gcongr
  have := norm_sub_le_norm_sub_add_norm_sub (quatOf (XMQuaternionMultiply c A Q)) (quatOf Q * quatOf A) (u * q)
  linarith
/-- A product lane. -/
theorem scale {x s : F32 P} (fx : Fin' x) (fs : Fin' s) (s0 : 0 < val s) (W : ℝ) (hx : |val x| ≤ W) (hW : W ≤ 2^40) (hs : val s ≤ 2^40) :
    Fin' (Lane.mul x s) ∧ |val (Lane.mul x s) - val s * val x| ≤ 2/2^24 * (W * val s + 1/10^35) := by
  have W0 : 0 ≤ W := (abs_nonneg _).trans hx
  have t1 : tiny ≤ 1/10^35 := by unfold tiny; norm_num
  have g1 : gam 1 ≤ 2/2^24 := by unfold gam ulp2; norm_num
  have tp := tiny_pos
  have ab : |val x * val s| ≤ W * val s := by rw [abs_mul, abs_of_pos s0]; exact mul_le_mul_of_nonneg_right hx s0.le
  have Wk : W * val s ≤ 2^80 := (mul_le_mul hW hs s0.le (by positivity)).trans (by norm_num)
  have Wk0 : 0 ≤ W * val s := by positivity
  obtain ⟨f, q⟩ := (mulL fx fs (by norm_num)).2.2 (by linarith)
  rw [mul_comm (val s)]
  exact ⟨f, q.trans (mul_le_mul g1 (by linarith) (by positivity) (by norm_num))⟩
/-- A scaled vector, turned and moved. -/
theorem move (c : Cfg) (V Q T : V4 (F32 P)) (v : Pt) (u : ℍ[ℝ]) (N B : ℝ) (fV : Fins 3 V) (hQ : Fins 4 Q) (hT : Fins 3 T) (hu : Quaternion.normSq u = 1) (hq : QClose (quatOf Q) u (1/10^6))
    (hv : ∀ i, |v i| ≤ N) (eV : ∀ i, |axisOf V i - v i| ≤ 4/2^24 * (N + 1/10^35)) (hN : N ≤ 2^80) (hB : ∀ i, |ptOf (xyz T) i| ≤ B) (hB' : B ≤ 2^80) :
    Fin3 (xyz (XMVectorAdd (XMVector3Rotate c V Q) T)) ∧ ∀ j, |ptOf (xyz (XMVectorAdd (XMVector3Rotate c V Q) T)) j - (rot u v + ptOf (xyz T)) j| ≤ 19/10^6 * N + 1/2^22 * B + 1/10^34 := by
  have N0 : 0 ≤ N := (abs_nonneg _).trans (hv 0)
  have B0 : 0 ≤ B := (abs_nonneg _).trans (hB 0)
  obtain ⟨fR, eR⟩ := fwd c V Q v u N (4/2^24 * (N + 1/10^35)) fV hQ hu hq hv eV (by linarith) (by linarith)
  set R := XMVector3Rotate c V Q with hR
  set t := ptOf (xyz T) with ht
  have rl : ∀ i, |rot u v i| ≤ 2 * N := fun i => by
    have := Loc.rot_le (u := star u) (by rw [Quaternion.normSq_star]; exact hu) N0 hv i
    rwa [star_star] at this
  have cen : ∀ j : Fin 3, Fin' (F3.lane (xyz (XMVectorAdd R T)) j) ∧ |ptOf (xyz (XMVectorAdd R T)) j - (rot u v + t) j| ≤ 19/10^6 * N + 1/2^22 * B + 1/10^34 := by
    intro j
    have er := abs_le.1 (eR j); have rj := abs_le.1 (rl j); have bj := abs_le.1 (hB j)
    have ab : |axisOf R j + t j| ≤ 3 * N + B + 1/10^34 := abs_le.2 ⟨by linarith, by linarith⟩
    rw [Loc.axis_lane, show t j = val (F3.lane (xyz T) j) from ptOf_lane _ _] at ab
    have fRj : Fin' (F3.lane (xyz R) j) := by
      fin_cases j
      · exact fR 0 (by decide)
      · exact fR 1 (by decide)
      · exact fR 2 (by decide)
    have fTj : Fin' (F3.lane (xyz T) j) := by
      fin_cases j
      · exact hT 0 (by decide)
      · exact hT 1 (by decide)
      · exact hT 2 (by decide)
    obtain ⟨f, e⟩ := add_rel fRj fTj (ab.trans (by linarith))
    have el : F3.lane (xyz (XMVectorAdd R T)) j = Lane.add (F3.lane (xyz R) j) (F3.lane (xyz T) j) := by fin_cases j <;> rfl
    rw [ptOf_lane, el]
    refine ⟨f, ?_⟩
    have hu' : ulp2 = 1/2^24 := by unfold ulp2; norm_num
    rw [hu'] at e
    have e' := abs_le.1 (e.trans (mul_le_mul_of_nonneg_left ab (by positivity)))
    rw [← Loc.axis_lane, show val (F3.lane (xyz T) j) = t j from (ptOf_lane _ _).symm] at e'
    show |_ - (rot u v j + t j)| ≤ _
    exact abs_le.2 ⟨by linarith, by linarith⟩
  exact ⟨⟨(cen 0).1, (cen 1).1, (cen 2).1⟩, fun j => (cen j).2⟩
end SphD

/-- C144: an oriented box moved by a scale, a rotation and a translation: the stored orientation is the product of the two rotations up to five millionths, and with that
product a point is in the box exactly when its image is in the result, up to the margin. -/
theorem C144_orientedBoxDecomposed (c : Cfg) (O : BoundingOrientedBox (F32 P)) (s : F32 P) (Q T : V4 (F32 P)) (q u : ℍ[ℝ]) (hc : Fin3 O.Center) (he : Fin3 O.Extents) (ho : Fins 4 O.Orientation)
    (fs : IsFinite s.bits) (s0 : 0 < value s.bits) (hQ : Fins 4 Q) (hT : Fins 3 T) (nq : Quaternion.normSq q = 1) (hq : QClose (quatOf O.Orientation) q (1/10^6)) (nu : Quaternion.normSq u = 1) (hu : QClose (quatOf Q) u (1/10^6))
    (W B : ℝ) (b : ∀ i, |ptOf O.Center i| ≤ W) (w : ∀ i, |ptOf O.Extents i| ≤ W) (hW : W ≤ 2^40) (hs : value s.bits ≤ 2^40) (hB : ∀ i, |ptOf (xyz T) i| ≤ B) (hB' : B ≤ 2^80) :
    let D := BoundingOrientedBox.TransformDecomposed c O s Q T
    let img := fun p : Pt => rot u (value s.bits • p) + ptOf (xyz T)
    let m := 40/10^6 * (W * value s.bits) + B / 2^20 + 1/10^30
    (Fin3 D.Center ∧ Fin3 D.Extents) ∧ QFClose D.Orientation (u * q) (5/10^6) ∧
    (∀ p ∈ obox (ptOf O.Center) (ptOf O.Extents) q, img p ∈ obox (ptOf D.Center) (fun i => ptOf D.Extents i + m) (u * q)) ∧
    ∀ p, img p ∈ obox (ptOf D.Center) (fun i => ptOf D.Extents i - m) (u * q) → p ∈ obox (ptOf O.Center) (ptOf O.Extents) q := by
  intro D img m
  set k := value s.bits with hk
  set a := ptOf O.Center with ha
  set e := ptOf O.Extents with he'
  have W0 : 0 ≤ W := (abs_nonneg _).trans (b 0)
  have B0 : 0 ≤ B := (abs_nonneg _).trans (hB 0)
  have Wk : W * k ≤ 2^80 := (mul_le_mul hW hs s0.le (by positivity)).trans (by norm_num)
  have Wk0 : 0 ≤ W * k := by positivity
  have hn : Quaternion.normSq (u * q) = 1 := by rw [map_mul, nu, nq, one_mul]
  set V := XMVectorMultiply (load3 O.Center) (XMVectorReplicate s) with hV
  have sc : ∀ j : Fin 3, Fin' (F3.lane (xyz V) j) ∧ |axisOf V j - (k • a) j| ≤ 2/2^24 * (W * k + 1/10^35) := by
    intro j
    have el : F3.lane (xyz V) j = Lane.mul (F3.lane O.Center j) s := by fin_cases j <;> rfl
    have va : a j = val (F3.lane O.Center j) := ptOf_lane _ _
    rw [Loc.axis_lane, Pi.smul_apply, smul_eq_mul, el, va]
    exact SphD.scale (fin3_lane hc j) fs s0 W (by rw [← va]; exact b j) hW hs
  have sx : ∀ j : Fin 3, Fin' (F3.lane D.Extents j) ∧ |ptOf D.Extents j - (k • e) j| ≤ 2/2^24 * (W * k + 1/10^35) := by
    intro j
    have el : F3.lane D.Extents j = Lane.mul (F3.lane O.Extents j) s := by fin_cases j <;> rfl
    have va : e j = val (F3.lane O.Extents j) := ptOf_lane _ _
    rw [ptOf_lane, Pi.smul_apply, smul_eq_mul, el, va]
    exact SphD.scale (fin3_lane he j) fs s0 W (by rw [← va]; exact w j) hW hs
  have fV : Fins 3 V := fun i hi => by
    fin_cases i
    · exact (sc 0).1
    · exact (sc 1).1
    · exact (sc 2).1
    · exact absurd hi (by decide)
  obtain ⟨fC, eC⟩ := SphD.move c V Q T (k • a) u (W * k) B fV hQ hT nu hu (fun i => by
    rw [Pi.smul_apply, smul_eq_mul, abs_mul, abs_of_pos s0, mul_comm]; exact mul_le_mul_of_nonneg_right (b i) s0.le) (fun i => (sc i).2.trans (by linarith)) Wk hB hB'
  have eC' : ∀ j, |(img a - ptOf D.Center) j| ≤ 19/10^6 * (W * k) + 1/2^22 * B + 1/10^34 := fun j => by
    rw [Pi.sub_apply, abs_sub_comm]; exact eC j
  have rC := fun i => abs_le.1 (Loc.rot_le hn (by positivity) eC' i)
  have spl : ∀ p i, rot (star (u * q)) (img p - ptOf D.Center) i = rot (star (u * q)) (img p - img a) i + rot (star (u * q)) (img a - ptOf D.Center) i := fun p i => by
    have h1 := rot_sub (nstar hn) (img p - ptOf D.Center) (img a - ptOf D.Center)
    rw [sub_sub_sub_cancel_right] at h1
    rw [h1, Pi.sub_apply, sub_add_cancel]
  have ex : ∀ p, (∀ i, |rot (star (u * q)) (img p - img a) i| ≤ (k • e) i) ↔ p ∈ obox a e q := fun p => by
    rw [← mem_obox' hn]; exact obox_image nq nu s0
  refine ⟨⟨fC, (sx 0).1, (sx 1).1, (sx 2).1⟩, SphD.turn c _ _ q u ho hQ nq nu hq hu, fun p hp => ?_, fun p hp => ?_⟩
  · rw [mem_obox' hn]
    intro i
    have h1 := abs_le.1 ((ex p).2 hp i)
    have h2 := abs_le.1 (sx i).2
    have h3 := rC i
    rw [spl]
    show _ ≤ ptOf D.Extents i + (40/10^6 * (W * k) + B / 2^20 + 1/10^30)
    exact abs_le.2 ⟨by linarith, by linarith⟩
  · rw [mem_obox' hn] at hp
    rw [← ex p]
    intro i
    have h1 := abs_le.1 (hp i)
    have h2 := abs_le.1 (sx i).2
    have h3 := rC i
    rw [spl] at h1
    change -(ptOf D.Extents i - (40/10^6 * (W * k) + B / 2^20 + 1/10^30)) ≤ _ ∧ _ ≤ ptOf D.Extents i - (40/10^6 * (W * k) + B / 2^20 + 1/10^30) at h1
    exact abs_le.2 ⟨by linarith [h1.1], by linarith [h1.2]⟩

/-- C144: a frustum moved by a scale, a rotation and a translation: the slopes are kept, and origin, orientation, near and far plane are those of the exact image up to the margin. -/
theorem C144_frustumDecomposed (c : Cfg) (F : BoundingFrustum (F32 P)) (s : F32 P) (Q T : V4 (F32 P)) (q u : ℍ[ℝ]) (hc : Fin3 F.Origin) (ho : Fins 4 F.Orientation) (hn : IsFinite F.Near.bits) (hf : IsFinite F.Far.bits)
    (fs : IsFinite s.bits) (s0 : 0 < value s.bits) (hQ : Fins 4 Q) (hT : Fins 3 T) (nq : Quaternion.normSq q = 1) (hq : QClose (quatOf F.Orientation) q (1/10^6)) (nu : Quaternion.normSq u = 1) (hu : QClose (quatOf Q) u (1/10^6))
    (W B : ℝ) (b : ∀ i, |ptOf F.Origin i| ≤ W) (w1 : |value F.Near.bits| ≤ W) (w2 : |value F.Far.bits| ≤ W) (hW : W ≤ 2^40) (hs : value s.bits ≤ 2^40) (hB : ∀ i, |ptOf (xyz T) i| ≤ B) (hB' : B ≤ 2^80) :
    let D := BoundingFrustum.TransformDecomposed c F s Q T
    let m := 20/10^6 * (W * value s.bits) + B / 2^20 + 1/10^30
    Fin3 D.Origin ∧ (∀ i, |ptOf D.Origin i - (rot u (value s.bits • ptOf F.Origin) + ptOf (xyz T)) i| ≤ m) ∧ QFClose D.Orientation (u * q) (5/10^6) ∧
    FClose D.Near.bits (value s.bits * value F.Near.bits) m ∧ FClose D.Far.bits (value s.bits * value F.Far.bits) m ∧
    D.RightSlope = F.RightSlope ∧ D.LeftSlope = F.LeftSlope ∧ D.TopSlope = F.TopSlope ∧ D.BottomSlope = F.BottomSlope := by
  intro D m
  set k := value s.bits with hk
  set a := ptOf F.Origin with ha
  have W0 : 0 ≤ W := (abs_nonneg _).trans (b 0)
  have B0 : 0 ≤ B := (abs_nonneg _).trans (hB 0)
  have Wk : W * k ≤ 2^80 := (mul_le_mul hW hs s0.le (by positivity)).trans (by norm_num)
  have Wk0 : 0 ≤ W * k := by positivity
  set V := XMVectorScale c (load3 F.Origin) s with hV
  have sc : ∀ j : Fin 3, Fin' (F3.lane (xyz V) j) ∧ |axisOf V j - (k • a) j| ≤ 2/2^24 * (W * k + 1/10^35) := by
    intro j
    have el : F3.lane (xyz V) j = Lane.mul s (F3.lane F.Origin j) ∨ F3.lane (xyz V) j = Lane.mul (F3.lane F.Origin j) s := by
      simp only [hV, XMVectorScale]
      split_ifs
      · left; fin_cases j <;> rfl
      · right; fin_cases j <;> rfl
    have va : a j = val (F3.lane F.Origin j) := ptOf_lane _ _
    have ba : |val (F3.lane F.Origin j)| ≤ W := by rw [← va]; exact b j
    rw [Loc.axis_lane, Pi.smul_apply, smul_eq_mul, va]
    rcases el with el | el <;> rw [el]
    · have t1 : tiny ≤ 1/10^35 := by unfold tiny; norm_num
      have g1 : gam 1 ≤ 2/2^24 := by unfold gam ulp2; norm_num
      have tp := tiny_pos
      have ab : |val s * val (F3.lane F.Origin j)| ≤ W * k := by
        rw [mul_comm, abs_mul, abs_of_pos (show 0 < val s from s0)]; exact mul_le_mul_of_nonneg_right ba s0.le
      obtain ⟨f, e⟩ := (mulL fs (fin3_lane hc j) (by norm_num)).2.2 (by linarith)
      exact ⟨f, e.trans (mul_le_mul g1 (by linarith) (by positivity) (by norm_num))⟩
    · exact SphD.scale (fin3_lane hc j) fs s0 W ba hW hs
  have fV : Fins 3 V := fun i hi => by
    fin_cases i
    · exact (sc 0).1
    · exact (sc 1).1
    · exact (sc 2).1
    · exact absurd hi (by decide)
  obtain ⟨fC, eC⟩ := SphD.move c V Q T (k • a) u (W * k) B fV hQ hT nu hu (fun i => by
    rw [Pi.smul_apply, smul_eq_mul, abs_mul, abs_of_pos s0, mul_comm]; exact mul_le_mul_of_nonneg_right (b i) s0.le) (fun i => (sc i).2.trans (by linarith)) Wk hB hB'
  obtain ⟨n1, n2⟩ := SphD.scale hn fs s0 W w1 hW hs
  obtain ⟨f1, f2⟩ := SphD.scale hf fs s0 W w2 hW hs
  have hm : 19/10^6 * (W * k) + 1/2^22 * B + 1/10^34 ≤ m := by
    show _ ≤ 20/10^6 * (W * k) + B / 2^20 + 1/10^30
    linarith
  have hm' : 2/2^24 * (W * k + 1/10^35) ≤ m := by
    show _ ≤ 20/10^6 * (W * k) + B / 2^20 + 1/10^30
    linarith
  exact ⟨fC, fun i => (eC i).trans hm, SphD.turn c _ _ q u ho hQ nq nu hq hu, ⟨n1, n2.trans hm'⟩, ⟨f1, f2.trans hm'⟩, rfl, rfl, rfl, rfl⟩

/-! The hypotheses are met: the cube and the frustum at the origin, scaled by 2. -/
open Loc in
example (c : Cfg) : let D := BoundingOrientedBox.TransformDecomposed c (cube : BoundingOrientedBox (F32 P)) (fl 0x40000000#32) ⟨fl 0#32, fl 0#32, fl 0#32, fl 0x3F800000#32⟩ ⟨fl 0#32, fl 0#32, fl 0#32, fl 0#32⟩
    QFClose D.Orientation 1 (5/10^6) := by
  intro D
  have z : IsFinite 0#32 := by decide
  have o : IsFinite 0x3F800000#32 := by decide
  have r2 : value (fl 0x40000000#32 : F32 P).bits = 2 := v2
  have eT : ptOf (xyz (⟨fl 0#32, fl 0#32, fl 0#32, fl 0#32⟩ : V4 (F32 P))) = 0 := po3
  have := (C144_orientedBoxDecomposed c (cube : BoundingOrientedBox (F32 P)) (fl 0x40000000#32) ⟨fl 0#32, fl 0#32, fl 0#32, fl 0x3F800000#32⟩ ⟨fl 0#32, fl 0#32, fl 0#32, fl 0#32⟩ 1 1
    fo3 ⟨o, o, o⟩ fidq (by decide : IsFinite 0x40000000#32) (by rw [r2]; norm_num) fidq (fun k _ => by
      fin_cases k
      exacts [z, z, z, z]) (by simp) idq (by simp) idq 1 0
    (fun i => by show |ptOf o3 i| ≤ _; rw [po3]; simp) (fun i => by
      have : ptOf (cube : BoundingOrientedBox (F32 P)).Extents i = 1 := by
        fin_cases i
        exacts [v1, v1, v1]
      rw [this]; simp) (by norm_num) (by rw [r2]; norm_num) (fun i => by rw [eT]; simp) (by norm_num)).2.1
  rwa [one_mul] at this
open Loc in
example (c : Cfg) : let D := BoundingFrustum.TransformDecomposed c (frus : BoundingFrustum (F32 P)) (fl 0x40000000#32) ⟨fl 0#32, fl 0#32, fl 0#32, fl 0x3F800000#32⟩ ⟨fl 0#32, fl 0#32, fl 0#32, fl 0#32⟩
    FClose D.Far.bits 4 (1/10^4) := by
  intro D
  have z : IsFinite 0#32 := by decide
  have r2 : value (fl 0x40000000#32 : F32 P).bits = 2 := v2
  have rn : value (frus : BoundingFrustum (F32 P)).Near.bits = 1/2 := vh
  have rf : value (frus : BoundingFrustum (F32 P)).Far.bits = 2 := v2
  have eT : ptOf (xyz (⟨fl 0#32, fl 0#32, fl 0#32, fl 0#32⟩ : V4 (F32 P))) = 0 := po3
  have := (C144_frustumDecomposed c (frus : BoundingFrustum (F32 P)) (fl 0x40000000#32) ⟨fl 0#32, fl 0#32, fl 0#32, fl 0x3F800000#32⟩ ⟨fl 0#32, fl 0#32, fl 0#32, fl 0#32⟩ 1 1
    fo3 fidq (by decide : IsFinite 0x3F000000#32) (by decide : IsFinite 0x40000000#32) (by decide : IsFinite 0x40000000#32) (by rw [r2]; norm_num) fidq (fun k _ => by
      fin_cases k
      exacts [z, z, z, z]) (by simp) idq (by simp) idq 2 0
    (fun i => by show |ptOf o3 i| ≤ _; rw [po3]; simp) (by rw [rn]; norm_num) (by rw [rf]; norm_num) (by norm_num) (by rw [r2]; norm_num) (fun i => by rw [eT]; simp) (by norm_num)).2.2.2.2.1
  rw [r2, rf] at this
  refine ⟨this.1, ?_⟩
  have h := this.2
  norm_num at h ⊢
  linarith
end DXM.Props
