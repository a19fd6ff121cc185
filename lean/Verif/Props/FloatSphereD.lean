import Verif.Props.FloatSphereT

/-
C143: spheres moved by a scale, a rotation and a translation on binary32 lanes.
-/

set_option linter.all false

namespace DXM.Props
open DXM.Spec DXM.FErr DXM.IEEE DXM.RG Matrix
open scoped Quaternion
variable {P : Env}

namespace SphD
/-- A rounded rotation of a vector known up to `δ`. -/
theorem fwd (c : Cfg) (D Q : V4 (F32 P)) (v : Pt) (u : ℍ[ℝ]) (N δ : ℝ) (fD : Fins 3 D) (hQ : Fins 4 Q) (hu : Quaternion.normSq u = 1) (hq : QClose (quatOf Q) u (1/10^6))
    (hN : ∀ i, |v i| ≤ N) (bD : ∀ i, |axisOf D i - v i| ≤ δ) (hN' : N ≤ 2^90) (hδ : δ ≤ 2^90) :
    Fins 4 (XMVector3Rotate c D Q) ∧ ∀ i, |axisOf (XMVector3Rotate c D Q) i - rot u v i| ≤ 17/10^6 * N + 3 * δ + 1/10^40 := by
  have N0 : 0 ≤ N := (abs_nonneg _).trans (hN 0)
  have δ0 : 0 ≤ δ := (abs_nonneg _).trans (bD 0)
  have aD : ∀ i, |axisOf D i| ≤ N + δ := by
    intro i
    have := abs_add_le (axisOf D i - v i) (v i)
    rw [sub_add_cancel] at this
    linarith [bD i, hN i]
  have nu : ‖u‖ = 1 := by
    have h := Quaternion.normSq_eq_norm_mul_self u
    rw [hu] at h
    nlinarith [norm_nonneg u]
  have nd : ‖quatOf Q - u‖ ≤ 2 * (1/10^6) := by
    obtain ⟨q1, q2, q3, q4⟩ := hq
    refine Drift.comps (by norm_num) ?_ ?_ ?_ ?_
    · rw [Quaternion.re_sub]; exact q4
    · rw [Quaternion.imI_sub]; exact q1
    · rw [Quaternion.imJ_sub]; exact q2
    · rw [Quaternion.imK_sub]; exact q3
  have nQ : ‖quatOf Q‖ ≤ 1 + 2/10^6 := by
    have := norm_add_le (quatOf Q - u) u
    rw [sub_add_cancel, nu] at this
    linarith
  have hb : ∀ i, |vals Q i| ≤ 101/100 := by
    intro i
    have n2 := Drift.nsq (quatOf Q)
    have n3 : ‖quatOf Q‖^2 ≤ (101/100)^2 := pow_le_pow_left₀ (norm_nonneg _) (nQ.trans (by norm_num)) 2
    have n4 : vals Q 3^2 + vals Q 0^2 + vals Q 1^2 + vals Q 2^2 ≤ (101/100)^2 := by rw [n2] at n3; exact n3
    refine abs_le_of_sq_le_sq ?_ (by norm_num)
    fin_cases i
    · show vals Q 0 ^2 ≤ _; nlinarith [sq_nonneg (vals Q 0), sq_nonneg (vals Q 1), sq_nonneg (vals Q 2), sq_nonneg (vals Q 3)]
    · show vals Q 1 ^2 ≤ _; nlinarith [sq_nonneg (vals Q 0), sq_nonneg (vals Q 1), sq_nonneg (vals Q 2), sq_nonneg (vals Q 3)]
    · show vals Q 2 ^2 ≤ _; nlinarith [sq_nonneg (vals Q 0), sq_nonneg (vals Q 1), sq_nonneg (vals Q 2), sq_nonneg (vals Q 3)]
    · show vals Q 3 ^2 ≤ _; nlinarith [sq_nonneg (vals Q 0), sq_nonneg (vals Q 1), sq_nonneg (vals Q 2), sq_nonneg (vals Q 3)]
  have R := C117_rotate c D Q (N + δ) fD hQ hb (fun i hi => by
    fin_cases i
    · exact aD 0
    · exact aD 1
    · exact aD 2
    · exact absurd hi (by decide)) (by linarith)
  have nX := Loc.pure_norm (v := axisOf D) (by positivity) aD
  have nY := Loc.pure_norm (v := v) N0 hN
  have nXY : ‖pureQ (axisOf D) - pureQ v‖ ≤ 2 * δ := by
    rw [Loc.pure_sub]; exact Loc.pure_norm (by positivity) bD
  set A := quatOf Q
  set X := pureQ (axisOf D)
  set Y := pureQ v
  have key : ‖A * X * star A - u * Y * star u‖ ≤ 81/10^7 * N + 21/10 * δ := by
    have e : A * X * star A - u * Y * star u = (A - u) * X * star A + u * (X - Y) * star A + u * Y * star (A - u) := by
      rw [star_sub]; noncomm_ring
    rw [e]
    refine (norm_add_le _ _).trans ((add_le_add (norm_add_le _ _) le_rfl).trans ?_)
    rw [norm_mul, norm_mul, norm_mul, norm_mul, norm_mul, norm_mul, norm_star, norm_star, nu, one_mul, one_mul]
    have h1 : ‖A - u‖ * ‖X‖ * ‖A‖ ≤ (2 * (1/10^6)) * (2 * (N + δ)) * (1 + 2/10^6) := by gcongr
    have h2 : ‖X - Y‖ * ‖A‖ ≤ 2 * δ * (1 + 2/10^6) := by gcongr
    have h3 : ‖Y‖ * ‖A - u‖ ≤ 2 * N * (2 * (1/10^6)) := by gcongr
    linarith
  obtain ⟨R0, R1, R2, R3, -⟩ := R
  refine ⟨R0, fun i => ?_⟩
  obtain ⟨k1, k2, k3⟩ := Loc.im_le (A * X * star A - u * Y * star u)
  have fin : ∀ {x y z : ℝ}, |x - y| ≤ 8/10^6 * (N + δ) + 1/10^40 → |y - z| ≤ ‖A * X * star A - u * Y * star u‖ → |x - z| ≤ 17/10^6 * N + 3 * δ + 1/10^40 := by
    intro x y z h1 h2
    have := abs_add_le (x - y) (y - z); rw [sub_add_sub_cancel] at this; linarith
  rw [Quaternion.imI_sub] at k1; rw [Quaternion.imJ_sub] at k2; rw [Quaternion.imK_sub] at k3
  fin_cases i
  · exact fin R1 k1
  · exact fin R2 k2
  · exact fin R3 k3
end SphD

/-- C143: a sphere moved by a scale, a rotation (a unit quaternion up to one millionth) and a translation: up to the margin, a point is in the sphere exactly when its image is in the result. -/
theorem C143_sphereDecomposed (c : Cfg) (S : BoundingSphere (F32 P)) (s : F32 P) (Q T : V4 (F32 P)) (u : ℍ[ℝ]) (h : FinSphere S) (h0 : 0 ≤ value S.Radius.bits) (fs : IsFinite s.bits) (s0 : 0 < value s.bits)
    (hQ : Fins 4 Q) (hT : Fins 3 T) (hu : Quaternion.normSq u = 1) (hq : QClose (quatOf Q) u (1/10^6))
    (W B : ℝ) (b : ∀ i, |ptOf S.Center i| ≤ W) (w : value S.Radius.bits ≤ W) (hW : W ≤ 2^40) (hs : value s.bits ≤ 2^40) (hB : ∀ i, |ptOf (xyz T) i| ≤ B) (hB' : B ≤ 2^80) :
    let D := BoundingSphere.TransformDecomposed c S s Q T
    let img := fun p : Pt => rot u (value s.bits • p) + ptOf (xyz T)
    let m := 40/10^6 * (W * value s.bits) + B / 2^20 + 1/10^30
    FinSphere D ∧ (∀ p ∈ ball (ptOf S.Center) (value S.Radius.bits), img p ∈ ball (ptOf D.Center) (value D.Radius.bits + m)) ∧
    ∀ p, img p ∈ ball (ptOf D.Center) (value D.Radius.bits - m) → p ∈ ball (ptOf S.Center) (value S.Radius.bits) := by
  intro D img m
  set r := value S.Radius.bits with hr
  set k := value s.bits with hk
  set a := ptOf S.Center with ha
  set t := ptOf (xyz T) with ht
  have W0 : 0 ≤ W := h0.trans w
  have B0 : 0 ≤ B := (abs_nonneg _).trans (hB 0)
  have tp := tiny_pos
  have t1 : tiny ≤ 1/10^35 := by unfold tiny; norm_num
  have Wk : W * k ≤ 2^80 := (mul_le_mul hW hs s0.le (by positivity)).trans (by norm_num)
  have Wk0 : 0 ≤ W * k := by positivity
  have rk : r * k ≤ W * k := mul_le_mul_of_nonneg_right w s0.le
  have rk0 : 0 ≤ r * k := by positivity
  have g1 : gam 1 ≤ 2/2^24 := by unfold gam ulp2; norm_num
  -- the scaled center
  have sc : ∀ j : Fin 3, Fin' (F3.lane (xyz (XMVectorScale c (load3 S.Center) s)) j) ∧ |axisOf (XMVectorScale c (load3 S.Center) s) j - (k • a) j| ≤ 2/2^24 * (W * k + 1/10^35) := by
    intro j
    have ab : |a j * k| ≤ W * k := by rw [abs_mul, abs_of_pos s0]; exact mul_le_mul_of_nonneg_right (b j) s0.le
    have e : F3.lane (xyz (XMVectorScale c (load3 S.Center) s)) j = Lane.mul s (F3.lane S.Center j) ∨ F3.lane (xyz (XMVectorScale c (load3 S.Center) s)) j = Lane.mul (F3.lane S.Center j) s := by
      unfold XMVectorScale
      split_ifs
      · left; fin_cases j <;> rfl
      · right; fin_cases j <;> rfl
    rw [Loc.axis_lane, Pi.smul_apply, smul_eq_mul]
    have va : val (F3.lane S.Center j) = a j := (ptOf_lane _ _).symm
    have vk : val s = k := rfl
    rcases e with e | e <;> rw [e]
    · obtain ⟨f, q⟩ := (mulL fs (fin3_lane h.1 j) (by norm_num)).2.2 (by rw [va, vk, mul_comm]; linarith)
      rw [va, vk] at q
      refine ⟨f, q.trans (mul_le_mul g1 ?_ (by positivity) (by norm_num))⟩
      rw [mul_comm]; linarith
    · obtain ⟨f, q⟩ := (mulL (fin3_lane h.1 j) fs (by norm_num)).2.2 (by rw [va, vk]; linarith)
      rw [va, vk] at q
      rw [mul_comm k]
      exact ⟨f, q.trans (mul_le_mul g1 (by linarith) (by positivity) (by norm_num))⟩
  set V := XMVectorScale c (load3 S.Center) s with hV
  have fV : Fins 3 V := fun i hi => by
    fin_cases i
    · exact (sc 0).1
    · exact (sc 1).1
    · exact (sc 2).1
    · exact absurd hi (by decide)
  obtain ⟨fR, eR⟩ := SphD.fwd c V Q (k • a) u (W * k) (2/2^24 * (W * k + 1/10^35)) fV hQ hu hq (fun i => by
    rw [Pi.smul_apply, smul_eq_mul, abs_mul, abs_of_pos s0, mul_comm]; exact mul_le_mul_of_nonneg_right (b i) s0.le) (fun i => (sc i).2) (by linarith) (by linarith)
  set R := XMVector3Rotate c V Q with hR
  have rl : ∀ i, |rot u (k • a) i| ≤ 2 * (W * k) := fun i => by
    have := Loc.rot_le (u := star u) (by rw [Quaternion.normSq_star]; exact hu) (v := k • a) Wk0 (fun i => by
      rw [Pi.smul_apply, smul_eq_mul, abs_mul, abs_of_pos s0, mul_comm]; exact mul_le_mul_of_nonneg_right (b i) s0.le) i
    rwa [star_star] at this
  -- the center
  have cen : ∀ j : Fin 3, Fin' (F3.lane D.Center j) ∧ |ptOf D.Center j - img a j| ≤ 19/10^6 * (W * k) + 1/2^22 * B + 1/10^34 := by
    intro j
    have er := abs_le.1 (eR j); have rj := abs_le.1 (rl j); have bj := abs_le.1 (hB j)
    have ab : |axisOf R j + t j| ≤ 3 * (W * k) + B + 1/10^34 := abs_le.2 ⟨by linarith, by linarith⟩
    rw [Loc.axis_lane, show t j = val (F3.lane (xyz T) j) from ptOf_lane _ _] at ab
    have fRj : Fin' (F3.lane (xyz R) j) := by
      fin_cases j
      · exact fR 0 (by decide)
      · exact fR 1 (by decide)
      · exact fR 2 (by decide)
    have fTj : Fin' (F3.lane (xyz T) j) := by
      fin_cases j
      · exact hT 0 (by decide)
      · exact hT 1 (by decide)
      · exact hT 2 (by decide)
    obtain ⟨f, e⟩ := add_rel fRj fTj (ab.trans (by linarith))
    have el : F3.lane D.Center j = Lane.add (F3.lane (xyz R) j) (F3.lane (xyz T) j) := by fin_cases j <;> rfl
    rw [ptOf_lane, el]
    refine ⟨f, ?_⟩
    have hu' : ulp2 = 1/2^24 := by unfold ulp2; norm_num
    rw [hu'] at e
    have e' := abs_le.1 (e.trans (mul_le_mul_of_nonneg_left ab (by positivity)))
    rw [← Loc.axis_lane, show val (F3.lane (xyz T) j) = t j from (ptOf_lane _ _).symm] at e'
    show |_ - (rot u (k • a) j + t j)| ≤ _
    exact abs_le.2 ⟨by linarith, by linarith⟩
  have cl : len (ptOf D.Center - img a) ≤ 2 * (19/10^6 * (W * k) + 1/2^22 * B + 1/10^34) := BoxSph.len_small (by positivity) (fun j => (cen j).2)
  -- the radius
  obtain ⟨fr, er⟩ := (mulL h.2 fs (by norm_num)).2.2 (by
    show |r * k| + tiny ≤ _; rw [abs_of_nonneg rk0]; linarith)
  have er' : |value D.Radius.bits - r * k| ≤ 2/2^24 * (r * k + tiny) := by
    change |value D.Radius.bits - r * k| ≤ gam 1 * (|r * k| + tiny) at er
    rw [abs_of_nonneg rk0] at er
    exact er.trans (mul_le_mul_of_nonneg_right g1 (by positivity))
  have q := abs_le.1 er'
  have dist : ∀ p, len (img p - img a) = k * len (p - a) := fun p => by
    show len (rot u (k • p) + t - (rot u (k • a) + t)) = _
    rw [add_sub_add_right_eq_sub, ← rot_sub hu, rot_len hu, ← smul_sub, len_smul, abs_of_pos s0]
  refine ⟨⟨⟨(cen 0).1, (cen 1).1, (cen 2).1⟩, fr⟩, fun p hp => ?_, fun p hp => ?_⟩
  · rw [mem_ball] at *
    have tr := len_sub_le (img p) (img a) (ptOf D.Center)
    rw [dist, len_sub_comm (img a)] at tr
    have := mul_le_mul_of_nonneg_left hp s0.le
    show _ ≤ _ + (40/10^6 * (W * k) + B / 2^20 + 1/10^30)
    linarith
  · rw [mem_ball] at *
    have tr := len_sub_le (img p) (ptOf D.Center) (img a)
    rw [dist] at tr
    change _ ≤ _ - (40/10^6 * (W * k) + B / 2^20 + 1/10^30) at hp
    have : k * len (p - a) ≤ k * r := by linarith
    exact le_of_mul_le_mul_left this s0

/-! The hypotheses are met: the sphere of radius 1/2 about the origin scaled by 2, not turned, and moved by nothing holds the images of its points, in every build. -/
open Loc in
example (c : Cfg) : let D := BoundingSphere.TransformDecomposed c (⟨o3, fl 0x3F000000#32⟩ : BoundingSphere (F32 P)) (fl 0x40000000#32) ⟨fl 0#32, fl 0#32, fl 0#32, fl 0x3F800000#32⟩ ⟨fl 0#32, fl 0#32, fl 0#32, fl 0#32⟩
    FinSphere D ∧ ∀ p : Pt, len p ≤ 1/2 → (2:ℝ) • p ∈ ball (ptOf D.Center) (value D.Radius.bits + 1/10^4) := by
  intro D
  have z : IsFinite 0#32 := by decide
  have rh : value (fl 0x3F000000#32 : F32 P).bits = 1/2 := vh
  have r2 : value (fl 0x40000000#32 : F32 P).bits = 2 := v2
  have eT : ptOf (xyz (⟨fl 0#32, fl 0#32, fl 0#32, fl 0#32⟩ : V4 (F32 P))) = 0 := po3
  obtain ⟨k1, k2, -⟩ := C143_sphereDecomposed c (⟨o3, fl 0x3F000000#32⟩ : BoundingSphere (F32 P)) (fl 0x40000000#32) ⟨fl 0#32, fl 0#32, fl 0#32, fl 0x3F800000#32⟩ ⟨fl 0#32, fl 0#32, fl 0#32, fl 0#32⟩ 1
    ⟨fo3, (by decide : IsFinite 0x3F000000#32)⟩ (by rw [rh]; norm_num) (by decide : IsFinite 0x40000000#32) (by rw [r2]; norm_num) fidq (fun k _ => by
      fin_cases k
      exacts [z, z, z, z]) (by simp) idq (1/2) 0
    (fun i => by show |ptOf o3 i| ≤ _; rw [po3]; simp) (by rw [rh]) (by norm_num) (by rw [r2]; norm_num) (fun i => by rw [eT]; simp) (by norm_num)
  have cc : ptOf (⟨o3, fl 0x3F000000#32⟩ : BoundingSphere (F32 P)).Center = 0 := po3
  refine ⟨k1, fun p hp => ?_⟩
  have := k2 p (by rw [mem_ball, cc, sub_zero, rh]; exact hp)
  simp only [eT, r2, rot_one, add_zero, mem_ball] at this ⊢
  exact this.trans (add_le_add le_rfl (by norm_num))
end DXM.Props
