import Verif.Lemmas.Geo3
import Verif.Lemmas.PolySat
import Verif.Props.CollisionFrustum
import Mathlib.Topology.Order.IntermediateValue
import Mathlib.Topology.Algebra.Order.LiminfLimsup

/-
Nearest points: segments, triangles, convex bodies.
-/

set_option linter.all false

namespace DXM.RG
open DXM.Spec DXM.E Matrix

/-- The closed segment. -/
def seg (a b : Pt) : Set Pt := {p | ∃ t : ℝ, 0 ≤ t ∧ t ≤ 1 ∧ p = a + t • (b - a)}

theorem dot_self_nonneg (v : Pt) : 0 ≤ v ⬝ᵥ v := by
  simp only [dotProduct, Fin.sum_univ_three]; nlinarith [mul_self_nonneg (v 0), mul_self_nonneg (v 1), mul_self_nonneg (v 2)]
theorem len_le_len {v w : Pt} : len v ≤ len w ↔ v ⬝ᵥ v ≤ w ⬝ᵥ w := by
  rw [len, len, Real.sqrt_le_sqrt_iff (dot_self_nonneg w)]

/-- The nearest point of a segment. -/
theorem seg_near (a b p : Pt) (h : a ≠ b) :
    let D := b - a
    let j := (p - a) ⬝ᵥ D
    let x := if D ⬝ᵥ D < j then b else if j < 0 then a else (j * (D ⬝ᵥ D)⁻¹) • D + a
    x ∈ seg a b ∧ ∀ y ∈ seg a b, len (p - x) ≤ len (p - y) := by
  intro D j x
  have hL : 0 < D ⬝ᵥ D := RG.dot_self_pos (sub_ne_zero.2 h.symm)
  have key : ∀ s : ℝ, (p - (a + s • D)) ⬝ᵥ (p - (a + s • D)) = (p - a) ⬝ᵥ (p - a) - 2 * s * j + s * s * (D ⬝ᵥ D) := by
    intro s
    have : p - (a + s • D) = (p - a) - s • D := by abel
    rw [this]
    simp only [sub_dotProduct, dotProduct_sub, smul_dotProduct, dotProduct_smul, smul_eq_mul, j]
    rw [dotProduct_comm D p, dotProduct_comm D a]; ring
  have main : ∀ t : ℝ, 0 ≤ t → t ≤ 1 → x = a + t • D → (∀ s, 0 ≤ s → s ≤ 1 → -2 * t * j + t * t * (D ⬝ᵥ D) ≤ -2 * s * j + s * s * (D ⬝ᵥ D)) →
      x ∈ seg a b ∧ ∀ y ∈ seg a b, len (p - x) ≤ len (p - y) := by
    intro t h0 h1 hx hs
    refine ⟨⟨t, h0, h1, hx⟩, ?_⟩
    rintro y ⟨s, s0, s1, rfl⟩
    rw [len_le_len, hx, key t]
    change _ ≤ (p - (a + s • D)) ⬝ᵥ (p - (a + s • D))
    rw [key s]
    have := hs s s0 s1
    linarith
  by_cases h1 : D ⬝ᵥ D < j
  · refine main 1 (by norm_num) le_rfl (by simp only [x, if_pos h1]; simp [D]) fun s s0 s1 => ?_
    nlinarith [mul_nonneg (sub_nonneg.2 s1) (sub_nonneg.2 h1.le), mul_nonneg (sub_nonneg.2 s1) hL.le, mul_nonneg (mul_nonneg (sub_nonneg.2 s1) (sub_nonneg.2 s1)) hL.le]
  · by_cases h2 : j < 0
    · refine main 0 le_rfl (by norm_num) (by simp [x, h1, h2]) fun s s0 s1 => ?_
      nlinarith [mul_nonneg s0 (neg_nonneg.2 h2.le), mul_nonneg (mul_nonneg s0 s0) hL.le]
    · have e : j = (j * (D ⬝ᵥ D)⁻¹) * (D ⬝ᵥ D) := by field_simp
      refine main (j * (D ⬝ᵥ D)⁻¹) (mul_nonneg (not_lt.1 h2) (inv_nonneg.2 hL.le)) ?_ (by simp [x, h1, h2, add_comm]) fun s s0 s1 => ?_
      · rw [← div_eq_mul_inv, div_le_one hL]; exact not_lt.1 h1
      · set t := j * (D ⬝ᵥ D)⁻¹
        rw [e]
        nlinarith [mul_nonneg (mul_self_nonneg (s - t)) hL.le]


/-- A direction that leaves no active half-space does not lead towards `C` from the nearest point. -/
theorem tangent {L : List (Pt × ℝ)} {p d v : Pt} (hp : ∀ P ∈ L, P.1 ⬝ᵥ p ≤ P.2) (hd : ∀ u : Pt, (∀ P ∈ L, P.1 ⬝ᵥ u ≤ P.2) → d ⬝ᵥ (u - p) ≤ 0)
    (hv : ∀ P ∈ L, P.1 ⬝ᵥ p = P.2 → P.1 ⬝ᵥ v ≤ 0) : d ⬝ᵥ v ≤ 0 := by
  have key : ∃ ε : ℝ, 0 < ε ∧ ∀ P ∈ L, ∀ s, 0 ≤ s → s ≤ ε → P.1 ⬝ᵥ (p + s • v) ≤ P.2 := by
    clear hd
    induction L with
    | nil => exact ⟨1, one_pos, by simp⟩
    | cons Q L ih =>
      obtain ⟨ε, h0, h1⟩ := ih (fun P hP => hp P (List.mem_cons_of_mem _ hP)) (fun P hP => hv P (List.mem_cons_of_mem _ hP))
      have hQ := hp Q List.mem_cons_self
      have hQv := hv Q List.mem_cons_self
      obtain ⟨δ, d0, d1⟩ : ∃ δ : ℝ, 0 < δ ∧ ∀ s, 0 ≤ s → s ≤ δ → Q.1 ⬝ᵥ (p + s • v) ≤ Q.2 := by
        simp only [dotProduct_add, dotProduct_smul, smul_eq_mul]
        by_cases hk : Q.1 ⬝ᵥ v ≤ 0
        · exact ⟨1, one_pos, fun s s0 _ => by nlinarith [mul_nonneg s0 (neg_nonneg.2 hk)]⟩
        · have hlt : Q.1 ⬝ᵥ p < Q.2 := lt_of_le_of_ne hQ fun e => hk (hQv e)
          push Not at hk
          refine ⟨(Q.2 - Q.1 ⬝ᵥ p) / (Q.1 ⬝ᵥ v), div_pos (by linarith) hk, fun s _ hs => ?_⟩
          rw [le_div_iff₀ hk] at hs
          linarith
      refine ⟨min ε δ, lt_min h0 d0, ?_⟩
      intro P hP s s0 s1
      rcases List.mem_cons.1 hP with rfl | hP
      · exact d1 s s0 (s1.trans (min_le_right _ _))
      · exact h1 P hP s s0 (s1.trans (min_le_left _ _))
  obtain ⟨ε, h0, h1⟩ := key
  have := hd (p + ε • v) fun P hP => h1 P hP ε h0.le le_rfl
  rw [add_sub_cancel_left, dotProduct_smul, smul_eq_mul] at this
  by_contra hk
  push Not at hk
  nlinarith [mul_pos h0 hk]
/-- With a single active face the offset is a positive multiple of its normal. -/
theorem one_active {L : List (Pt × ℝ)} {p d : Pt} {Q : Pt × ℝ} (hp : ∀ P ∈ L, P.1 ⬝ᵥ p ≤ P.2)
    (hd : ∀ u : Pt, (∀ P ∈ L, P.1 ⬝ᵥ u ≤ P.2) → d ⬝ᵥ (u - p) ≤ 0) (hQ : Q.1 ≠ 0) (h1 : ∀ P ∈ L, P.1 ⬝ᵥ p = P.2 → P = Q) (hd0 : d ≠ 0) :
    ∃ k : ℝ, 0 < k ∧ d = k • Q.1 := by
  have hN := RG.dot_self_pos hQ
  set k := (d ⬝ᵥ Q.1) / (Q.1 ⬝ᵥ Q.1)
  have hk : d ⬝ᵥ Q.1 = k * (Q.1 ⬝ᵥ Q.1) := by simp only [k]; field_simp
  have hv : Q.1 ⬝ᵥ (d - k • Q.1) = 0 := by
    rw [dotProduct_sub, dotProduct_smul, smul_eq_mul, dotProduct_comm, hk]; ring
  have h2 := tangent (v := d - k • Q.1) hp hd fun P hP e => by rw [h1 P hP e, hv]
  have e : (d - k • Q.1) ⬝ᵥ (d - k • Q.1) = d ⬝ᵥ (d - k • Q.1) := by
    conv_lhs => rw [sub_dotProduct, smul_dotProduct, hv]
    simp
  have e0 : d - k • Q.1 = 0 := by
    by_contra h
    have := RG.dot_self_pos h
    linarith
  have e1 : d = k • Q.1 := sub_eq_zero.1 e0
  refine ⟨k, ?_, e1⟩
  have h3 := tangent (v := -Q.1) hp hd fun P hP e => by rw [h1 P hP e, dotProduct_neg]; linarith
  rw [dotProduct_neg, hk] at h3
  rcases lt_trichotomy k 0 with h | h | h
  · nlinarith [mul_pos (neg_pos.2 h) hN]
  · rw [h, zero_smul] at e1; exact absurd e1 hd0
  · exact h
/-- The nearest point of a compact convex set. -/
theorem nearest {S : Set Pt} (cS : Convex ℝ S) (kS : IsCompact S) (nS : S.Nonempty) (C : Pt) :
    ∃ p ∈ S, (∀ y ∈ S, len (C - p) ≤ len (C - y)) ∧ ∀ u ∈ S, (C - p) ⬝ᵥ (u - p) ≤ 0 := by
  have hc : Continuous fun y : Pt => (C - y) ⬝ᵥ (C - y) := by
    simp only [dotProduct, Fin.sum_univ_three, Pi.sub_apply]; fun_prop
  obtain ⟨p, hp, hm⟩ := kS.exists_isMinOn nS hc.continuousOn
  have hm' : ∀ y ∈ S, (C - p) ⬝ᵥ (C - p) ≤ (C - y) ⬝ᵥ (C - y) := fun y hy => hm hy
  refine ⟨p, hp, fun y hy => len_le_len.2 (hm' y hy), fun u hu => ?_⟩
  by_contra hk
  push Not at hk
  set d := C - p
  set j := d ⬝ᵥ (u - p)
  have key : ∀ s : ℝ, 0 ≤ s → s ≤ 1 → 2 * s * j ≤ s * s * ((u - p) ⬝ᵥ (u - p)) := by
    intro s s0 s1
    have hy : p + s • (u - p) ∈ S := by
      have := cS hp hu (sub_nonneg.2 s1) s0 (by ring)
      convert this using 1
      rw [sub_smul, smul_sub, one_smul]; abel
    have := hm' _ hy
    have e : C - (p + s • (u - p)) = d - s • (u - p) := by simp only [d]; abel
    have e2 : ∀ x y : Pt, (x - s • y) ⬝ᵥ (x - s • y) = x ⬝ᵥ x - 2 * s * (x ⬝ᵥ y) + s * s * (y ⬝ᵥ y) := by
      intro x y; simp only [dotProduct, Fin.sum_univ_three, Pi.sub_apply, Pi.smul_apply, smul_eq_mul]; ring
    rw [e, e2] at this
    linarith
  set L := (u - p) ⬝ᵥ (u - p)
  have hL : 0 ≤ L := dot_self_nonneg _
  have h1 := key (min 1 (j / (L + 1))) (le_min zero_le_one (by positivity)) (min_le_left _ _)
  have h2 : 0 < min 1 (j / (L + 1)) := lt_min one_pos (by positivity)
  have h3 : min 1 (j / (L + 1)) ≤ j / (L + 1) := min_le_right _ _
  rw [le_div_iff₀ (by linarith)] at h3
  nlinarith [mul_pos h2 h2, mul_pos h2 hk, mul_le_mul_of_nonneg_left h3 h2.le]

end DXM.RG

namespace DXM.Geo
open DXM.E DXM.Spec DXM.RG Matrix Classical

/-- `PointOnLineSegmentNearestPoint`: the nearest point of the segment. -/
theorem v_seg (c : Cfg) (a b p : Pt) (w w' w'' : E) (h : a ≠ b) :
    ∃ (x : Pt) (W : E), PointOnLineSegmentNearestPoint c (vec3 a w) (vec3 b w') (vec3 p w'') = vec3 x W ∧ x ∈ seg a b ∧
      ∀ y ∈ seg a b, len (p - x) ≤ len (p - y) := by
  have hL : (b - a) ⬝ᵥ (b - a) ≠ 0 := (RG.dot_self_pos (sub_ne_zero.2 h.symm)).ne'
  have := seg_near a b p h
  dsimp only at this
  have e : ∃ W, PointOnLineSegmentNearestPoint c (vec3 a w) (vec3 b w') (vec3 p w'') = vec3 (if (b - a) ⬝ᵥ (b - a) < (p - a) ⬝ᵥ (b - a) then b
      else if (p - a) ⬝ᵥ (b - a) < 0 then a else ((p - a) ⬝ᵥ (b - a) * ((b - a) ⬝ᵥ (b - a))⁻¹) • (b - a) + a) W := by
    unfold PointOnLineSegmentNearestPoint
    geo
    rw [s_recip _ hL]
    geo
    simp only [← sub_dotProduct]
    by_cases h1 : (b - a) ⬝ᵥ (b - a) < (p - a) ⬝ᵥ (b - a)
    · rw [if_pos h1, if_pos h1]; exact ⟨_, rfl⟩
    · rw [if_neg h1, if_neg h1]
      by_cases h2 : (p - a) ⬝ᵥ (b - a) < 0
      · rw [if_pos h2, if_pos h2]; exact ⟨_, rfl⟩
      · rw [if_neg h2, if_neg h2]; exact ⟨_, rfl⟩
  obtain ⟨W, e⟩ := e
  exact ⟨_, W, e, this⟩
/-- The distance test against a segment. -/
theorem v_segTest (c : Cfg) (a b p : Pt) (w w' w'' : E) (h : a ≠ b) (R : ℝ) (hR : 0 ≤ R) :
    XMVectorLessOrEqual (XMVector3Dot c (XMVectorSubtract (vec3 p w'') (PointOnLineSegmentNearestPoint c (vec3 a w) (vec3 b w') (vec3 p w'')))
      (XMVectorSubtract (vec3 p w'') (PointOnLineSegmentNearestPoint c (vec3 a w) (vec3 b w') (vec3 p w'')))) (all (R * R)) =
      msk (∃ y ∈ seg a b, y ∈ ball p R) := by
  obtain ⟨x, W, e, hx, hm⟩ := v_seg c a b p w w' w'' h
  rw [e]
  geo
  congr 1
  refine propext ?_
  rw [← len_le_iff hR]
  constructor
  · intro k; exact ⟨x, hx, by rwa [mem_ball, len_sub_comm]⟩
  · rintro ⟨y, hy, k⟩
    rw [mem_ball, len_sub_comm] at k
    exact (hm y hy).trans k
theorem v_normalize (c : Cfg) (v : Pt) (h : v ≠ 0) : XMVector3Normalize c (vec3 v (num 0)) = vec3 ((len v)⁻¹ • v) (num 0) := by
  have h0 : 0 < v 0 * v 0 + v 1 * v 1 + v 2 * v 2 := by
    have := RG.dot_self_pos h; simpa [dotProduct, Fin.sum_univ_three] using this
  have hs := (Real.sqrt_pos.2 h0).ne'
  have e : len v = √(v 0 * v 0 + v 1 * v 1 + v 2 * v 2) := by rw [len]; simp [dotProduct, Fin.sum_univ_three]
  simp only [vec3, XMVector3Normalize_num c _ _ _ _ h0, nrmLane, Pi.smul_apply, smul_eq_mul, e]
  congr 1
  · rw [div_eq_inv_mul]
  · rw [div_eq_inv_mul]
  · rw [div_eq_inv_mul]
  · split_ifs
    · rw [div_num _ _ hs, zero_div]
    · rw [mul_num, zero_mul]
end DXM.Geo
