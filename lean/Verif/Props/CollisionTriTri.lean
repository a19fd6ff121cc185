import Verif.Props.CollisionRay
import Verif.Lemmas.TriTri

/-
C89: triangle against triangle.
-/

set_option linter.all false

namespace DXM.Props
open DXM.E DXM.Spec DXM.RG DXM.Geo Matrix Classical

/-- Lane results with the w lane as the x lane, as the plane distances are laid out. -/
noncomputable def mk (p : Fin 3 → Prop) : V4 E := msk3 p (dm (p 0))
/-- Real lanes with the w lane as the x lane. -/
noncomputable def vx (a : Pt) : V4 E := vec3 a (num (a 0))

theorem planeDists_eval (c : Cfg) (n o p0 p1 p2 : Pt) (wn wo w0 w1 w2 : E) :
    TriangleTests.planeDists c (vec3 n wn) (vec3 o wo) (vec3 p0 w0) (vec3 p1 w1) (vec3 p2 w2) = vx ![n ⬝ᵥ (p0 - o), n ⬝ᵥ (p1 - o), n ⬝ᵥ (p2 - o)] := by
  unfold TriangleTests.planeDists vx
  geo
  rw [selY, selZ _ _ _ (by simp)]
  simp

theorem mk_gtR (c : Cfg) (a b : Pt) : XMVectorGreaterR c (vx a) (vx b) = (if ∀ i, b i < a i then XM_CRMASK_CR6TRUE else if ∀ i, ¬ b i < a i then XM_CRMASK_CR6FALSE else 0, mk (fun i => b i < a i)) := by
  unfold XMVectorGreaterR recordR vx mk
  by_cases hs : c.sse <;> by_cases h0 : b 0 < a 0 <;> by_cases h1 : b 1 < a 1 <;> by_cases h2 : b 2 < a 2 <;>
    simp [hs, h0, h1, h2, msk3, dm_t, dm_f, all3, SSE.movemask]

theorem vx_const (r : ℝ) : all r = vx (fun _ => r) := by simp [vx]
theorem vx_abs (c : Cfg) (a : Pt) : XMVectorAbs c (vx a) = vx (fun i => |a i|) := by
  unfold vx; rw [v_abs]; rfl
theorem vx_sel (a b : Pt) (p : Fin 3 → Prop) : XMVectorSelect (vx a) (vx b) (mk p) = vx (fun i => if p i then b i else a i) := by
  unfold vx mk; rw [sel3]; congr 1; by_cases h : p 0 <;> simp [h]
theorem all_true (p q : Prop) [Decidable p] [Decidable q] : XMComparisonAllTrue (if p then XM_CRMASK_CR6TRUE else if q then XM_CRMASK_CR6FALSE else 0) = true ↔ p := by
  by_cases hp : p <;> by_cases hq : q <;> simp [hp, hq] <;> decide
theorem mk_or (p q : Fin 3 → Prop) : XMVectorOrInt (mk p) (mk q) = mk (fun i => p i ∨ q i) := by
  unfold mk; rw [m3_or, o_mask]
theorem mk_sel0 (c : Cfg) (p q : Fin 3 → Prop) : XMVector3AllTrue c (XMVectorSelect (mk p) (mk q) TriangleTests.Select0111) = true ↔ p 0 ∧ q 1 ∧ q 2 := by
  have : XMVectorSelect (mk p) (mk q) TriangleTests.Select0111 = msk3 ![p 0, q 1, q 2] (dm (q 0)) := by
    unfold mk
    by_cases h0 : p 0 <;> by_cases h1 : p 1 <;> by_cases h2 : p 2 <;> by_cases k0 : q 0 <;> by_cases k1 : q 1 <;> by_cases k2 : q 2 <;>
      simp [XMVectorSelect, TriangleTests.Select0111, msk3, h0, h1, h2, k0, k1, k2, dm_t, dm_f]
  rw [this, m3_all, all3]; rfl
theorem mk_sel1 (c : Cfg) (p q : Fin 3 → Prop) : XMVector3AllTrue c (XMVectorSelect (mk p) (mk q) TriangleTests.Select1011) = true ↔ q 0 ∧ p 1 ∧ q 2 := by
  have : XMVectorSelect (mk p) (mk q) TriangleTests.Select1011 = msk3 ![q 0, p 1, q 2] (dm (q 0)) := by
    unfold mk
    by_cases h0 : p 0 <;> by_cases h1 : p 1 <;> by_cases h2 : p 2 <;> by_cases k0 : q 0 <;> by_cases k1 : q 1 <;> by_cases k2 : q 2 <;>
      simp [XMVectorSelect, TriangleTests.Select1011, msk3, h0, h1, h2, k0, k1, k2, dm_t, dm_f]
  rw [this, m3_all, all3]; rfl
theorem mk_sel2 (c : Cfg) (p q : Fin 3 → Prop) : XMVector3AllTrue c (XMVectorSelect (mk p) (mk q) TriangleTests.Select1101) = true ↔ q 0 ∧ q 1 ∧ p 2 := by
  have : XMVectorSelect (mk p) (mk q) TriangleTests.Select1101 = msk3 ![q 0, q 1, p 2] (dm (q 0)) := by
    unfold mk
    by_cases h0 : p 0 <;> by_cases h1 : p 1 <;> by_cases h2 : p 2 <;> by_cases k0 : q 0 <;> by_cases k1 : q 1 <;> by_cases k2 : q 2 <;>
      simp [XMVectorSelect, TriangleTests.Select1101, msk3, h0, h1, h2, k0, k1, k2, dm_t, dm_f]
  rw [this, m3_all, all3]; rfl

/-- The choice of the lone vertex, on the signs of its distances. -/
theorem singular_eval (c : Cfg) (L G Z : Fin 3 → Prop) (P0 P1 P2 : V4 E) :
    TriangleTests.singular c (mk L) (mk G) (mk Z) P0 P1 P2 =
      if ((G 0 ∨ Z 0) ∧ L 1 ∧ L 2) ∨ (G 0 ∧ (L 1 ∨ Z 1) ∧ (L 2 ∨ Z 2)) then some (P0, P1, P2, true)
      else if ((L 0 ∨ Z 0) ∧ G 1 ∧ G 2) ∨ (L 0 ∧ (G 1 ∨ Z 1) ∧ (G 2 ∨ Z 2)) then some (P0, P2, P1, false)
      else if (L 0 ∧ (G 1 ∨ Z 1) ∧ L 2) ∨ ((L 0 ∨ Z 0) ∧ G 1 ∧ (L 2 ∨ Z 2)) then some (P1, P2, P0, true)
      else if (G 0 ∧ (L 1 ∨ Z 1) ∧ G 2) ∨ ((G 0 ∨ Z 0) ∧ L 1 ∧ (G 2 ∨ Z 2)) then some (P1, P0, P2, false)
      else if (L 0 ∧ L 1 ∧ (G 2 ∨ Z 2)) ∨ ((L 0 ∨ Z 0) ∧ (L 1 ∨ Z 1) ∧ G 2) then some (P2, P0, P1, true)
      else if (G 0 ∧ G 1 ∧ (L 2 ∨ Z 2)) ∨ ((G 0 ∨ Z 0) ∧ (G 1 ∨ Z 1) ∧ L 2) then some (P2, P1, P0, false)
      else none := by
  unfold TriangleTests.singular
  simp only [mk_or, Bool.or_eq_true, mk_sel0, mk_sel1, mk_sel2]

/-- Twice the signed-area vector of a triangle. -/
def triN (a0 a1 a2 : Pt) : Pt := crossProduct (a1 - a0) (a2 - a0)
/-- The heights of the vertices of a second triangle over the plane of a first one, scaled by twice the first one's area. -/
def heights (n o p0 p1 p2 : Pt) : Pt := ![n ⬝ᵥ (p0 - o), n ⬝ᵥ (p1 - o), n ⬝ᵥ (p2 - o)]

theorem triN_swap (a0 a1 a2 : Pt) : triN a0 a2 a1 = -triN a0 a1 a2 := by
  unfold triN; rw [← neg_cross, ← cross_anticomm]
theorem triN_rot (a0 a1 a2 : Pt) : triN a1 a2 a0 = triN a0 a1 a2 := by
  unfold triN; ext i; fin_cases i <;> simp [cross_apply] <;> ring
theorem tri_swap (a0 a1 a2 : Pt) : tri a0 a2 a1 = tri a0 a1 a2 := by
  ext x; constructor <;> rintro ⟨r, s, t, h0, h1, h2, hs, rfl⟩ <;> exact ⟨r, t, s, h0, h2, h1, by linarith, by abel⟩
theorem tri_rot (a0 a1 a2 : Pt) : tri a1 a2 a0 = tri a0 a1 a2 := by
  ext x; constructor
  · rintro ⟨r, s, t, h0, h1, h2, hs, rfl⟩; exact ⟨t, r, s, h2, h0, h1, by linarith, by abel⟩
  · rintro ⟨r, s, t, h0, h1, h2, hs, rfl⟩; exact ⟨s, t, r, h1, h2, h0, by linarith, by abel⟩
/-- Heights over the plane of a triangle do not depend on the vertex they are measured from. -/
theorem triN_base (a0 a1 a2 x : Pt) : triN a0 a1 a2 ⬝ᵥ (x - a1) = triN a0 a1 a2 ⬝ᵥ (x - a0) ∧ triN a0 a1 a2 ⬝ᵥ (x - a2) = triN a0 a1 a2 ⬝ᵥ (x - a0) := by
  unfold triN
  constructor <;> simp [cross_apply, dotProduct, Fin.sum_univ_three] <;> ring

theorem tri_pos (a0 a1 a2 b0 b1 b2 : Pt) (hA0 : 0 < triN b0 b1 b2 ⬝ᵥ (a0 - b0)) (hA1 : triN b0 b1 b2 ⬝ᵥ (a1 - b0) < 0) (hA2 : triN b0 b1 b2 ⬝ᵥ (a2 - b0) < 0)
    (hB0 : 0 < triN a0 a1 a2 ⬝ᵥ (b0 - a0)) (hB1 : triN a0 a1 a2 ⬝ᵥ (b1 - a0) < 0) (hB2 : triN a0 a1 a2 ⬝ᵥ (b2 - a0) < 0) :
    (tri a0 a1 a2 ∩ tri b0 b1 b2).Nonempty ↔
      (a0 - b0) ⬝ᵥ crossProduct (b2 - b0) (a2 - a0) ≤ 0 ∧ (b0 - a0) ⬝ᵥ crossProduct (b1 - b0) (a1 - a0) ≤ 0 := by
  have h := tri_tri_core a0 (a1 - a0) (a2 - a0) b0 (b1 - b0) (b2 - b0) hA0 (by rw [add_sub_cancel]; exact hA1) (by rw [add_sub_cancel]; exact hA2) hB0 (by rw [add_sub_cancel]; exact hB1) (by rw [add_sub_cancel]; exact hB2)
  simp only [add_sub_cancel] at h
  rw [h, ← neg_sub a0 b0, neg_dotProduct, neg_nonpos]

theorem tri_neg (a0 a1 a2 b0 b1 b2 : Pt) (hA0 : triN b0 b1 b2 ⬝ᵥ (a0 - b0) < 0) (hA1 : 0 < triN b0 b1 b2 ⬝ᵥ (a1 - b0)) (hA2 : 0 < triN b0 b1 b2 ⬝ᵥ (a2 - b0))
    (hB0 : triN a0 a1 a2 ⬝ᵥ (b0 - a0) < 0) (hB1 : 0 < triN a0 a1 a2 ⬝ᵥ (b1 - a0)) (hB2 : 0 < triN a0 a1 a2 ⬝ᵥ (b2 - a0)) :
    (tri a0 a1 a2 ∩ tri b0 b1 b2).Nonempty ↔
      (b0 - a0) ⬝ᵥ crossProduct (b2 - b0) (a2 - a0) ≤ 0 ∧ (a0 - b0) ⬝ᵥ crossProduct (b1 - b0) (a1 - a0) ≤ 0 := by
  have h := tri_pos a0 a2 a1 b0 b2 b1 (by rw [triN_swap, neg_dotProduct]; linarith) (by rw [triN_swap, neg_dotProduct]; linarith) (by rw [triN_swap, neg_dotProduct]; linarith)
    (by rw [triN_swap, neg_dotProduct]; linarith) (by rw [triN_swap, neg_dotProduct]; linarith) (by rw [triN_swap, neg_dotProduct]; linarith)
  rw [tri_swap a0, tri_swap b0] at h
  rw [h, and_comm]

/-- With all distances non-zero and both signs present, the lone vertex comes first, and the winding is reversed iff it lies behind. -/
theorem singular_spec (c : Cfg) (p0 p1 p2 : Pt) (w0 w1 w2 : E) (f : Pt → ℝ) (h0 : f p0 ≠ 0) (h1 : f p1 ≠ 0) (h2 : f p2 ≠ 0)
    (hL : ¬ (f p0 < 0 ∧ f p1 < 0 ∧ f p2 < 0)) (hG : ¬ (0 < f p0 ∧ 0 < f p1 ∧ 0 < f p2)) (d : Pt) (hd : d = ![f p0, f p1, f p2]) (Z : Fin 3 → Prop) (hZ : ∀ i, ¬ Z i) :
    ∃ (q0 q1 q2 : Pt) (v0 v1 v2 : E) (b : Bool),
      TriangleTests.singular c (mk fun i => d i < 0) (mk fun i => 0 < d i) (mk Z) (vec3 p0 w0) (vec3 p1 w1) (vec3 p2 w2) =
        some (vec3 q0 v0, vec3 q1 v1, vec3 q2 v2, b) ∧
      tri q0 q1 q2 = tri p0 p1 p2 ∧ (b = true → triN q0 q1 q2 = triN p0 p1 p2) ∧ (b = false → triN q0 q1 q2 = -triN p0 p1 p2) ∧
      (∀ x, triN p0 p1 p2 ⬝ᵥ (x - q0) = triN p0 p1 p2 ⬝ᵥ (x - p0)) ∧
      (b = true → 0 < f q0 ∧ f q1 < 0 ∧ f q2 < 0) ∧ (b = false → f q0 < 0 ∧ 0 < f q1 ∧ 0 < f q2) := by
  have e0 : d 0 = f p0 := by rw [hd]; rfl
  have e1 : d 1 = f p1 := by rw [hd]; rfl
  have e2 : d 2 = f p2 := by rw [hd]; rfl
  have b1 : ∀ x, triN p0 p1 p2 ⬝ᵥ (x - p1) = triN p0 p1 p2 ⬝ᵥ (x - p0) := fun x => (triN_base p0 p1 p2 x).1
  have b2 : ∀ x, triN p0 p1 p2 ⬝ᵥ (x - p2) = triN p0 p1 p2 ⬝ᵥ (x - p0) := fun x => (triN_base p0 p1 p2 x).2
  have r1 : triN p1 p2 p0 = triN p0 p1 p2 := triN_rot _ _ _
  have r2 : triN p2 p0 p1 = triN p0 p1 p2 := by rw [triN_rot, triN_rot]
  have t1 : tri p1 p2 p0 = tri p0 p1 p2 := tri_rot _ _ _
  have t2 : tri p2 p0 p1 = tri p0 p1 p2 := by rw [tri_rot, tri_rot]
  rw [singular_eval]
  simp only [hZ, or_false, e0, e1, e2, or_self]
  rcases lt_or_gt_of_ne h0 with a0 | a0 <;> rcases lt_or_gt_of_ne h1 with a1 | a1 <;> rcases lt_or_gt_of_ne h2 with a2 | a2
  · exact absurd ⟨a0, a1, a2⟩ hL
  · exact ⟨p2, p0, p1, w2, w0, w1, true, by simp [a0, a1, a2, a0.le, a1.le, a2.le, not_lt.2], t2, fun _ => r2, fun h => by simp at h, b2, fun _ => ⟨a2, a0, a1⟩, fun h => by simp at h⟩
  · exact ⟨p1, p2, p0, w1, w2, w0, true, by simp [a0, a1, a2, a0.le, a1.le, a2.le, not_lt.2], t1, fun _ => r1, fun h => by simp at h, b1, fun _ => ⟨a1, a2, a0⟩, fun h => by simp at h⟩
  · exact ⟨p0, p2, p1, w0, w2, w1, false, by simp [a0, a1, a2, a0.le, a1.le, a2.le, not_lt.2], tri_swap _ _ _, fun h => by simp at h, fun _ => triN_swap _ _ _, fun _ => rfl, fun h => by simp at h, fun _ => ⟨a0, a2, a1⟩⟩
  · exact ⟨p0, p1, p2, w0, w1, w2, true, by simp [a0, a1, a2, a0.le, a1.le, a2.le, not_lt.2], rfl, fun _ => rfl, fun h => by simp at h, fun _ => rfl, fun _ => ⟨a0, a1, a2⟩, fun h => by simp at h⟩
  · exact ⟨p1, p0, p2, w1, w0, w2, false, by simp [a0, a1, a2, a0.le, a1.le, a2.le, not_lt.2], (tri_swap _ _ _).trans t1, fun h => by simp at h, fun _ => by rw [triN_swap, r1], b1, fun h => by simp at h, fun _ => ⟨a1, a0, a2⟩⟩
  · exact ⟨p2, p1, p0, w2, w1, w0, false, by simp [a0, a1, a2, a0.le, a1.le, a2.le, not_lt.2], (tri_swap _ _ _).trans t2, fun h => by simp at h, fun _ => by rw [triN_swap, r2], b2, fun h => by simp at h, fun _ => ⟨a2, a1, a0⟩⟩
  · exact absurd ⟨a0, a1, a2⟩ hG

/-- If all vertices of one triangle lie strictly on one side of the plane of the other, they are disjoint. -/
theorem tri_disj (a0 a1 a2 b0 b1 b2 : Pt)
    (h : (∀ i, heights (triN a0 a1 a2) a0 b0 b1 b2 i < 0) ∨ (∀ i, 0 < heights (triN a0 a1 a2) a0 b0 b1 b2 i)) : ¬ (tri a0 a1 a2 ∩ tri b0 b1 b2).Nonempty := by
  rintro ⟨x, hA, s, t, u, hs, ht, hu, hsum, rfl⟩
  have e := plane_tri (a1 - a0) (a2 - a0) (x := s • b0 + t • b1 + u • b2) (p := a0) (by simpa using hA)
  have : s • b0 + t • b1 + u • b2 - a0 = s • (b0 - a0) + t • (b1 - a0) + u • (b2 - a0) := by
    rw [show s = 1 - t - u by linarith]; module
  rw [this, dotProduct_add, dotProduct_add, dotProduct_smul, dotProduct_smul, dotProduct_smul] at e
  simp only [all3, heights, triN, Matrix.cons_val_zero, Matrix.cons_val_one, Matrix.cons_val, smul_eq_mul] at h e
  generalize crossProduct (a1 - a0) (a2 - a0) ⬝ᵥ (b0 - a0) = x at *
  generalize crossProduct (a1 - a0) (a2 - a0) ⬝ᵥ (b1 - a0) = y at *
  generalize crossProduct (a1 - a0) (a2 - a0) ⬝ᵥ (b2 - a0) = z at *
  have hs' : 0 < s ∨ 0 < t ∨ 0 < u := by
    by_contra hc
    push Not at hc
    linarith [hc.1, hc.2.1, hc.2.2]
  rcases h with ⟨h0, h1, h2⟩ | ⟨h0, h1, h2⟩ <;> rcases hs' with h | h | h <;>
    nlinarith [mul_nonneg hs (abs_nonneg x), mul_pos h h]

theorem eps_abs {x : ℝ} (h : rayEps ≤ |x|) : x ≠ 0 := by
  rintro rfl; rw [abs_zero] at h; linarith [rayEps_pos]

/-- Evaluation without hypotheses: `z` marks the vertices of B within the threshold of the plane of A; the same marks clear the heights of A (collision.rs:5274). -/
theorem triTri_gen (c : Cfg) (a0 a1 a2 b0 b1 b2 dA dB dA' dB' : Pt) (z : Fin 3 → Prop) (w0 w1 w2 v0 v1 v2 : E)
    (hdB : dB = heights (triN a0 a1 a2) a0 b0 b1 b2) (hdA : dA = heights (triN b0 b1 b2) b0 a0 a1 a2)
    (hz : ∀ i, |dB i| < rayEps ↔ z i) (hB' : ∀ i, dB' i = if z i then 0 else dB i) (hA' : ∀ i, dA' i = if z i then 0 else dA i) :
    TriangleTests.IntersectsTriangle c (vec3 a0 w0) (vec3 a1 w1) (vec3 a2 w2) (vec3 b0 v0) (vec3 b1 v1) (vec3 b2 v2) =
      if (∀ i, dB' i < 0) ∨ (∀ i, 0 < dB' i) then false else if (∀ i, dA' i < 0) ∨ (∀ i, 0 < dA' i) then false
      else if ∀ i, z i then
        if TriangleTests.edgeOut c (vec3 (triN a0 a1 a2) (num 0)) (vec3 a0 w0) (vec3 a1 w1) (vec3 b0 v0) (vec3 b1 v1) (vec3 b2 v2) then false
        else if TriangleTests.edgeOut c (vec3 (triN a0 a1 a2) (num 0)) (vec3 a1 w1) (vec3 a2 w2) (vec3 b0 v0) (vec3 b1 v1) (vec3 b2 v2) then false
        else if TriangleTests.edgeOut c (vec3 (triN a0 a1 a2) (num 0)) (vec3 a2 w2) (vec3 a0 w0) (vec3 b0 v0) (vec3 b1 v1) (vec3 b2 v2) then false
        else if TriangleTests.edgeOut c (vec3 (triN b0 b1 b2) (num 0)) (vec3 b0 v0) (vec3 b1 v1) (vec3 a0 w0) (vec3 a1 w1) (vec3 a2 w2) then false
        else if TriangleTests.edgeOut c (vec3 (triN b0 b1 b2) (num 0)) (vec3 b1 v1) (vec3 b2 v2) (vec3 a0 w0) (vec3 a1 w1) (vec3 a2 w2) then false
        else if TriangleTests.edgeOut c (vec3 (triN b0 b1 b2) (num 0)) (vec3 b2 v2) (vec3 b0 v0) (vec3 a0 w0) (vec3 a1 w1) (vec3 a2 w2) then false
        else true
      else match TriangleTests.singular c (mk fun i => dA' i < 0) (mk fun i => 0 < dA' i) (mk z) (vec3 a0 w0) (vec3 a1 w1) (vec3 a2 w2) with
        | none => false
        | some (AA0, AA1, AA2, bPositiveA) =>
          match TriangleTests.singular c (mk fun i => dB' i < 0) (mk fun i => 0 < dB' i) (mk z) (vec3 b0 v0) (vec3 b1 v1) (vec3 b2 v2) with
          | none => false
          | some (BB0, BB1, BB2, bPositiveB) =>
            let Delta0 := if bPositiveA ^^ bPositiveB then XMVectorSubtract BB0 AA0 else XMVectorSubtract AA0 BB0
            let Delta1 := if bPositiveA ^^ bPositiveB then XMVectorSubtract AA0 BB0 else XMVectorSubtract BB0 AA0
            let Dist0 := XMVector3Dot c Delta0 (XMVector3Cross c (XMVectorSubtract BB2 BB0) (XMVectorSubtract AA2 AA0))
            if XMVector4Greater c Dist0 (all 0) then false else
            let Dist1 := XMVector3Dot c Delta1 (XMVector3Cross c (XMVectorSubtract BB1 BB0) (XMVectorSubtract AA1 AA0))
            if XMVector4Greater c Dist1 (all 0) then false else true := by
  unfold TriangleTests.IntersectsTriangle
  simp only [v_sub, v_cross, planeDists_eval, v_rayEps, v_zero]
  have E1 : (![crossProduct (a1 - a0) (a2 - a0) ⬝ᵥ (b0 - a0), crossProduct (a1 - a0) (a2 - a0) ⬝ᵥ (b1 - a0), crossProduct (a1 - a0) (a2 - a0) ⬝ᵥ (b2 - a0)] : Pt) = dB := by rw [hdB]; rfl
  have E2 : (![crossProduct (b1 - b0) (b2 - b0) ⬝ᵥ (a0 - b0), crossProduct (b1 - b0) (b2 - b0) ⬝ᵥ (a1 - b0), crossProduct (b1 - b0) (b2 - b0) ⬝ᵥ (a2 - b0)] : Pt) = dA := by rw [hdA]; rfl
  have E3 : crossProduct (a1 - a0) (a2 - a0) = triN a0 a1 a2 := rfl
  have E4 : crossProduct (b1 - b0) (b2 - b0) = triN b0 b1 b2 := rfl
  rw [E1, E2, E3, E4]
  have k0 : (all 0 : V4 E) = vx (fun _ => 0) := vx_const 0
  have ke : (all rayEps : V4 E) = vx (fun _ => rayEps) := vx_const rayEps
  have s1 : XMVectorSelect (vx dB) (all 0) (mk z) = vx dB' := by
    rw [k0, vx_sel]; congr 1; funext i; exact (hB' i).symm
  have s2 : XMVectorSelect (vx dA) (all 0) (mk z) = vx dA' := by
    rw [k0, vx_sel]; congr 1; funext i; exact (hA' i).symm
  have r1 : XMVectorGreaterR c (all rayEps) (XMVectorAbs c (vx dB)) = (if ∀ i, z i then XM_CRMASK_CR6TRUE else if ∀ i, ¬ z i then XM_CRMASK_CR6FALSE else 0, mk z) := by
    rw [ke, vx_abs, mk_gtR]
    simp only [hz]
  have hz' : ∀ i, |dB' i| < rayEps ↔ z i := by
    intro i
    rw [hB']
    by_cases h : z i
    · simp [h, rayEps_pos]
    · rw [if_neg h]; exact hz i
  have r1' : XMVectorGreaterR c (all rayEps) (XMVectorAbs c (vx dB')) = (if ∀ i, z i then XM_CRMASK_CR6TRUE else if ∀ i, ¬ z i then XM_CRMASK_CR6FALSE else 0, mk z) := by
    rw [ke, vx_abs, mk_gtR]
    simp only [hz']
  have r2 : ∀ d : Pt, XMVectorGreaterR c (all 0) (vx d) = (if ∀ i, d i < 0 then XM_CRMASK_CR6TRUE else if ∀ i, ¬ d i < 0 then XM_CRMASK_CR6FALSE else 0, mk (fun i => d i < 0)) := by
    intro d; rw [k0, mk_gtR]
  have r3 : ∀ d : Pt, XMVectorGreaterR c (vx d) (all 0) = (if ∀ i, 0 < d i then XM_CRMASK_CR6TRUE else if ∀ i, ¬ 0 < d i then XM_CRMASK_CR6FALSE else 0, mk (fun i => 0 < d i)) := by
    intro d; rw [k0, mk_gtR]
  simp only [r1, s1, r1', s2, r2, r3, Bool.or_eq_true, all_true, or_self]
  refine if_congr Iff.rfl rfl (if_congr Iff.rfl rfl (if_congr Iff.rfl rfl ?_))
  generalize TriangleTests.singular c (mk fun i => dA' i < 0) (mk fun i => 0 < dA' i) (mk z) (vec3 a0 w0) (vec3 a1 w1) (vec3 a2 w2) = X
  generalize TriangleTests.singular c (mk fun i => dB' i < 0) (mk fun i => 0 < dB' i) (mk z) (vec3 b0 v0) (vec3 b1 v1) (vec3 b2 v2) = Y
  rcases X with _ | ⟨x0, x1, x2, bx⟩
  · rfl
  rcases Y with _ | ⟨y0, y1, y2, b'⟩
  · rfl
  rfl

/-- Evaluation when no vertex of the second triangle is within the threshold of the plane of the first. -/
theorem triTri_eval (c : Cfg) (a0 a1 a2 b0 b1 b2 : Pt) (w0 w1 w2 v0 v1 v2 : E)
    (hB : ∀ i, rayEps ≤ |heights (triN a0 a1 a2) a0 b0 b1 b2 i|) :
    TriangleTests.IntersectsTriangle c (vec3 a0 w0) (vec3 a1 w1) (vec3 a2 w2) (vec3 b0 v0) (vec3 b1 v1) (vec3 b2 v2) =
      if (∀ i, heights (triN a0 a1 a2) a0 b0 b1 b2 i < 0) ∨ (∀ i, 0 < heights (triN a0 a1 a2) a0 b0 b1 b2 i) ∨
        (∀ i, heights (triN b0 b1 b2) b0 a0 a1 a2 i < 0) ∨ (∀ i, 0 < heights (triN b0 b1 b2) b0 a0 a1 a2 i) then false
      else match TriangleTests.singular c (mk fun i => heights (triN b0 b1 b2) b0 a0 a1 a2 i < 0) (mk fun i => 0 < heights (triN b0 b1 b2) b0 a0 a1 a2 i)
          (mk fun i => False) (vec3 a0 w0) (vec3 a1 w1) (vec3 a2 w2) with
        | none => false
        | some (AA0, AA1, AA2, bPositiveA) =>
          match TriangleTests.singular c (mk fun i => heights (triN a0 a1 a2) a0 b0 b1 b2 i < 0) (mk fun i => 0 < heights (triN a0 a1 a2) a0 b0 b1 b2 i)
            (mk fun i => False) (vec3 b0 v0) (vec3 b1 v1) (vec3 b2 v2) with
          | none => false
          | some (BB0, BB1, BB2, bPositiveB) =>
            let Delta0 := if bPositiveA ^^ bPositiveB then XMVectorSubtract BB0 AA0 else XMVectorSubtract AA0 BB0
            let Delta1 := if bPositiveA ^^ bPositiveB then XMVectorSubtract AA0 BB0 else XMVectorSubtract BB0 AA0
            let Dist0 := XMVector3Dot c Delta0 (XMVector3Cross c (XMVectorSubtract BB2 BB0) (XMVectorSubtract AA2 AA0))
            if XMVector4Greater c Dist0 (all 0) then false else
            let Dist1 := XMVector3Dot c Delta1 (XMVector3Cross c (XMVectorSubtract BB1 BB0) (XMVectorSubtract AA1 AA0))
            if XMVector4Greater c Dist1 (all 0) then false else true := by
  have hz : ∀ i, ¬ |heights (triN a0 a1 a2) a0 b0 b1 b2 i| < rayEps := fun i => not_lt.2 (hB i)
  rw [triTri_gen c a0 a1 a2 b0 b1 b2 _ _ (heights (triN b0 b1 b2) b0 a0 a1 a2) (heights (triN a0 a1 a2) a0 b0 b1 b2) (fun _ => False) _ _ _ _ _ _ rfl rfl
    (fun i => iff_false_intro (hz i)) (fun i => by simp) (fun i => by simp)]
  generalize heights (triN a0 a1 a2) a0 b0 b1 b2 = dB at *
  generalize heights (triN b0 b1 b2) b0 a0 a1 a2 = dA at *
  by_cases h1 : (∀ i, dB i < 0) ∨ ∀ i, 0 < dB i
  · rw [if_pos h1, if_pos (by tauto)]
  · rw [if_neg h1]
    by_cases h2 : (∀ i, dA i < 0) ∨ ∀ i, 0 < dA i
    · rw [if_pos h2, if_pos (by tauto)]
    · rw [if_neg h2, if_neg (by simp), if_neg (by tauto)]

/-- Triangles in general position: no vertex of either lies in the plane of the other, those of the second by at least the threshold 1e-20
(heights are scaled by twice the area).  Then the answer is exact. -/
theorem C89_triangles_partial (c : Cfg) (a0 a1 a2 b0 b1 b2 : Pt) (w0 w1 w2 v0 v1 v2 : E)
    (hB : ∀ i, rayEps ≤ |heights (triN a0 a1 a2) a0 b0 b1 b2 i|) (hA : ∀ i, heights (triN b0 b1 b2) b0 a0 a1 a2 i ≠ 0) :
    TriangleTests.IntersectsTriangle c (vec3 a0 w0) (vec3 a1 w1) (vec3 a2 w2) (vec3 b0 v0) (vec3 b1 v1) (vec3 b2 v2) = true ↔
      (tri a0 a1 a2 ∩ tri b0 b1 b2).Nonempty := by
  rw [triTri_eval c _ _ _ _ _ _ _ _ _ _ _ _ hB]
  have hB' : ∀ i, heights (triN a0 a1 a2) a0 b0 b1 b2 i ≠ 0 := fun i => eps_abs (hB i)
  by_cases h : (∀ i, heights (triN a0 a1 a2) a0 b0 b1 b2 i < 0) ∨ (∀ i, 0 < heights (triN a0 a1 a2) a0 b0 b1 b2 i) ∨
        (∀ i, heights (triN b0 b1 b2) b0 a0 a1 a2 i < 0) ∨ (∀ i, 0 < heights (triN b0 b1 b2) b0 a0 a1 a2 i)
  · rw [if_pos h]
    simp only [Bool.false_eq_true, false_iff]
    rcases h with h | h | h | h
    · exact tri_disj _ _ _ _ _ _ (Or.inl h)
    · exact tri_disj _ _ _ _ _ _ (Or.inr h)
    · rw [Set.inter_comm]; exact tri_disj _ _ _ _ _ _ (Or.inl h)
    · rw [Set.inter_comm]; exact tri_disj _ _ _ _ _ _ (Or.inr h)
  · rw [if_neg h]
    simp only [not_or] at h
    obtain ⟨n1, n2, n3, n4⟩ := h
    rw [all3] at n1 n2 n3 n4 hA hB'
    obtain ⟨q0, q1, q2, x0, x1, x2, bA, hsA, tA, NA, NA', baseA, posA, negA⟩ := singular_spec c a0 a1 a2 w0 w1 w2 (fun x => triN b0 b1 b2 ⬝ᵥ (x - b0)) hA.1 hA.2.1 hA.2.2 n3 n4
      (heights (triN b0 b1 b2) b0 a0 a1 a2) rfl (fun _ => False) (fun _ => not_false)
    obtain ⟨p0, p1, p2, y0, y1, y2, bB, hsB, tB, NB, NB', baseB, posB, negB⟩ := singular_spec c b0 b1 b2 v0 v1 v2 (fun x => triN a0 a1 a2 ⬝ᵥ (x - a0)) hB'.1 hB'.2.1 hB'.2.2 n1 n2
      (heights (triN a0 a1 a2) a0 b0 b1 b2) rfl (fun _ => False) (fun _ => not_false)
    rw [hsA, hsB, ← tA, ← tB]
    dsimp only
    cases bA <;> cases bB
    · have NA := NA' rfl
      have NB := NB' rfl
      have hA := negA rfl
      have hB := negB rfl
      rw [tri_pos q0 q1 q2 p0 p1 p2 (by rw [NB, neg_dotProduct, baseB]; linarith [hA.1]) (by rw [NB, neg_dotProduct, baseB]; linarith [hA.2.1])
        (by rw [NB, neg_dotProduct, baseB]; linarith [hA.2.2]) (by rw [NA, neg_dotProduct, baseA]; linarith [hB.1]) (by rw [NA, neg_dotProduct, baseA]; linarith [hB.2.1])
        (by rw [NA, neg_dotProduct, baseA]; linarith [hB.2.2])]
      simp only [Bool.xor_self, Bool.false_eq_true, if_false, v_sub, v_cross, v_dot, p_gt4]
      rw [← not_lt, ← not_lt]
      by_cases g1 : 0 < (q0 - p0) ⬝ᵥ crossProduct (p2 - p0) (q2 - q0) <;> by_cases g2 : 0 < (p0 - q0) ⬝ᵥ crossProduct (p1 - p0) (q1 - q0) <;> simp only [g1, g2, if_true, if_false] <;> simp
    · have NA := NA' rfl
      have NB := NB rfl
      have hA := negA rfl
      have hB := posB rfl
      rw [tri_neg q0 q1 q2 p0 p1 p2 (by rw [NB, baseB]; linarith [hA.1]) (by rw [NB, baseB]; linarith [hA.2.1])
        (by rw [NB, baseB]; linarith [hA.2.2]) (by rw [NA, neg_dotProduct, baseA]; linarith [hB.1]) (by rw [NA, neg_dotProduct, baseA]; linarith [hB.2.1])
        (by rw [NA, neg_dotProduct, baseA]; linarith [hB.2.2])]
      simp only [Bool.xor_true, Bool.not_false, if_true, v_sub, v_cross, v_dot, p_gt4]
      rw [← not_lt, ← not_lt]
      by_cases g1 : 0 < (p0 - q0) ⬝ᵥ crossProduct (p2 - p0) (q2 - q0) <;> by_cases g2 : 0 < (q0 - p0) ⬝ᵥ crossProduct (p1 - p0) (q1 - q0) <;> simp only [g1, g2, if_true, if_false] <;> simp
    · have NA := NA rfl
      have NB := NB' rfl
      have hA := posA rfl
      have hB := negB rfl
      rw [tri_neg q0 q1 q2 p0 p1 p2 (by rw [NB, neg_dotProduct, baseB]; linarith [hA.1]) (by rw [NB, neg_dotProduct, baseB]; linarith [hA.2.1])
        (by rw [NB, neg_dotProduct, baseB]; linarith [hA.2.2]) (by rw [NA, baseA]; linarith [hB.1]) (by rw [NA, baseA]; linarith [hB.2.1])
        (by rw [NA, baseA]; linarith [hB.2.2])]
      simp only [Bool.xor_false, if_true, v_sub, v_cross, v_dot, p_gt4]
      rw [← not_lt, ← not_lt]
      by_cases g1 : 0 < (p0 - q0) ⬝ᵥ crossProduct (p2 - p0) (q2 - q0) <;> by_cases g2 : 0 < (q0 - p0) ⬝ᵥ crossProduct (p1 - p0) (q1 - q0) <;> simp only [g1, g2, if_true, if_false] <;> simp
    · have NA := NA rfl
      have NB := NB rfl
      have hA := posA rfl
      have hB := posB rfl
      rw [tri_pos q0 q1 q2 p0 p1 p2 (by rw [NB, baseB]; linarith [hA.1]) (by rw [NB, baseB]; linarith [hA.2.1])
        (by rw [NB, baseB]; linarith [hA.2.2]) (by rw [NA, baseA]; linarith [hB.1]) (by rw [NA, baseA]; linarith [hB.2.1])
        (by rw [NA, baseA]; linarith [hB.2.2])]
      simp only [Bool.xor_self, Bool.false_eq_true, if_false, v_sub, v_cross, v_dot, p_gt4]
      rw [← not_lt, ← not_lt]
      by_cases g1 : 0 < (q0 - p0) ⬝ᵥ crossProduct (p2 - p0) (q2 - q0) <;> by_cases g2 : 0 < (p0 - q0) ⬝ᵥ crossProduct (p1 - p0) (q1 - q0) <;> simp only [g1, g2, if_true, if_false] <;> simp

/-- The test is sound whenever no vertex of the second triangle is within the threshold of the plane of the first. -/
theorem C89_sound_partial (c : Cfg) (a0 a1 a2 b0 b1 b2 : Pt) (w0 w1 w2 v0 v1 v2 : E)
    (hB : ∀ i, rayEps ≤ |heights (triN a0 a1 a2) a0 b0 b1 b2 i|)
    (h : TriangleTests.IntersectsTriangle c (vec3 a0 w0) (vec3 a1 w1) (vec3 a2 w2) (vec3 b0 v0) (vec3 b1 v1) (vec3 b2 v2) = true) :
    (tri a0 a1 a2 ∩ tri b0 b1 b2).Nonempty := by
  by_cases hA : ∀ i, heights (triN b0 b1 b2) b0 a0 a1 a2 i ≠ 0
  · exact (C89_triangles_partial c _ _ _ _ _ _ _ _ _ _ _ _ hB hA).1 h
  exfalso
  rw [triTri_eval c _ _ _ _ _ _ _ _ _ _ _ _ hB, singular_eval] at h
  generalize heights (triN b0 b1 b2) b0 a0 a1 a2 = dA at *
  simp only [or_false] at h
  rw [all3] at hA
  have e : (∀ i : Fin 3, dA i ≠ 0) ∨ True := Or.inr trivial
  have k : ∀ x : ℝ, x = 0 → ¬ x < 0 ∧ ¬ 0 < x := by rintro x rfl; simp
  have hA' : dA 0 = 0 ∨ dA 1 = 0 ∨ dA 2 = 0 := by by_contra hc; push Not at hc; exact hA hc
  have hn : ∀ p : Prop, (p ∨ p) = p := fun p => by simp
  rcases hA' with z | z | z <;> simp only [z, lt_irrefl, false_and, and_false, or_false, if_false] at h <;> split_ifs at h <;> simp at h

theorem edgeOut_eval (c : Cfg) (n e0 e1 p0 p1 p2 : Pt) (wn u0 u1 w0 w1 w2 : E) :
    TriangleTests.edgeOut c (vec3 n wn) (vec3 e0 u0) (vec3 e1 u1) (vec3 p0 w0) (vec3 p1 w1) (vec3 p2 w2) = true ↔
      crossProduct n (e1 - e0) ⬝ᵥ e0 ≤ min (min (p0 ⬝ᵥ crossProduct n (e1 - e0)) (p1 ⬝ᵥ crossProduct n (e1 - e0))) (p2 ⬝ᵥ crossProduct n (e1 - e0)) := by
  unfold TriangleTests.edgeOut
  simp only [v_sub, v_cross, v_dot, s_min, p_ge4]

/-- The full claim: the answer says whether two non-degenerate triangles share a point. -/
def C89_claim (c : Cfg) : Prop := ∀ a0 a1 a2 b0 b1 b2 : Pt, triN a0 a1 a2 ≠ 0 → triN b0 b1 b2 ≠ 0 →
  (TriangleTests.IntersectsTriangle c (vec3 a0 (num 0)) (vec3 a1 (num 0)) (vec3 a2 (num 0)) (vec3 b0 (num 0)) (vec3 b1 (num 0)) (vec3 b2 (num 0)) = true ↔
    (tri a0 a1 a2 ∩ tri b0 b1 b2).Nonempty)

theorem eps_lt_one : rayEps < 1 := by unfold rayEps; norm_num

theorem exN1 : triN ![0, 0, 0] ![1, 0, 1] ![1, 0, -1] = ![0, 2, 0] := by
  unfold triN; ext i; fin_cases i <;> simp [cross_apply] <;> norm_num
theorem exN2 : triN ![-2, -2, 0] ![2, -2, 0] ![0, 2, 0] = ![0, 0, 16] := by
  unfold triN; ext i; fin_cases i <;> simp [cross_apply] <;> norm_num
theorem exH1 : heights ![0, 2, 0] ![0, 0, 0] ![-2, -2, 0] ![2, -2, 0] ![0, 2, 0] = ![-4, -4, 4] := by
  unfold heights; ext i; fin_cases i <;> simp [dotProduct, Fin.sum_univ_three] <;> norm_num
theorem exH2 : heights ![0, 0, 16] ![-2, -2, 0] ![0, 0, 0] ![1, 0, 1] ![1, 0, -1] = ![0, 16, -16] := by
  unfold heights; ext i; fin_cases i <;> simp [dotProduct, Fin.sum_univ_three]
theorem ex_share : (tri ![0, 0, 0] ![1, 0, 1] ![1, 0, -1] ∩ tri ![-2, -2, 0] ![2, -2, 0] ![0, 2, 0]).Nonempty := by
  refine ⟨![0, 0, 0], ⟨1, 0, 0, by norm_num, by norm_num, by norm_num, by norm_num, by simp⟩, ⟨1/4, 1/4, 1/2, by norm_num, by norm_num, by norm_num, by norm_num, ?_⟩⟩
  ext i; fin_cases i <;> simp <;> norm_num

/-- A triangle that pierces another, with one of its vertices in the other's plane, is reported as not intersecting it (collision.rs:5274). -/
theorem C89_vertexInPlane_fails (c : Cfg) :
    TriangleTests.IntersectsTriangle c (vec3 ![0, 0, 0] (num 0)) (vec3 ![1, 0, 1] (num 0)) (vec3 ![1, 0, -1] (num 0))
      (vec3 ![-2, -2, 0] (num 0)) (vec3 ![2, -2, 0] (num 0)) (vec3 ![0, 2, 0] (num 0)) = false ∧
    (tri ![0, 0, 0] ![1, 0, 1] ![1, 0, -1] ∩ tri ![-2, -2, 0] ![2, -2, 0] ![0, 2, 0]).Nonempty := by
  refine ⟨?_, ex_share⟩
  rw [triTri_eval, exN1, exN2, exH1, exH2, if_neg (by simp [all3]), singular_eval]
  · simp
  · rw [exN1, exH1]
    have := eps_lt_one
    rw [all3]
    refine ⟨?_, ?_, ?_⟩ <;> simp <;> linarith

/-- The same pair with the arguments exchanged is reported as intersecting: the test is not symmetric. -/
theorem C89_symmetry_fails (c : Cfg) :
    TriangleTests.IntersectsTriangle c (vec3 ![-2, -2, 0] (num 0)) (vec3 ![2, -2, 0] (num 0)) (vec3 ![0, 2, 0] (num 0))
      (vec3 ![0, 0, 0] (num 0)) (vec3 ![1, 0, 1] (num 0)) (vec3 ![1, 0, -1] (num 0)) = true := by
  have he := eps_lt_one
  have hp := rayEps_pos
  rw [triTri_gen c _ _ _ _ _ _ ![-4, -4, 4] ![0, 16, -16] ![0, -4, 4] ![0, 16, -16] ![True, False, False] _ _ _ _ _ _ (by rw [exN2, exH2]) (by rw [exN1, exH1])
    (by rw [all3]; refine ⟨?_, ?_, ?_⟩ <;> simp [hp] <;> linarith) (by rw [all3]; simp) (by rw [all3]; simp)]
  have sA : ∀ P0 P1 P2 : V4 E, TriangleTests.singular c (mk fun i => (![0, -4, 4] : Pt) i < 0) (mk fun i => 0 < (![0, -4, 4] : Pt) i) (mk ![True, False, False]) P0 P1 P2 = some (P1, P0, P2, false) := by
    intro P0 P1 P2; rw [singular_eval]; simp only [Matrix.cons_val_zero, Matrix.cons_val_one, Matrix.cons_val]; norm_num
  have sB : ∀ P0 P1 P2 : V4 E, TriangleTests.singular c (mk fun i => (![0, 16, -16] : Pt) i < 0) (mk fun i => 0 < (![0, 16, -16] : Pt) i) (mk ![True, False, False]) P0 P1 P2 = some (P1, P2, P0, true) := by
    intro P0 P1 P2; rw [singular_eval]; simp only [Matrix.cons_val_zero, Matrix.cons_val_one, Matrix.cons_val]; norm_num
  rw [if_neg (by simp [all3]), if_neg (by simp [all3]), if_neg (by simp [all3]), sA, sB]
  simp only [v_sub, v_cross, v_dot, p_gt4, Bool.xor_true, Bool.xor_false, Bool.not_true, Bool.not_false, if_true, Bool.false_eq_true, if_false]
  rw [if_neg, if_neg]
  · simp only [cross_apply, dotProduct, Fin.sum_univ_three, Pi.sub_apply, Matrix.cons_val_zero, Matrix.cons_val_one, Matrix.cons_val]; norm_num
  · simp only [cross_apply, dotProduct, Fin.sum_univ_three, Pi.sub_apply, Matrix.cons_val_zero, Matrix.cons_val_one, Matrix.cons_val]; norm_num

/-- Two disjoint triangles reported as intersecting, when one vertex of the second lies in the plane of the first. -/
theorem C89_falsePositive_fails (c : Cfg) :
    TriangleTests.IntersectsTriangle c (vec3 ![0, 0, -1] (num 0)) (vec3 ![-1, 0, -1] (num 0)) (vec3 ![1, 0, 0] (num 0))
      (vec3 ![0, -1, 0] (num 0)) (vec3 ![0, 0, 0] (num 0)) (vec3 ![-1, 1, 1] (num 0)) = true ∧
    tri ![0, 0, -1] ![-1, 0, -1] ![1, 0, 0] ∩ tri ![0, -1, 0] ![0, 0, 0] ![-1, 1, 1] = ∅ := by
  have he := eps_lt_one
  have hp := rayEps_pos
  have n1 : triN ![0, 0, -1] ![-1, 0, -1] ![1, 0, 0] = ![0, 1, 0] := by
    unfold triN; ext i; fin_cases i <;> simp [cross_apply]
  have n2 : triN ![0, -1, 0] ![0, 0, 0] ![-1, 1, 1] = ![1, 0, 1] := by
    unfold triN; ext i; fin_cases i <;> simp [cross_apply]
  constructor
  · rw [triTri_gen c _ _ _ _ _ _ ![-1, -2, 1] ![-1, 0, 1] ![-1, 0, 1] ![-1, 0, 1] ![False, True, False] _ _ _ _ _ _
      (by rw [n1]; unfold heights; ext i; fin_cases i <;> simp [dotProduct, Fin.sum_univ_three])
      (by rw [n2]; unfold heights; ext i; fin_cases i <;> simp [dotProduct, Fin.sum_univ_three] <;> norm_num)
      (by rw [all3]; refine ⟨?_, ?_, ?_⟩ <;> simp [hp] <;> linarith) (by rw [all3]; simp) (by rw [all3]; simp)]
    have sA : ∀ P0 P1 P2 : V4 E, TriangleTests.singular c (mk fun i => (![-1, 0, 1] : Pt) i < 0) (mk fun i => 0 < (![-1, 0, 1] : Pt) i) (mk ![False, True, False]) P0 P1 P2 = some (P0, P2, P1, false) := by
      intro P0 P1 P2; rw [singular_eval]; simp only [Matrix.cons_val_zero, Matrix.cons_val_one, Matrix.cons_val]; norm_num
    have sB : ∀ P0 P1 P2 : V4 E, TriangleTests.singular c (mk fun i => (![-1, 0, 1] : Pt) i < 0) (mk fun i => 0 < (![-1, 0, 1] : Pt) i) (mk ![False, True, False]) P0 P1 P2 = some (P0, P2, P1, false) := by
      intro P0 P1 P2; rw [singular_eval]; simp only [Matrix.cons_val_zero, Matrix.cons_val_one, Matrix.cons_val]; norm_num
    rw [if_neg (by simp [all3]), if_neg (by simp [all3]), if_neg (by simp [all3]), sA, sB]
    simp only [v_sub, v_cross, v_dot, p_gt4, Bool.xor_true, Bool.xor_false, Bool.not_true, Bool.not_false, if_true, Bool.false_eq_true, if_false]
    rw [if_neg, if_neg]
    · simp only [cross_apply, dotProduct, Fin.sum_univ_three, Pi.sub_apply, Matrix.cons_val_zero, Matrix.cons_val_one, Matrix.cons_val]; norm_num
    · simp only [cross_apply, dotProduct, Fin.sum_univ_three, Pi.sub_apply, Matrix.cons_val_zero, Matrix.cons_val_one, Matrix.cons_val]; norm_num
  · rw [Set.eq_empty_iff_forall_notMem]
    rintro x ⟨⟨a, b, d, ha, hb, hd, h1, rfl⟩, ⟨u, v, w, hu, hv, hw, h2, h⟩⟩
    have e0 := congrFun h 0
    have e1 := congrFun h 1
    have e2 := congrFun h 2
    simp at e0 e1 e2
    linarith

/-- A triangle inside another one in the same plane is reported as not intersecting it. -/
theorem C89_coplanar_fails (c : Cfg) :
    TriangleTests.IntersectsTriangle c (vec3 ![-4, -4, 0] (num 0)) (vec3 ![4, -4, 0] (num 0)) (vec3 ![0, 4, 0] (num 0))
      (vec3 ![-1, -1, 0] (num 0)) (vec3 ![1, -1, 0] (num 0)) (vec3 ![0, 1, 0] (num 0)) = false ∧
    (tri ![-4, -4, 0] ![4, -4, 0] ![0, 4, 0] ∩ tri ![-1, -1, 0] ![1, -1, 0] ![0, 1, 0]).Nonempty := by
  have hp := rayEps_pos
  have n1 : triN ![-4, -4, 0] ![4, -4, 0] ![0, 4, 0] = ![0, 0, 64] := by
    unfold triN; ext i; fin_cases i <;> simp [cross_apply] <;> norm_num
  have n2 : triN ![-1, -1, 0] ![1, -1, 0] ![0, 1, 0] = ![0, 0, 4] := by
    unfold triN; ext i; fin_cases i <;> simp [cross_apply] <;> norm_num
  constructor
  · rw [triTri_gen c _ _ _ _ _ _ 0 0 0 0 (fun _ => True) _ _ _ _ _ _
      (by rw [n1]; unfold heights; ext i; fin_cases i <;> simp [dotProduct, Fin.sum_univ_three])
      (by rw [n2]; unfold heights; ext i; fin_cases i <;> simp [dotProduct, Fin.sum_univ_three])
      (by simp [hp]) (by simp) (by simp), n1]
    have e : TriangleTests.edgeOut c (vec3 ![0, 0, 64] (num 0)) (vec3 ![-4, -4, 0] (num 0)) (vec3 ![4, -4, 0] (num 0)) (vec3 ![-1, -1, 0] (num 0)) (vec3 ![1, -1, 0] (num 0)) (vec3 ![0, 1, 0] (num 0)) = true := by
      rw [edgeOut_eval]
      simp only [cross_apply, dotProduct, Fin.sum_univ_three, le_min_iff, Pi.sub_apply, Matrix.cons_val_zero, Matrix.cons_val_one, Matrix.cons_val]
      norm_num
    rw [if_pos e]
    simp
  · refine ⟨![0, 0, 0], ⟨1/4, 1/4, 1/2, by norm_num, by norm_num, by norm_num, by norm_num, ?_⟩, ⟨1/4, 1/4, 1/2, by norm_num, by norm_num, by norm_num, by norm_num, ?_⟩⟩ <;>
      (ext i; fin_cases i <;> simp <;> norm_num)

theorem C89_fails (c : Cfg) : ¬ C89_claim c := by
  intro h
  have h1 := h ![-4, -4, 0] ![4, -4, 0] ![0, 4, 0] ![-1, -1, 0] ![1, -1, 0] ![0, 1, 0]
    (by intro h; have := congrFun h 2; simp [triN, cross_apply] at this)
    (by intro h; have := congrFun h 2; simp [triN, cross_apply] at this)
  have h2 := C89_coplanar_fails c
  rw [h2.1] at h1
  exact absurd (h1.2 h2.2) (by simp)

/-- A pair in general position: the first triangle pierces the second. -/
example : (∀ i, rayEps ≤ |heights (triN ![-1, 0, 0] ![1, 0, 1] ![1, 0, -1]) ![-1, 0, 0] ![0, -2, -2] ![0, -2, 2] ![0, 2, 0] i|) ∧
    (∀ i, heights (triN ![0, -2, -2] ![0, -2, 2] ![0, 2, 0]) ![0, -2, -2] ![-1, 0, 0] ![1, 0, 1] ![1, 0, -1] i ≠ 0) ∧
    (tri ![-1, 0, 0] ![1, 0, 1] ![1, 0, -1] ∩ tri ![0, -2, -2] ![0, -2, 2] ![0, 2, 0]).Nonempty := by
  have := eps_lt_one
  refine ⟨?_, ?_, ![0, 0, 0], ⟨1/2, 1/4, 1/4, by norm_num, by norm_num, by norm_num, by norm_num, ?_⟩, ⟨1/4, 1/4, 1/2, by norm_num, by norm_num, by norm_num, by norm_num, ?_⟩⟩
  · rw [all3]; refine ⟨?_, ?_, ?_⟩ <;> simp [heights, triN, cross_apply, dotProduct, Fin.sum_univ_three] <;> norm_num <;> linarith
  · rw [all3]; refine ⟨?_, ?_, ?_⟩ <;> simp [heights, triN, cross_apply, dotProduct, Fin.sum_univ_three] <;> norm_num
  · ext i; fin_cases i <;> simp <;> norm_num
  · ext i; fin_cases i <;> simp <;> norm_num

/-- In general position both ways the test is symmetric. -/
theorem C89_symmetric_partial (c : Cfg) (a0 a1 a2 b0 b1 b2 : Pt) (w0 w1 w2 v0 v1 v2 : E)
    (hB : ∀ i, rayEps ≤ |heights (triN a0 a1 a2) a0 b0 b1 b2 i|) (hA : ∀ i, rayEps ≤ |heights (triN b0 b1 b2) b0 a0 a1 a2 i|) :
    TriangleTests.IntersectsTriangle c (vec3 a0 w0) (vec3 a1 w1) (vec3 a2 w2) (vec3 b0 v0) (vec3 b1 v1) (vec3 b2 v2) =
      TriangleTests.IntersectsTriangle c (vec3 b0 v0) (vec3 b1 v1) (vec3 b2 v2) (vec3 a0 w0) (vec3 a1 w1) (vec3 a2 w2) := by
  rw [Bool.eq_iff_iff, C89_triangles_partial c _ _ _ _ _ _ _ _ _ _ _ _ hB (fun i => eps_abs (hA i)),
    C89_triangles_partial c _ _ _ _ _ _ _ _ _ _ _ _ hA (fun i => eps_abs (hB i)), Set.inter_comm]

end DXM.Props
