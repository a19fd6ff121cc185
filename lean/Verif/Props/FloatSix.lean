import Verif.Props.FloatContainsSphere

/-
C138: culling against six planes (`ContainedBy`) on binary32 lanes.
-/

set_option linter.all false

namespace DXM.Props
open DXM.Spec DXM.FErr DXM.IEEE DXM.RG Matrix
variable {P : Env}

/-- The answer `res` about the volume `S` and the six planes `n k · p + d k` is right up to the margin `G k` in the plane values: DISJOINT when some plane has
the whole volume in front of it by more than the margin, and then only if some plane has it in front up to the margin; CONTAINS when all planes have it behind
by more than the margin, and then only if all planes have it behind up to the margin. -/
def SixWithin (S : Set Pt) (n : Fin 6 → Pt) (d G : Fin 6 → ℝ) (res : ContainmentType) : Prop :=
  ((∃ k, ∀ p ∈ S, G k < Spec.planeAt (n k) (d k) p) → res = .DISJOINT) ∧ (res = .DISJOINT → ∃ k, ∀ p ∈ S, -G k < Spec.planeAt (n k) (d k) p) ∧
  ((∀ k, ∀ p ∈ S, Spec.planeAt (n k) (d k) p < -G k) → res = .CONTAINS) ∧ (res = .CONTAINS → ∀ k, ∀ p ∈ S, Spec.planeAt (n k) (d k) p < G k)

namespace Six
/-- Four lanes of masks. -/
def m4 (o : Fin 4 → Bool) : V4 (F32 P) := ⟨Lane.mask (o 0), Lane.mask (o 1), Lane.mask (o 2), Lane.mask (o 3)⟩
theorem or4 (o p : Fin 4 → Bool) : XMVectorOrInt (m4 o) (m4 p) = (m4 (fun j => o j || p j) : V4 (F32 P)) := by
  simp only [XMVectorOrInt, SSE.or, V4.map2, m4, bor_mask]
theorem and4 (o p : Fin 4 → Bool) : XMVectorAndInt (m4 o) (m4 p) = (m4 (fun j => o j && p j) : V4 (F32 P)) := by
  simp only [XMVectorAndInt, SSE.and, V4.map2, m4, Lane.band_mask_mask]
theorem eq4 (c : Cfg) (o : Fin 4 → Bool) : XMVector4EqualInt c (m4 o : V4 (F32 P)) XMVectorTrueInt = true ↔ ∀ j, o j = true := by
  rw [m4, equal4_mask]
  simp only [Bool.and_eq_true, Fin.forall_fin_succ]
  simp [and_assoc]
theorem core (c : Cfg) (f : V4 (F32 P) → V4 (F32 P) × V4 (F32 P)) (Q : Fin 6 → V4 (F32 P)) (o i : Fin 6 → Fin 4 → Bool) (h : ∀ k, f (Q k) = (m4 (o k), m4 (i k)))
    (A A' B B' : Fin 6 → Prop) (hA : ∀ k, A k → ∀ j, o k j = true) (hA' : ∀ k, o k 0 = true → A' k) (hB : ∀ k, B k → ∀ j, i k j = true ∧ o k j = false) (hB' : ∀ k, i k 0 = true → B' k) :
    let res := sixPlanes c f (Q 0) (Q 1) (Q 2) (Q 3) (Q 4) (Q 5)
    ((∃ k, A k) → res = .DISJOINT) ∧ (res = .DISJOINT → ∃ k, A' k) ∧ ((∀ k, B k) → res = .CONTAINS) ∧ (res = .CONTAINS → ∀ k, B' k) := by
  intro res
  have e : res = if XMVector4EqualInt c (m4 (fun j => o 0 j || o 1 j || o 2 j || o 3 j || o 4 j || o 5 j) : V4 (F32 P)) XMVectorTrueInt = true then .DISJOINT else
      if XMVector4EqualInt c (m4 (fun j => i 0 j && i 1 j && i 2 j && i 3 j && i 4 j && i 5 j) : V4 (F32 P)) XMVectorTrueInt = true then .CONTAINS else .INTERSECTS := by
    simp only [res, sixPlanes, h, or4, and4]
  simp only [eq4] at e
  have eo : ∀ j, (o 0 j || o 1 j || o 2 j || o 3 j || o 4 j || o 5 j) = true ↔ ∃ k, o k j = true := by
    intro j; simp only [Bool.or_eq_true, Fin.exists_fin_succ]; simp [or_assoc]
  have ei : ∀ j, (i 0 j && i 1 j && i 2 j && i 3 j && i 4 j && i 5 j) = true ↔ ∀ k, i k j = true := by
    intro j; simp only [Bool.and_eq_true, Fin.forall_fin_succ]; simp [and_assoc]
  simp only [eo, ei] at e
  refine ⟨?_, ?_, ?_, ?_⟩
  · rintro ⟨k, hk⟩
    rw [e, if_pos fun j => ⟨k, hA k hk j⟩]
  · intro hr
    rw [e] at hr
    split_ifs at hr with h1 h2
    obtain ⟨k, hk⟩ := h1 0
    exact ⟨k, hA' k hk⟩
  · intro hk
    rw [e, if_neg, if_pos fun j k => (hB k (hk k) j).1]
    intro h1
    obtain ⟨k, h2⟩ := h1 0
    rw [(hB k (hk k) 0).2] at h2
    exact absurd h2 (by decide)
  · intro hr
    rw [e] at hr
    split_ifs at hr with h1 h2
    exact fun k => hB' k (h2 0 k)
/-- Distances against radii. -/
theorem dist (c : Cfg) (f : V4 (F32 P) → V4 (F32 P) × V4 (F32 P)) (Q D R : Fin 6 → V4 (F32 P)) (hf : ∀ k, f (Q k) = (XMVectorGreater (D k) (R k), XMVectorLess (D k) (XMVectorNegate c (R k))))
    (s r g h : Fin 6 → ℝ) (hr : ∀ k, 0 ≤ r k) (hD : ∀ k i, Fin' ((D k).lane i) ∧ |val ((D k).lane i) - s k| ≤ g k) (hR : ∀ k i, Fin' ((R k).lane i) ∧ |val ((R k).lane i) - r k| ≤ h k) :
    let res := sixPlanes c f (Q 0) (Q 1) (Q 2) (Q 3) (Q 4) (Q 5)
    ((∃ k, r k + (g k + h k) < s k) → res = .DISJOINT) ∧ (res = .DISJOINT → ∃ k, r k - (g k + h k) < s k) ∧
    ((∀ k, s k < -r k - (g k + h k)) → res = .CONTAINS) ∧ (res = .CONTAINS → ∀ k, s k < -r k + (g k + h k)) := by
  have hN := fun k i => neg_lanes c (R k) (fun i => (hR k i).1) i
  have gt : ∀ k i, Lane.gt ((D k).lane i) ((R k).lane i) = true ↔ val ((R k).lane i) < val ((D k).lane i) := fun k i => flt_val (hR k i).1 (hD k i).1
  have lt : ∀ k i, Lane.lt ((D k).lane i) ((XMVectorNegate c (R k)).lane i) = true ↔ val ((D k).lane i) < - val ((R k).lane i) := fun k i => by rw [flt_val (hD k i).1 (hN k i).1, (hN k i).2]
  have bD := fun k i => abs_le.1 (hD k i).2
  have bR := fun k i => abs_le.1 (hR k i).2
  refine core c f Q (fun k j => Lane.gt ((D k).lane j) ((R k).lane j)) (fun k j => Lane.lt ((D k).lane j) ((XMVectorNegate c (R k)).lane j)) (fun k => by rw [hf k]; rfl) _ _ _ _ ?_ ?_ ?_ ?_
  · intro k hk j
    rw [gt]; linarith [(bD k j).1, (bR k j).2]
  · intro k hk
    rw [gt] at hk; linarith [(bD k 0).2, (bR k 0).1]
  · intro k hk j
    refine ⟨by rw [lt]; linarith [(bD k j).2, (bR k j).2], ?_⟩
    rw [← Bool.not_eq_true, gt]; linarith [(bD k j).2, (bR k j).1, hr k]
  · intro k hk
    rw [lt] at hk; linarith [(bD k 0).1, (bR k 0).1]
theorem planeAt_sub (n p a : Pt) (d : ℝ) : Spec.planeAt n d p = Spec.planeAt n d a + n ⬝ᵥ (p - a) := by unfold Spec.planeAt; rw [dotProduct_sub]; ring
theorem pos3 {a b e x y z : ℝ} (ha : 0 ≤ a) (hb : 0 ≤ b) (he : 0 ≤ e) (h : a + b + e = 1) (hx : 0 < x) (hy : 0 < y) (hz : 0 < z) : 0 < a * x + b * y + e * z := by
  have m0 : 0 < min x (min y z) := lt_min hx (lt_min hy hz)
  have h1 := mul_le_mul_of_nonneg_left (min_le_left x (min y z)) ha
  have h2 := mul_le_mul_of_nonneg_left ((min_le_right x (min y z)).trans (min_le_left y z)) hb
  have h3 := mul_le_mul_of_nonneg_left ((min_le_right x (min y z)).trans (min_le_right y z)) he
  have : min x (min y z) = a * min x (min y z) + b * min x (min y z) + e * min x (min y z) := by rw [← add_mul, ← add_mul, h, one_mul]
  linarith
theorem tri_at {n v0 v1 v2 p : Pt} {d : ℝ} (hp : p ∈ tri v0 v1 v2) : ∃ a b e : ℝ, 0 ≤ a ∧ 0 ≤ b ∧ 0 ≤ e ∧ a + b + e = 1 ∧ Spec.planeAt n d p = a * Spec.planeAt n d v0 + b * Spec.planeAt n d v1 + e * Spec.planeAt n d v2 := by
  obtain ⟨a, b, e, ha, hb, he, h, rfl⟩ := hp
  refine ⟨a, b, e, ha, hb, he, h, ?_⟩
  unfold Spec.planeAt
  rw [dotProduct_add, dotProduct_add, dotProduct_smul, dotProduct_smul, dotProduct_smul, smul_eq_mul, smul_eq_mul, smul_eq_mul]
  have : d = (a + b + e) * d := by rw [h, one_mul]
  linarith
theorem tri_mem (v : Fin 3 → Pt) (j : Fin 3) : v j ∈ tri (v 0) (v 1) (v 2) := by
  fin_cases j
  · exact ⟨1, 0, 0, by norm_num, le_rfl, le_rfl, by norm_num, by simp⟩
  · exact ⟨0, 1, 0, le_rfl, by norm_num, le_rfl, by norm_num, by simp⟩
  · exact ⟨0, 0, 1, le_rfl, le_rfl, by norm_num, by norm_num, by simp⟩
end Six

/-- C138: a sphere against six planes whose normals have length 1 up to `η`. -/
theorem C138_sphere (c : Cfg) (S : BoundingSphere (F32 P)) (Q : Fin 6 → V4 (F32 P)) (η : ℝ) (hS : FinSphere S) (hQ : ∀ k, Fins 4 (Q k)) (hr : 0 ≤ value S.Radius.bits)
    (hn : ∀ k, |len (ptOf (xyz (Q k))) - 1| ≤ η) (hM : ∀ k, planeSize (Q k) (ptOf S.Center) ≤ 2^127) :
    SixWithin (ball (ptOf S.Center) (value S.Radius.bits)) (fun k => ptOf (xyz (Q k))) (fun k => vals (Q k) 3) (fun k => gam 4 * planeSize (Q k) (ptOf S.Center) + η * value S.Radius.bits)
      (S.ContainedBy c (Q 0) (Q 1) (Q 2) (Q 3) (Q 4) (Q 5)) := by
  set r := value S.Radius.bits with hrr
  have key := Six.dist c (FastIntersectSpherePlane c (insertC c (load3 S.Center) (XMVectorSplatOne c) 0 0 0 1) (XMVectorReplicate S.Radius)) Q
    (fun k => XMVector4Dot c (insertC c (load3 S.Center) (XMVectorSplatOne c) 0 0 0 1) (Q k)) (fun _ => XMVectorReplicate S.Radius) (fun k => rfl)
    (fun k => Spec.planeAt (ptOf (xyz (Q k))) (vals (Q k) 3) (ptOf S.Center)) (fun _ => r) (fun k => gam 4 * planeSize (Q k) (ptOf S.Center)) (fun _ => 0) (fun _ => hr)
    (fun k i => dist_lanes c S.Center (Q k) hS.1 (hQ k) (hM k) i) (fun k i => by
      have : (XMVectorReplicate S.Radius).lane i = S.Radius := by fin_cases i <;> rfl
      rw [this]
      exact ⟨hS.2, by rw [show val S.Radius = r from rfl]; simp⟩)
  simp only [add_zero] at key
  obtain ⟨k1, k2, k3, k4⟩ := key
  -- points of the ball at which the plane value is extreme
  have ext : ∀ n : Pt, ∀ d : ℝ, ∀ σ : ℝ, |σ| = 1 → ∃ p ∈ ball (ptOf S.Center) r, Spec.planeAt n d p = Spec.planeAt n d (ptOf S.Center) + σ * (len n * r) := by
    intro n d σ hσ
    by_cases h0 : len n = 0
    · refine ⟨ptOf S.Center, ?_, by rw [h0]; ring⟩
      rw [mem_ball, sub_self, RG.len_zero]; exact hr
    · refine ⟨ptOf S.Center + (σ * (r / len n)) • n, ?_, ?_⟩
      · have hl : 0 < len n := lt_of_le_of_ne (len_nonneg _) (Ne.symm h0)
        rw [mem_ball, add_sub_cancel_left, len_smul, abs_mul, hσ, one_mul, abs_of_nonneg (div_nonneg hr hl.le), div_mul_cancel₀ _ h0]
      · rw [Six.planeAt_sub n _ (ptOf S.Center), add_sub_cancel_left, dotProduct_smul, ← len_sq, smul_eq_mul]
        field_simp
  have bd : ∀ n : Pt, ∀ d : ℝ, ∀ p ∈ ball (ptOf S.Center) r, |Spec.planeAt n d p - Spec.planeAt n d (ptOf S.Center)| ≤ len n * r := by
    intro n d p hp
    rw [Six.planeAt_sub n p (ptOf S.Center), add_sub_cancel_left]
    exact (cs_abs n _).trans (mul_le_mul_of_nonneg_left hp (len_nonneg _))
  have hl := fun k => abs_le.1 (hn k)
  have hl1 : ∀ k, len (ptOf (xyz (Q k))) * r ≤ r + η * r := fun k => by
    have := mul_le_mul_of_nonneg_right (hl k).2 hr; linarith
  have hl2 : ∀ k, r - η * r ≤ len (ptOf (xyz (Q k))) * r := fun k => by
    have := mul_le_mul_of_nonneg_right (hl k).1 hr; linarith
  refine ⟨?_, ?_, ?_, ?_⟩
  · rintro ⟨k, hk⟩
    obtain ⟨p, hp, e⟩ := ext (ptOf (xyz (Q k))) (vals (Q k) 3) (-1) (by norm_num)
    have := hk p hp
    exact k1 ⟨k, by rw [e] at this; have := hl2 k; linarith⟩
  · intro h
    obtain ⟨k, hk⟩ := k2 h
    refine ⟨k, fun p hp => ?_⟩
    have := (abs_le.1 (bd (ptOf (xyz (Q k))) (vals (Q k) 3) p hp)).1; have := hl1 k
    show -(_ + _) < _
    linarith
  · intro h
    refine k3 fun k => ?_
    obtain ⟨p, hp, e⟩ := ext (ptOf (xyz (Q k))) (vals (Q k) 3) 1 (by norm_num)
    have := h k p hp
    rw [e] at this; have := hl2 k; linarith
  · intro h k p hp
    have := k4 h k
    have := (abs_le.1 (bd (ptOf (xyz (Q k))) (vals (Q k) 3) p hp)).2; have := hl1 k
    show _ < _ + _
    linarith

/-- C138: a box against six planes, of any normals. -/
theorem C138_box (c : Cfg) (B : BoundingBox (F32 P)) (Q : Fin 6 → V4 (F32 P)) (hB : FinBox B) (hQ : ∀ k, Fins 4 (Q k)) (he : ∀ i, 0 ≤ ptOf B.Extents i)
    (hM : ∀ k, planeSize (Q k) (ptOf B.Center) ≤ 2^127) (hR : ∀ k, ptOf B.Extents 0 * |vals (Q k) 0| + ptOf B.Extents 1 * |vals (Q k) 1| + ptOf B.Extents 2 * |vals (Q k) 2| + 3 * tiny ≤ 2^127) :
    SixWithin (boxSet B) (fun k => ptOf (xyz (Q k))) (fun k => vals (Q k) 3)
      (fun k => gam 4 * planeSize (Q k) (ptOf B.Center) + gam 3 * (ptOf B.Extents 0 * |vals (Q k) 0| + ptOf B.Extents 1 * |vals (Q k) 1| + ptOf B.Extents 2 * |vals (Q k) 2| + 3 * tiny))
      (B.ContainedBy c (Q 0) (Q 1) (Q 2) (Q 3) (Q 4) (Q 5)) := by
  have hE : Fins 3 (load3 B.Extents) := by
    intro k hk; fin_cases k
    · exact hB.2.1
    · exact hB.2.2.1
    · exact hB.2.2.2
    · exact absurd hk (by decide)
  have rad : ∀ k i, Fin' ((XMVector3Dot c (load3 B.Extents) (XMVectorAbs c (Q k))).lane i) ∧ |val ((XMVector3Dot c (load3 B.Extents) (XMVectorAbs c (Q k))).lane i) -
      (ptOf B.Extents 0 * |vals (Q k) 0| + ptOf B.Extents 1 * |vals (Q k) 1| + ptOf B.Extents 2 * |vals (Q k) 2|)| ≤
      gam 3 * (ptOf B.Extents 0 * |vals (Q k) 0| + ptOf B.Extents 1 * |vals (Q k) 1| + ptOf B.Extents 2 * |vals (Q k) 2| + 3 * tiny) := by
    intro k i
    have hA : Fins 3 (XMVectorAbs c (Q k)) := fun j hj => (abs_lanes c (Q k) j (hQ k j (by omega))).1
    have eA : ∀ j : Fin 4, vals (XMVectorAbs c (Q k)) j = |vals (Q k) j| := fun j => (abs_lanes c (Q k) j (hQ k j j.2)).2
    have hd := C93_dot3 c _ _ hE hA
    rw [eA, eA, eA] at hd
    have e0 : ∀ j : Fin 3, 0 ≤ ptOf B.Extents j * |vals (Q k) j.castSucc| := fun j => mul_nonneg (he j) (abs_nonneg _)
    have h0 : |vals (load3 B.Extents) 0 * (|vals (Q k) 0|)| = ptOf B.Extents 0 * |vals (Q k) 0| := abs_of_nonneg (e0 0)
    have h1 : |vals (load3 B.Extents) 1 * (|vals (Q k) 1|)| = ptOf B.Extents 1 * |vals (Q k) 1| := abs_of_nonneg (e0 1)
    have h2 : |vals (load3 B.Extents) 2 * (|vals (Q k) 2|)| = ptOf B.Extents 2 * |vals (Q k) 2| := abs_of_nonneg (e0 2)
    rw [h0, h1, h2] at hd
    exact hd i (hR k)
  have r0 : ∀ k, 0 ≤ ptOf B.Extents 0 * |vals (Q k) 0| + ptOf B.Extents 1 * |vals (Q k) 1| + ptOf B.Extents 2 * |vals (Q k) 2| := fun k =>
    add_nonneg (add_nonneg (mul_nonneg (he 0) (abs_nonneg _)) (mul_nonneg (he 1) (abs_nonneg _))) (mul_nonneg (he 2) (abs_nonneg _))
  obtain ⟨k1, k2, k3, k4⟩ := Six.dist c (FastIntersectAxisAlignedBoxPlane c (insertC c (load3 B.Center) (XMVectorSplatOne c) 0 0 0 1) (load3 B.Extents)) Q
    (fun k => XMVector4Dot c (insertC c (load3 B.Center) (XMVectorSplatOne c) 0 0 0 1) (Q k)) (fun k => XMVector3Dot c (load3 B.Extents) (XMVectorAbs c (Q k))) (fun k => rfl)
    (fun k => Spec.planeAt (ptOf (xyz (Q k))) (vals (Q k) 3) (ptOf B.Center)) _ (fun k => gam 4 * planeSize (Q k) (ptOf B.Center)) _ r0
    (fun k i => dist_lanes c B.Center (Q k) hB.1 (hQ k) (hM k) i) rad
  have sh : ∀ (n : Pt) (d g : ℝ) (p : Pt), Spec.planeAt n (d + g) p = Spec.planeAt n d p + g := fun n d g p => by unfold Spec.planeAt; ring
  have er : ∀ k, ptOf B.Extents ⬝ᵥ |ptOf (xyz (Q k))| = ptOf B.Extents 0 * |vals (Q k) 0| + ptOf B.Extents 1 * |vals (Q k) 1| + ptOf B.Extents 2 * |vals (Q k) 2| := fun k => by
    simp only [dotProduct, Fin.sum_univ_three]; rfl
  have front : ∀ k g, (∀ p ∈ boxSet B, g < Spec.planeAt (ptOf (xyz (Q k))) (vals (Q k) 3) p) ↔
      ptOf B.Extents 0 * |vals (Q k) 0| + ptOf B.Extents 1 * |vals (Q k) 1| + ptOf B.Extents 2 * |vals (Q k) 2| + g < Spec.planeAt (ptOf (xyz (Q k))) (vals (Q k) 3) (ptOf B.Center) := fun k g => by
    have := (plane_box (ptOf (xyz (Q k))) (ptOf B.Center) (ptOf B.Extents) (vals (Q k) 3 + -g) he).1
    simp only [sh, er] at this
    rw [← lt_sub_iff_add_lt, sub_eq_add_neg, ← this]
    exact forall₂_congr fun p _ => by constructor <;> intro h <;> linarith
  have back : ∀ k g, (∀ p ∈ boxSet B, Spec.planeAt (ptOf (xyz (Q k))) (vals (Q k) 3) p < g) ↔ Spec.planeAt (ptOf (xyz (Q k))) (vals (Q k) 3) (ptOf B.Center) <
      -(ptOf B.Extents 0 * |vals (Q k) 0| + ptOf B.Extents 1 * |vals (Q k) 1| + ptOf B.Extents 2 * |vals (Q k) 2|) + g := fun k g => by
    have := (plane_box (ptOf (xyz (Q k))) (ptOf B.Center) (ptOf B.Extents) (vals (Q k) 3 + -g) he).2
    simp only [sh, er] at this
    rw [← sub_lt_iff_lt_add, sub_eq_add_neg, ← this]
    exact forall₂_congr fun p _ => by constructor <;> intro h <;> linarith
  unfold SixWithin
  simp only [front, back]
  exact ⟨k1, fun h => by obtain ⟨k, hk⟩ := k2 h; exact ⟨k, by linarith⟩, fun h => k3 fun k => by have := h k; linarith, k4⟩

/-- C138: a triangle against six planes, with any margin covering the rounding error of the three plane values. -/
theorem C138_triangle (c : Cfg) (V : Fin 3 → V4 (F32 P)) (Q : Fin 6 → V4 (F32 P)) (G : Fin 6 → ℝ) (hV : ∀ j, Fins 3 (V j)) (hQ : ∀ k, Fins 4 (Q k))
    (hM : ∀ k j, planeSize (Q k) (ptOf (xyz (V j))) ≤ 2^127) (hG : ∀ k j, gam 4 * planeSize (Q k) (ptOf (xyz (V j))) ≤ G k) :
    SixWithin (tri (ptOf (xyz (V 0))) (ptOf (xyz (V 1))) (ptOf (xyz (V 2)))) (fun k => ptOf (xyz (Q k))) (fun k => vals (Q k) 3) G
      (TriangleTests.ContainedBy c (V 0) (V 1) (V 2) (Q 0) (Q 1) (Q 2) (Q 3) (Q 4) (Q 5)) := by
  set D := fun k j => XMVector4Dot c (insertC c (V j) (XMVectorSplatOne c) 0 0 0 1) (Q k) with hDD
  set s := fun k j => Spec.planeAt (ptOf (xyz (Q k))) (vals (Q k) 3) (ptOf (xyz (V j))) with hs
  have hD : ∀ k j i, Fin' ((D k j).lane i) ∧ |val ((D k j).lane i) - s k j| ≤ G k := fun k j i => by
    have e : insertC c (V j) (XMVectorSplatOne c) 0 0 0 1 = insertC c (load3 (xyz (V j))) (XMVectorSplatOne c) 0 0 0 1 := by rw [insert_w, insert_w]; rfl
    have := dist_lanes c (xyz (V j)) (Q k) ⟨hV j 0 (by decide), hV j 1 (by decide), hV j 2 (by decide)⟩ (hQ k) (hM k j) i
    rw [← e] at this
    exact ⟨this.1, this.2.trans (hG k j)⟩
  have bD := fun k j i => abs_le.1 (hD k j i).2
  have mn : ∀ k i, Fin' (Lane.minps (Lane.minps ((D k 0).lane i) ((D k 1).lane i)) ((D k 2).lane i)) ∧
      val (Lane.minps (Lane.minps ((D k 0).lane i) ((D k 1).lane i)) ((D k 2).lane i)) = min (min (val ((D k 0).lane i)) (val ((D k 1).lane i))) (val ((D k 2).lane i)) := fun k i => by
    have a := min_val (hD k 0 i).1 (hD k 1 i).1
    have b := min_val a.1 (hD k 2 i).1
    rw [a.2] at b; exact b
  have mx : ∀ k i, Fin' (Lane.maxps (Lane.maxps ((D k 0).lane i) ((D k 1).lane i)) ((D k 2).lane i)) ∧
      val (Lane.maxps (Lane.maxps ((D k 0).lane i) ((D k 1).lane i)) ((D k 2).lane i)) = max (max (val ((D k 0).lane i)) (val ((D k 1).lane i))) (val ((D k 2).lane i)) := fun k i => by
    have a := max_val (hD k 0 i).1 (hD k 1 i).1
    have b := max_val a.1 (hD k 2 i).1
    rw [a.2] at b; exact b
  have z : Fin' (Lane.c0 : F32 P) := (by decide : IsFinite 0#32)
  have vz : val (Lane.c0 : F32 P) = 0 := val_zero
  have gt : ∀ k i, Lane.gt (Lane.minps (Lane.minps ((D k 0).lane i) ((D k 1).lane i)) ((D k 2).lane i)) Lane.c0 = true ↔ ∀ j, 0 < val ((D k j).lane i) := fun k i => by
    rw [show Lane.gt (Lane.minps (Lane.minps ((D k 0).lane i) ((D k 1).lane i)) ((D k 2).lane i)) Lane.c0 = Lane.lt Lane.c0 (Lane.minps (Lane.minps ((D k 0).lane i) ((D k 1).lane i)) ((D k 2).lane i)) from rfl,
      flt_val z (mn k i).1, (mn k i).2, vz, lt_min_iff, lt_min_iff, Fin.forall_fin_succ, Fin.forall_fin_two, and_assoc]; rfl
  have lt : ∀ k i, Lane.lt (Lane.maxps (Lane.maxps ((D k 0).lane i) ((D k 1).lane i)) ((D k 2).lane i)) Lane.c0 = true ↔ ∀ j, val ((D k j).lane i) < 0 := fun k i => by
    rw [flt_val (mx k i).1 z, (mx k i).2, vz, max_lt_iff, max_lt_iff, Fin.forall_fin_succ, Fin.forall_fin_two, and_assoc]; rfl
  have key := Six.core c (FastIntersectTrianglePlane c (insertC c (V 0) (XMVectorSplatOne c) 0 0 0 1) (insertC c (V 1) (XMVectorSplatOne c) 0 0 0 1) (insertC c (V 2) (XMVectorSplatOne c) 0 0 0 1)) Q
    (fun k i => Lane.gt (Lane.minps (Lane.minps ((D k 0).lane i) ((D k 1).lane i)) ((D k 2).lane i)) Lane.c0)
    (fun k i => Lane.lt (Lane.maxps (Lane.maxps ((D k 0).lane i) ((D k 1).lane i)) ((D k 2).lane i)) Lane.c0) (fun k => rfl)
    (fun k => ∀ j, G k < s k j) (fun k => ∀ j, -G k < s k j) (fun k => ∀ j, s k j < -G k) (fun k => ∀ j, s k j < G k)
    (fun k h i => (gt k i).2 fun j => by linarith [h j, (bD k j i).1]) (fun k h j => by linarith [(gt k 0).1 h j, (bD k j 0).2])
    (fun k h i => ⟨(lt k i).2 fun j => by linarith [h j, (bD k j i).2], by
      rw [← Bool.not_eq_true, gt]; intro g; linarith [g 0, h 0, (bD k 0 i).2]⟩)
    (fun k h j => by linarith [(lt k 0).1 h j, (bD k j 0).1])
  obtain ⟨k1, k2, k3, k4⟩ := key
  have mem := Six.tri_mem (fun j => ptOf (xyz (V j)))
  have front : ∀ k g, (∀ j, g < s k j) → ∀ p ∈ tri (ptOf (xyz (V 0))) (ptOf (xyz (V 1))) (ptOf (xyz (V 2))), g < Spec.planeAt (ptOf (xyz (Q k))) (vals (Q k) 3) p := by
    intro k g h p hp
    obtain ⟨a, b, e, ha, hb, he, h1, h2⟩ := Six.tri_at (n := ptOf (xyz (Q k))) (d := vals (Q k) 3) hp
    have := Six.pos3 ha hb he h1 (sub_pos.2 (h 0)) (sub_pos.2 (h 1)) (sub_pos.2 (h 2))
    have h3 : g = (a + b + e) * g := by rw [h1, one_mul]
    rw [h2]; simp only [hs] at this; linarith
  have back : ∀ k g, (∀ j, s k j < g) → ∀ p ∈ tri (ptOf (xyz (V 0))) (ptOf (xyz (V 1))) (ptOf (xyz (V 2))), Spec.planeAt (ptOf (xyz (Q k))) (vals (Q k) 3) p < g := by
    intro k g h p hp
    obtain ⟨a, b, e, ha, hb, he, h1, h2⟩ := Six.tri_at (n := ptOf (xyz (Q k))) (d := vals (Q k) 3) hp
    have := Six.pos3 ha hb he h1 (sub_pos.2 (h 0)) (sub_pos.2 (h 1)) (sub_pos.2 (h 2))
    have h3 : g = (a + b + e) * g := by rw [h1, one_mul]
    rw [h2]; simp only [hs] at this; linarith
  refine ⟨?_, ?_, ?_, ?_⟩
  · rintro ⟨k, hk⟩; exact k1 ⟨k, fun j => hk _ (mem j)⟩
  · intro h; obtain ⟨k, hk⟩ := k2 h; exact ⟨k, front k _ hk⟩
  · intro h; exact k3 fun k j => h k _ (mem j)
  · intro h k; exact back k _ (k4 h k)

namespace Six
/-- The six faces of the cube of half-size 1 about the origin, facing outwards. -/
def cubeQ : Fin 6 → V4 (F32 P) := ![⟨Loc.fl 0x3F800000#32, Loc.fl 0#32, Loc.fl 0#32, Loc.fl 0xBF800000#32⟩, ⟨Loc.fl 0xBF800000#32, Loc.fl 0#32, Loc.fl 0#32, Loc.fl 0xBF800000#32⟩,
  ⟨Loc.fl 0#32, Loc.fl 0x3F800000#32, Loc.fl 0#32, Loc.fl 0xBF800000#32⟩, ⟨Loc.fl 0#32, Loc.fl 0xBF800000#32, Loc.fl 0#32, Loc.fl 0xBF800000#32⟩,
  ⟨Loc.fl 0#32, Loc.fl 0#32, Loc.fl 0x3F800000#32, Loc.fl 0xBF800000#32⟩, ⟨Loc.fl 0#32, Loc.fl 0#32, Loc.fl 0xBF800000#32, Loc.fl 0xBF800000#32⟩]
theorem cubeQ_fin (k : Fin 6) : Fins 4 (cubeQ k : V4 (F32 P)) := by
  have a : Fin' (Loc.fl 0#32 : F32 P) := (by decide : IsFinite 0#32)
  have b : Fin' (Loc.fl 0x3F800000#32 : F32 P) := (by decide : IsFinite 0x3F800000#32)
  have d : Fin' (Loc.fl 0xBF800000#32 : F32 P) := (by decide : IsFinite 0xBF800000#32)
  intro i _
  fin_cases k <;> fin_cases i <;> first | exact a | exact b | exact d
theorem cubeQ_n (k : Fin 6) : ptOf (xyz (cubeQ k : V4 (F32 P))) = ![![1, 0, 0], ![-1, 0, 0], ![0, 1, 0], ![0, -1, 0], ![0, 0, 1], ![0, 0, -1]] k := by
  have a := Loc.v0 (P := P); have b := Loc.v1 (P := P); have d := Loc.vn (P := P)
  fin_cases k <;> (funext i; fin_cases i <;> first | exact a | exact b | exact d)
theorem cubeQ_d (k : Fin 6) : vals (cubeQ k : V4 (F32 P)) 3 = -1 := by
  have d := Loc.vn (P := P)
  fin_cases k <;> exact d
theorem cubeQ_len (k : Fin 6) : len (ptOf (xyz (cubeQ k : V4 (F32 P)))) = 1 := by
  have h : len (ptOf (xyz (cubeQ k : V4 (F32 P)))) ^ 2 = 1 := by
    rw [sq, len_sq, cubeQ_n]
    fin_cases k <;> simp [dotProduct, Fin.sum_univ_three]
  have := len_nonneg (ptOf (xyz (cubeQ k : V4 (F32 P))))
  nlinarith
theorem cubeQ_size (k : Fin 6) : planeSize (cubeQ k : V4 (F32 P)) 0 = 1 + 4 * tiny := by
  unfold planeSize; rw [cubeQ_d]; simp
end Six
/-! The hypotheses are met: the sphere of radius 1/2 about the origin is reported inside the six faces of the cube of half-size 1, in every build. -/
example (c : Cfg) : BoundingSphere.ContainedBy c ⟨Loc.o3, Loc.fl 0x3F000000#32⟩ (Six.cubeQ 0 : V4 (F32 P)) (Six.cubeQ 1) (Six.cubeQ 2) (Six.cubeQ 3) (Six.cubeQ 4) (Six.cubeQ 5) = .CONTAINS := by
  have r2 : value (⟨Loc.o3, Loc.fl 0x3F000000#32⟩ : BoundingSphere (F32 P)).Radius.bits = 1/2 := Loc.vh
  have fs : FinSphere (⟨Loc.o3, Loc.fl 0x3F000000#32⟩ : BoundingSphere (F32 P)) := ⟨Loc.fo3, (by decide : IsFinite 0x3F000000#32)⟩
  have cs : ptOf (⟨Loc.o3, Loc.fl 0x3F000000#32⟩ : BoundingSphere (F32 P)).Center = 0 := Loc.po3
  have t1 : tiny ≤ 1 := by unfold tiny; norm_num
  have g4 : gam 4 ≤ 239 / 10^9 := Drift.gam4
  refine (C138_sphere c _ Six.cubeQ 0 fs Six.cubeQ_fin (by rw [r2]; norm_num) (fun k => by rw [Six.cubeQ_len]; norm_num) (fun k => by rw [cs, Six.cubeQ_size]; norm_num; linarith)).2.2.1 fun k p hp => ?_
  rw [r2, cs, mem_ball, sub_zero] at hp
  simp only [r2, cs, Six.cubeQ_size, Six.cubeQ_d]
  have h1 := cs_abs (ptOf (xyz (Six.cubeQ k : V4 (F32 P)))) p
  rw [Six.cubeQ_len, one_mul] at h1
  have h2 := le_abs_self (ptOf (xyz (Six.cubeQ k : V4 (F32 P))) ⬝ᵥ p)
  have h3 : gam 4 * (1 + 4 * tiny) ≤ 239 / 10^9 * 5 := mul_le_mul g4 (by linarith) (by unfold tiny; positivity) (by norm_num)
  unfold Spec.planeAt
  norm_num at h3 ⊢
  linarith
/-- The box of half-size 1/2 too. -/
example (c : Cfg) : BoundingBox.ContainedBy c ⟨Loc.o3, ⟨Loc.fl 0x3F000000#32, Loc.fl 0x3F000000#32, Loc.fl 0x3F000000#32⟩⟩ (Six.cubeQ 0 : V4 (F32 P)) (Six.cubeQ 1) (Six.cubeQ 2) (Six.cubeQ 3) (Six.cubeQ 4) (Six.cubeQ 5) = .CONTAINS := by
  have eh : ∀ i, ptOf (⟨Loc.fl 0x3F000000#32, Loc.fl 0x3F000000#32, Loc.fl 0x3F000000#32⟩ : F3 (F32 P)) i = 1/2 := by intro i; fin_cases i <;> exact Loc.vh
  have fh : Fin3 (⟨Loc.fl 0x3F000000#32, Loc.fl 0x3F000000#32, Loc.fl 0x3F000000#32⟩ : F3 (F32 P)) := ⟨(by decide : IsFinite 0x3F000000#32), (by decide : IsFinite 0x3F000000#32), (by decide : IsFinite 0x3F000000#32)⟩
  have cs : ptOf (Loc.o3 : F3 (F32 P)) = 0 := Loc.po3
  have t0 : 0 < tiny := tiny_pos
  have t1 : tiny ≤ 1 := by unfold tiny; norm_num
  have g4 : gam 4 ≤ 239 / 10^9 := Drift.gam4
  have g3 : gam 3 ≤ 239 / 10^9 := by unfold gam ulp2; norm_num
  have sm : ∀ k, |vals (Six.cubeQ k : V4 (F32 P)) 0| + |vals (Six.cubeQ k : V4 (F32 P)) 1| + |vals (Six.cubeQ k : V4 (F32 P)) 2| = 1 := fun k => by
    have h : ∀ i : Fin 3, vals (Six.cubeQ k : V4 (F32 P)) i.castSucc = ptOf (xyz (Six.cubeQ k : V4 (F32 P))) i := fun i => by fin_cases i <;> rfl
    have h0 := h 0; have h1 := h 1; have h2 := h 2
    rw [Six.cubeQ_n] at h0 h1 h2
    rw [show vals (Six.cubeQ k : V4 (F32 P)) 0 = _ from h0, show vals (Six.cubeQ k : V4 (F32 P)) 1 = _ from h1, show vals (Six.cubeQ k : V4 (F32 P)) 2 = _ from h2]
    fin_cases k <;> simp
  refine (C138_box c ⟨Loc.o3, ⟨Loc.fl 0x3F000000#32, Loc.fl 0x3F000000#32, Loc.fl 0x3F000000#32⟩⟩ Six.cubeQ ⟨Loc.fo3, fh⟩ Six.cubeQ_fin (fun i => by rw [eh]; norm_num) (fun k => by rw [cs, Six.cubeQ_size]; norm_num; linarith)
    (fun k => by rw [eh, eh, eh]; have := sm k; norm_num; linarith)).2.2.1 fun k p hp => ?_
  simp only [cs, eh, Six.cubeQ_size, Six.cubeQ_d]
  have q : ∀ i, |p i| ≤ 1/2 := fun i => by have := hp i; rw [cs, eh] at this; simpa using this
  have h3 : gam 4 * (1 + 4 * tiny) ≤ 239 / 10^9 * 5 := mul_le_mul g4 (by linarith) (by unfold tiny; positivity) (by norm_num)
  have h4 : gam 3 * (1 / 2 * |vals (Six.cubeQ k : V4 (F32 P)) 0| + 1 / 2 * |vals (Six.cubeQ k : V4 (F32 P)) 1| + 1 / 2 * |vals (Six.cubeQ k : V4 (F32 P)) 2| + 3 * tiny) ≤ 239 / 10^9 * 5 :=
    mul_le_mul g3 (by have := sm k; linarith) (by positivity) (by norm_num)
  have h5 : ptOf (xyz (Six.cubeQ k : V4 (F32 P))) ⬝ᵥ p ≤ 1/2 := by
    rw [Six.cubeQ_n]
    have a0 := abs_le.1 (q 0); have a1 := abs_le.1 (q 1); have a2 := abs_le.1 (q 2)
    fin_cases k <;> simp [dotProduct, Fin.sum_univ_three] <;> norm_num at * <;> linarith
  unfold Spec.planeAt
  norm_num at h3 h4 h5 ⊢
  linarith
namespace Six
def exT : Fin 3 → V4 (F32 P) := ![⟨Loc.fl 0x3F000000#32, Loc.fl 0#32, Loc.fl 0#32, Loc.fl 0#32⟩, ⟨Loc.fl 0#32, Loc.fl 0x3F000000#32, Loc.fl 0#32, Loc.fl 0#32⟩, ⟨Loc.fl 0#32, Loc.fl 0#32, Loc.fl 0x3F000000#32, Loc.fl 0#32⟩]
theorem exT_pt (j : Fin 3) : ptOf (xyz (exT j : V4 (F32 P))) = ![![1/2, 0, 0], ![0, 1/2, 0], ![0, 0, 1/2]] j := by
  have a := Loc.v0 (P := P); have b := Loc.vh (P := P)
  fin_cases j <;> (funext i; fin_cases i <;> first | exact a | exact b)
end Six
/-- The triangle with vertices (1/2, 0, 0), (0, 1/2, 0) and (0, 0, 1/2) too. -/
example (c : Cfg) : TriangleTests.ContainedBy c (Six.exT 0) (Six.exT 1) (Six.exT 2) (Six.cubeQ 0 : V4 (F32 P)) (Six.cubeQ 1) (Six.cubeQ 2) (Six.cubeQ 3) (Six.cubeQ 4) (Six.cubeQ 5) = .CONTAINS := by
  have a : Fin' (Loc.fl 0#32 : F32 P) := (by decide : IsFinite 0#32)
  have b : Fin' (Loc.fl 0x3F000000#32 : F32 P) := (by decide : IsFinite 0x3F000000#32)
  have t0 : 0 < tiny := tiny_pos
  have t1 : tiny ≤ 1 := by unfold tiny; norm_num
  have g4 : gam 4 ≤ 239 / 10^9 := Drift.gam4
  have g0 : 0 ≤ gam 4 := by unfold gam ulp2; norm_num
  have sz : ∀ k j, planeSize (Six.cubeQ k : V4 (F32 P)) (ptOf (xyz (Six.exT j : V4 (F32 P)))) ≤ 6 := fun k j => by
    have h : ∀ i : Fin 3, vals (Six.cubeQ k : V4 (F32 P)) i.castSucc = ptOf (xyz (Six.cubeQ k : V4 (F32 P))) i := fun i => by fin_cases i <;> rfl
    have h0 := h 0; have h1 := h 1; have h2 := h 2
    rw [Six.cubeQ_n] at h0 h1 h2
    unfold planeSize
    rw [show vals (Six.cubeQ k : V4 (F32 P)) 0 = _ from h0, show vals (Six.cubeQ k : V4 (F32 P)) 1 = _ from h1, show vals (Six.cubeQ k : V4 (F32 P)) 2 = _ from h2, Six.cubeQ_d, Six.exT_pt]
    fin_cases k <;> fin_cases j <;> simp <;> norm_num <;> linarith
  refine (C138_triangle c Six.exT Six.cubeQ (fun _ => 1/100) (fun j i hi => by fin_cases j <;> fin_cases i <;> first | exact a | exact b | exact absurd hi (by decide)) Six.cubeQ_fin
    (fun k j => (sz k j).trans (by norm_num)) (fun k j => (mul_le_mul g4 (sz k j) (by unfold planeSize; positivity) (by norm_num)).trans (by norm_num))).2.2.1 ?_
  intro k p hp
  obtain ⟨x, y, w, hx, hy, hw, h1, h2⟩ := Six.tri_at (n := ptOf (xyz (Six.cubeQ k : V4 (F32 P)))) (d := vals (Six.cubeQ k : V4 (F32 P)) 3) hp
  simp only [h2]
  have q : ∀ j, Spec.planeAt (ptOf (xyz (Six.cubeQ k : V4 (F32 P)))) (vals (Six.cubeQ k : V4 (F32 P)) 3) (ptOf (xyz (Six.exT j : V4 (F32 P)))) ≤ -1/2 := fun j => by
    rw [Six.cubeQ_n, Six.exT_pt, Six.cubeQ_d]; unfold Spec.planeAt
    fin_cases k <;> fin_cases j <;> simp [dotProduct, Fin.sum_univ_three] <;> norm_num
  have := mul_le_mul_of_nonneg_left (q 0) hx; have := mul_le_mul_of_nonneg_left (q 1) hy; have := mul_le_mul_of_nonneg_left (q 2) hw
  norm_num at *
  linarith
end DXM.Props
