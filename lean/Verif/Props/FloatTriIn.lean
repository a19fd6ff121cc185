import Verif.Props.FloatCorners

/-
C147: triangles reported as contained, on binary32 lanes.
-/

set_option linter.all false

namespace DXM.Props
open DXM.Spec DXM.FErr DXM.IEEE DXM.RG Matrix
variable {P : Env}

namespace TriIn
theorem ones_iff (b : Bool) : (Lane.mask b : F32 P).bits = 0xFFFFFFFF#32 ↔ b = true := by
  cases b
  · exact iff_of_false (by show ¬ (0#32 = 0xFFFFFFFF#32); decide) (by decide)
  · exact iff_of_true rfl rfl
/-- The mask of three comparisons is full exactly when all three hold in the first three lanes. -/
theorem inside (c : Cfg) (A0 A1 A2 B : V4 (F32 P)) :
    XMVector3EqualInt c (XMVectorAndInt (XMVectorAndInt (XMVectorLessOrEqual A0 B) (XMVectorLessOrEqual A1 B)) (XMVectorLessOrEqual A2 B)) XMVectorTrueInt = true ↔
      ∀ i : Fin 4, i.val < 3 → Lane.le (A0.lane i) (B.lane i) = true ∧ Lane.le (A1.lane i) (B.lane i) = true ∧ Lane.le (A2.lane i) (B.lane i) = true := by
  rw [(C09_vector3 c _ _).2.2.2.2.2.1]
  refine forall_congr' fun i => forall_congr' fun _ => ?_
  have e : (XMVectorAndInt (XMVectorAndInt (XMVectorLessOrEqual A0 B) (XMVectorLessOrEqual A1 B)) (XMVectorLessOrEqual A2 B)).lane i =
      Lane.band (Lane.band (Lane.mask (Lane.le (A0.lane i) (B.lane i))) (Lane.mask (Lane.le (A1.lane i) (B.lane i)))) (Lane.mask (Lane.le (A2.lane i) (B.lane i))) := by fin_cases i <;> rfl
  have t : ((XMVectorTrueInt : V4 (F32 P)).lane i).bits = 0xFFFFFFFF#32 := by fin_cases i <;> rfl
  rw [e, t, Lane.band_mask_mask, Lane.band_mask_mask]
  show _ = _ ↔ _
  rw [ones_iff, Bool.and_eq_true, Bool.and_eq_true, and_assoc]
theorem le3 (c : Cfg) (A B : V4 (F32 P)) : XMVector3LessOrEqual c A B = true ↔ ∀ i : Fin 4, i.val < 3 → Lane.le (A.lane i) (B.lane i) = true := by
  rw [(C09_vector3 c A B).2.2.2.2.1]
  exact forall_congr' fun i => forall_congr' fun _ => (le_iff' _ _).symm
theorem tri_ball {a v0 v1 v2 : Pt} {r : ℝ} (h0 : v0 ∈ ball a r) (h1 : v1 ∈ ball a r) (h2 : v2 ∈ ball a r) : tri v0 v1 v2 ⊆ ball a r := by
  rintro p ⟨x, y, z, hx, hy, hz, hs, rfl⟩
  rw [mem_ball] at *
  have e : x • v0 + y • v1 + z • v2 - a = x • (v0 - a) + (y • (v1 - a) + z • (v2 - a)) := by
    have : a = (x + y + z) • a := by rw [hs, one_smul]
    nth_rewrite 1 [this]
    module
  rw [e]
  have n : ∀ u w : Pt, len (u + w) ≤ len u + len w := fun u w => by
    have := len_sub_le (u + w) w 0
    rwa [add_sub_cancel_right, sub_zero, sub_zero] at this
  have k1 := n (x • (v0 - a)) (y • (v1 - a) + z • (v2 - a))
  have k2 := n (y • (v1 - a)) (z • (v2 - a))
  rw [len_smul, abs_of_nonneg hx] at k1
  rw [len_smul, len_smul, abs_of_nonneg hy, abs_of_nonneg hz] at k2
  have l0 := mul_le_mul_of_nonneg_left h0 hx
  have l1 := mul_le_mul_of_nonneg_left h1 hy
  have l2 := mul_le_mul_of_nonneg_left h2 hz
  have : x * r + y * r + z * r = r := by rw [← add_mul, ← add_mul, hs, one_mul]
  linarith
end TriIn

/-- C147: for every bit pattern, a sphere reports a triangle as contained exactly when it reports an intersection and reports the three vertices as contained. -/
theorem C147_sphereTriangle_iff (c : Cfg) (S : BoundingSphere (F32 P)) (V0 V1 V2 : V4 (F32 P)) :
    S.ContainsTriangle c V0 V1 V2 = .CONTAINS ↔
      S.IntersectsTriangle c V0 V1 V2 = true ∧ S.ContainsPoint c V0 = .CONTAINS ∧ S.ContainsPoint c V1 = .CONTAINS ∧ S.ContainsPoint c V2 = .CONTAINS := by
  have k : ∀ V, S.ContainsPoint c V = .CONTAINS ↔ ∀ i : Fin 4, i.val < 3 → Lane.le ((XMVector3LengthSq c (XMVectorSubtract V (load3 S.Center))).lane i)
      ((XMVectorMultiply (XMVectorReplicate S.Radius) (XMVectorReplicate S.Radius) : V4 (F32 P)).lane i) = true := fun V => (contains_iff _).trans (TriIn.le3 c _ _)
  rw [k, k, k]
  unfold BoundingSphere.ContainsTriangle
  by_cases hi : S.IntersectsTriangle c V0 V1 V2 = true
  · rw [hi]
    have := TriIn.inside c (XMVector3LengthSq c (XMVectorSubtract V0 (load3 S.Center))) (XMVector3LengthSq c (XMVectorSubtract V1 (load3 S.Center))) (XMVector3LengthSq c (XMVectorSubtract V2 (load3 S.Center)))
      (XMVectorMultiply (XMVectorReplicate S.Radius) (XMVectorReplicate S.Radius))
    simp only [Bool.not_true, Bool.false_eq_true, if_false, true_and]
    split_ifs with h
    · rw [this] at h
      exact iff_of_true rfl ⟨fun i hi => (h i hi).1, fun i hi => (h i hi).2.1, fun i hi => (h i hi).2.2⟩
    · rw [this] at h
      exact iff_of_false (by decide) fun ⟨h0, h1, h2⟩ => h fun i hi => ⟨h0 i hi, h1 i hi, h2 i hi⟩
  · rw [Bool.not_eq_true] at hi
    rw [hi]
    exact iff_of_false (by simp) (by simp)

/-- C147: the same for boxes. -/
theorem C147_boxTriangle_iff (c : Cfg) (B : BoundingBox (F32 P)) (V0 V1 V2 : V4 (F32 P)) :
    B.ContainsTriangle c V0 V1 V2 = .CONTAINS ↔
      B.IntersectsTriangle c V0 V1 V2 = true ∧ B.ContainsPoint c V0 = .CONTAINS ∧ B.ContainsPoint c V1 = .CONTAINS ∧ B.ContainsPoint c V2 = .CONTAINS := by
  have k : ∀ V, B.ContainsPoint c V = .CONTAINS ↔ ∀ i : Fin 4, i.val < 3 → Lane.le ((XMVectorAbs c (XMVectorSubtract V (load3 B.Center))).lane i) ((load3 B.Extents : V4 (F32 P)).lane i) = true := fun V => by
    refine (contains_iff _).trans ?_
    rw [(C11_predicates c _ (load3 B.Extents) (load3 B.Extents)).2.2.2.2.1]
    refine forall_congr' fun i => forall_congr' fun _ => ?_
    unfold XMVectorAbs
    split_ifs
    · rw [← within_max]
      fin_cases i <;> rfl
    · rw [← within_abs]
      fin_cases i <;> rfl
  rw [k, k, k]
  unfold BoundingBox.ContainsTriangle
  by_cases hi : B.IntersectsTriangle c V0 V1 V2 = true
  · rw [hi]
    have := TriIn.inside c (XMVectorAbs c (XMVectorSubtract V0 (load3 B.Center))) (XMVectorAbs c (XMVectorSubtract V1 (load3 B.Center))) (XMVectorAbs c (XMVectorSubtract V2 (load3 B.Center))) (load3 B.Extents)
    simp only [Bool.not_true, Bool.false_eq_true, if_false, true_and]
    split_ifs with h
    · rw [this] at h
      exact iff_of_true rfl ⟨fun i hi => (h i hi).1, fun i hi => (h i hi).2.1, fun i hi => (h i hi).2.2⟩
    · rw [this] at h
      exact iff_of_false (by decide) fun ⟨h0, h1, h2⟩ => h fun i hi => ⟨h0 i hi, h1 i hi, h2 i hi⟩
  · rw [Bool.not_eq_true] at hi
    rw [hi]
    exact iff_of_false (by simp) (by simp)

namespace TriIn
theorem verts (v0 v1 v2 : Pt) : v0 ∈ tri v0 v1 v2 ∧ v1 ∈ tri v0 v1 v2 ∧ v2 ∈ tri v0 v1 v2 :=
  ⟨⟨1, 0, 0, by norm_num, by norm_num, by norm_num, by norm_num, by simp⟩, ⟨0, 1, 0, by norm_num, by norm_num, by norm_num, by norm_num, by simp⟩, ⟨0, 0, 1, by norm_num, by norm_num, by norm_num, by norm_num, by simp⟩⟩
theorem tri_box {a e v0 v1 v2 : Pt} (h0 : v0 ∈ box a e) (h1 : v1 ∈ box a e) (h2 : v2 ∈ box a e) : tri v0 v1 v2 ⊆ box a e := by
  rintro p ⟨x, y, z, hx, hy, hz, hs, rfl⟩
  rw [mem_box] at *
  intro i
  obtain ⟨a0, b0⟩ := h0 i; obtain ⟨a1, b1⟩ := h1 i; obtain ⟨a2, b2⟩ := h2 i
  have s1 : ∀ d : ℝ, x * d + y * d + z * d = d := fun d => by rw [← add_mul, ← add_mul, hs, one_mul]
  simp only [Pi.add_apply, Pi.smul_apply, smul_eq_mul]
  have m1 := mul_le_mul_of_nonneg_left a0 hx; have m2 := mul_le_mul_of_nonneg_left a1 hy; have m3 := mul_le_mul_of_nonneg_left a2 hz
  have n1 := mul_le_mul_of_nonneg_left b0 hx; have n2 := mul_le_mul_of_nonneg_left b1 hy; have n3 := mul_le_mul_of_nonneg_left b2 hz
  have e1 := s1 (a i - e i); have e2 := s1 (a i + e i)
  exact ⟨by linarith, by linarith⟩
theorem sphere_cases (c : Cfg) (S : BoundingSphere (F32 P)) (V0 V1 V2 : V4 (F32 P)) (h : S.ContainsTriangle c V0 V1 V2 = .INTERSECTS) : S.IntersectsTriangle c V0 V1 V2 = true := by
  by_contra hi
  rw [Bool.not_eq_true] at hi
  unfold BoundingSphere.ContainsTriangle at h
  rw [hi] at h
  simp at h
theorem box_cases (c : Cfg) (B : BoundingBox (F32 P)) (V0 V1 V2 : V4 (F32 P)) (h : B.ContainsTriangle c V0 V1 V2 = .INTERSECTS) : B.IntersectsTriangle c V0 V1 V2 = true := by
  by_contra hi
  rw [Bool.not_eq_true] at hi
  unfold BoundingBox.ContainsTriangle at h
  rw [hi] at h
  simp at h
end TriIn

/-- C147: a triangle with a point outside the sphere with radius enlarged by `2^-21` parts is not reported as contained, and a triangle inside the sphere with radius reduced by
`2^-21` parts is not reported as merely intersecting. -/
theorem C147_sphereTriangle (c : Cfg) (S : BoundingSphere (F32 P)) (V0 V1 V2 : V4 (F32 P)) (hS : FinSphere S) (h0 : Fins 3 V0) (h1 : Fins 3 V1) (h2 : Fins 3 V2)
    (mS : Moderate S.Center) (m0 : Moderate (xyz V0)) (m1 : Moderate (xyz V1)) (m2 : Moderate (xyz V2)) (hr : 1 / 2^50 ≤ value S.Radius.bits) (hr' : value S.Radius.bits ≤ 2^60) :
    let T := tri (ptOf (xyz V0)) (ptOf (xyz V1)) (ptOf (xyz V2))
    (¬ T ⊆ ball (ptOf S.Center) ((1 + 1/2^21) * value S.Radius.bits) → S.ContainsTriangle c V0 V1 V2 ≠ .CONTAINS) ∧
    (T ⊆ ball (ptOf S.Center) ((1 - 1/2^21) * value S.Radius.bits) → S.ContainsTriangle c V0 V1 V2 ≠ .INTERSECTS) := by
  intro T
  have c0 := C98_containsPoint c S V0 hS h0 mS m0 hr hr'
  have c1 := C98_containsPoint c S V1 hS h1 mS m1 hr hr'
  have c2 := C98_containsPoint c S V2 hS h2 mS m2 hr hr'
  refine ⟨fun hn h => hn ?_, fun hn h => ?_⟩
  · obtain ⟨-, a0, a1, a2⟩ := (C147_sphereTriangle_iff c S V0 V1 V2).1 h
    exact TriIn.tri_ball (c0.2 a0) (c1.2 a1) (c2.2 a2)
  · obtain ⟨w0, w1, w2⟩ := TriIn.verts (ptOf (xyz V0)) (ptOf (xyz V1)) (ptOf (xyz V2))
    have := (C147_sphereTriangle_iff c S V0 V1 V2).2 ⟨TriIn.sphere_cases c S V0 V1 V2 h, c0.1 (hn w0), c1.1 (hn w1), c2.1 (hn w2)⟩
    rw [h] at this
    exact absurd this (by decide)

/-- C147: a triangle with a point outside the box with extents enlarged by the relative amount `gam 1 ≈ 2^-24` is not reported as contained, and a triangle inside the box is not
reported as merely intersecting. -/
theorem C147_boxTriangle (c : Cfg) (B : BoundingBox (F32 P)) (V0 V1 V2 : V4 (F32 P)) (hB : FinBox B) (h0 : Fins 3 V0) (h1 : Fins 3 V1) (h2 : Fins 3 V2) :
    let T := tri (ptOf (xyz V0)) (ptOf (xyz V1)) (ptOf (xyz V2))
    (¬ T ⊆ box (ptOf B.Center) ((1 + gam 1) • ptOf B.Extents) → B.ContainsTriangle c V0 V1 V2 ≠ .CONTAINS) ∧
    (T ⊆ box (ptOf B.Center) (ptOf B.Extents) → B.ContainsTriangle c V0 V1 V2 ≠ .INTERSECTS) := by
  intro T
  have c0 := C96_boxContainsPoint c B V0 hB h0
  have c1 := C96_boxContainsPoint c B V1 hB h1
  have c2 := C96_boxContainsPoint c B V2 hB h2
  refine ⟨fun hn h => hn ?_, fun hn h => ?_⟩
  · obtain ⟨-, a0, a1, a2⟩ := (C147_boxTriangle_iff c B V0 V1 V2).1 h
    exact TriIn.tri_box (c0.2 a0) (c1.2 a1) (c2.2 a2)
  · obtain ⟨w0, w1, w2⟩ := TriIn.verts (ptOf (xyz V0)) (ptOf (xyz V1)) (ptOf (xyz V2))
    have := (C147_boxTriangle_iff c B V0 V1 V2).2 ⟨TriIn.box_cases c B V0 V1 V2 h, c0.1 (hn w0), c1.1 (hn w1), c2.1 (hn w2)⟩
    rw [h] at this
    exact absurd this (by decide)

/-! The hypotheses are met: against the sphere of radius 1/2 and the box of half side 1 about the origin, a triangle with the vertex (2, 0, 0) is not contained, and the triangle
shrunk to the origin is not merely intersecting. -/
namespace TriIn
open Loc in
def far : V4 (F32 P) := ⟨fl 0x40000000#32, fl 0#32, fl 0#32, fl 0#32⟩
open Loc in
def zer : V4 (F32 P) := ⟨fl 0#32, fl 0#32, fl 0#32, fl 0#32⟩
theorem fzer : Fins 3 (zer : V4 (F32 P)) := fun i _ => by
  have z : IsFinite 0#32 := by decide
  fin_cases i
  exacts [z, z, z, z]
theorem ffar : Fins 3 (far : V4 (F32 P)) := fun i _ => by
  have z : IsFinite 0#32 := by decide
  have t : IsFinite 0x40000000#32 := by decide
  fin_cases i
  exacts [t, z, z, z]
theorem pzer : ptOf (xyz (zer : V4 (F32 P))) = 0 := Loc.po3
theorem pfar : ptOf (xyz (far : V4 (F32 P))) = ![2, 0, 0] := by
  funext i; fin_cases i
  exacts [Loc.v2, Loc.v0, Loc.v0]
theorem mzer : Moderate (xyz (zer : V4 (F32 P))) := fun i => by rw [pzer]; simp
theorem mfar : Moderate (xyz (far : V4 (F32 P))) := fun i => by rw [pfar]; fin_cases i <;> norm_num [Matrix.cons_val_one]
end TriIn
open Loc TriIn in
example (c : Cfg) : (⟨o3, fl 0x3F000000#32⟩ : BoundingSphere (F32 P)).ContainsTriangle c zer zer far ≠ .CONTAINS ∧ (⟨o3, fl 0x3F000000#32⟩ : BoundingSphere (F32 P)).ContainsTriangle c zer zer zer ≠ .INTERSECTS := by
  have hS : FinSphere (⟨o3, fl 0x3F000000#32⟩ : BoundingSphere (F32 P)) := ⟨fo3, (by decide : IsFinite 0x3F000000#32)⟩
  have rh : value (⟨o3, fl 0x3F000000#32⟩ : BoundingSphere (F32 P)).Radius.bits = 1/2 := vh
  have cc : ptOf (⟨o3, fl 0x3F000000#32⟩ : BoundingSphere (F32 P)).Center = 0 := po3
  have mS : Moderate (⟨o3, fl 0x3F000000#32⟩ : BoundingSphere (F32 P)).Center := fun i => by rw [cc]; simp
  refine ⟨(C147_sphereTriangle c _ zer zer far hS fzer fzer ffar mS mzer mzer mfar (by rw [rh]; norm_num) (by rw [rh]; norm_num)).1 fun h => ?_,
    (C147_sphereTriangle c _ zer zer zer hS fzer fzer fzer mS mzer mzer mzer (by rw [rh]; norm_num) (by rw [rh]; norm_num)).2 ?_⟩
  · have := h (verts _ _ _).2.2
    rw [mem_ball, cc, sub_zero, rh, pfar, len_le_iff (by norm_num)] at this
    norm_num [dotProduct, Fin.sum_univ_three] at this
    nlinarith [mul_self_nonneg ((![2, 0, 0] : Pt) 2)]
  · have : (0 : Pt) ∈ ball (0 : Pt) ((1 - 1/2^21) * (1/2)) := by rw [mem_ball, sub_zero, len_le_iff (by norm_num)]; norm_num
    rw [pzer, cc, rh]
    exact tri_ball this this this
open Loc TriIn in
example (c : Cfg) : (BoxD.one : BoundingBox (F32 P)).ContainsTriangle c zer zer far ≠ .CONTAINS ∧ (BoxD.one : BoundingBox (F32 P)).ContainsTriangle c zer zer zer ≠ .INTERSECTS := by
  refine ⟨(C147_boxTriangle c _ zer zer far BoxD.one_fin fzer fzer ffar).1 fun h => ?_, (C147_boxTriangle c _ zer zer zer BoxD.one_fin fzer fzer fzer).2 ?_⟩
  · have := h (verts _ _ _).2.2 0
    rw [BoxD.one_cen, pfar, Pi.smul_apply, BoxD.one_ext] at this
    have g : gam 1 ≤ 1/2 := by unfold gam ulp2; norm_num
    norm_num at this
    linarith
  · have : (0 : Pt) ∈ box (0 : Pt) (ptOf (BoxD.one : BoundingBox (F32 P)).Extents) := fun i => by rw [BoxD.one_ext]; simp
    rw [pzer, BoxD.one_cen]
    exact tri_box this this this
end DXM.Props
