import Verif.Props.Repro
import Verif.Lemmas.FSym
import Verif.Lemmas.FExact

/-
C125: symmetries that survive rounding, in every build and for every bit pattern, and one that does not survive fused multiply-add.
-/

set_option linter.all false

namespace DXM.Props
open DXM.Spec
variable {P : Env}

theorem splatS {a b : F32 P} (h : Same a b) : SameV (.splat a) (.splat b) := ⟨h, h, h, h⟩
theorem splatN {a b : F32 P} (h : SameNum a b) : SameNumV (.splat a) (.splat b) := ⟨h, h, h, h⟩

theorem dot2_lanes (c : Cfg) (A B : V4 (F32 P)) : XMVector2Dot c A B = .splat (Lane.add (Lane.mul A.x B.x) (Lane.mul A.y B.y)) := by
  unfold XMVector2Dot; split_ifs <;> simp only [sum3ss, Bool.and_self, Bool.and_false, Bool.false_and, Bool.false_eq_true, if_true, if_false, SSE.dp7f, SSE.add_ss, SSE.mul, SSE.add, SSE.perm, SSE.shuffle, V4.map2, V4.lane, V4.splat]
theorem dot3_lanes (c : Cfg) (A B : V4 (F32 P)) : XMVector3Dot c A B = .splat (if c.sse && c.sse4 then
    Lane.add (Lane.add (Lane.mul A.x B.x) (Lane.mul A.y B.y)) (Lane.add (Lane.mul A.z B.z) Lane.c0) else
    Lane.add (Lane.add (Lane.mul A.x B.x) (Lane.mul A.y B.y)) (Lane.mul A.z B.z)) := by
  unfold XMVector3Dot
  cases c.sse <;> cases c.sse4 <;> simp only [sum3ss, Bool.and_self, Bool.and_false, Bool.false_and, Bool.false_eq_true, if_true, if_false, SSE.dp7f, SSE.add_ss, SSE.mul, SSE.add, SSE.perm, SSE.shuffle, V4.map2, V4.lane, V4.splat]
theorem dot4_lanes (c : Cfg) : ∃ f : F32 P → F32 P → F32 P → F32 P → F32 P,
    (∀ x y z w x' y' z' w', Same x x' → Same y y' → Same z z' → Same w w' → Same (f x y z w) (f x' y' z' w')) ∧
    (∀ x y z w x' y' z' w', SameNum x x' → SameNum y y' → SameNum z z' → SameNum w w' → SameNum (f x y z w) (f x' y' z' w')) ∧
    (∀ A B : V4 (F32 P), XMVector4Dot c A B = .splat (f (Lane.mul A.x B.x) (Lane.mul A.y B.y) (Lane.mul A.z B.z) (Lane.mul A.w B.w))) := by
  cases h1 : c.sse
  · refine ⟨fun x y z w => Lane.add (Lane.add (Lane.add x y) z) w, fun x y z w x' y' z' w' a b d e => ((a.add b).add d).add e,
      fun x y z w x' y' z' w' a b d e => ((a.add b).add d).add e, fun A B => ?_⟩
    unfold XMVector4Dot; rw [h1]; simp only [Bool.false_eq_true, if_true, if_false, SSE.dpff, SSE.hadd, SSE.mul, SSE.add, SSE.perm, SSE.shuffle, V4.map2, V4.lane, V4.splat]
  · cases h2 : c.sse4
    · cases h3 : c.sse3
      · refine ⟨fun x y z w => Lane.add (Lane.add y w) (Lane.add x z), fun x y z w x' y' z' w' a b d e => (b.add e).add (a.add d),
          fun x y z w x' y' z' w' a b d e => (b.add e).add (a.add d), fun A B => ?_⟩
        unfold XMVector4Dot; rw [h1, h2, h3]; simp only [Bool.false_eq_true, if_true, if_false, SSE.dpff, SSE.hadd, SSE.mul, SSE.add, SSE.perm, SSE.shuffle, V4.map2, V4.lane, V4.splat]
      · refine ⟨fun x y z w => Lane.add (Lane.add x y) (Lane.add z w), fun x y z w x' y' z' w' a b d e => (a.add b).add (d.add e),
          fun x y z w x' y' z' w' a b d e => (a.add b).add (d.add e), fun A B => ?_⟩
        unfold XMVector4Dot; rw [h1, h2, h3]; simp only [Bool.false_eq_true, if_true, if_false, SSE.dpff, SSE.hadd, SSE.mul, SSE.add, SSE.perm, SSE.shuffle, V4.map2, V4.lane, V4.splat]
    · refine ⟨fun x y z w => Lane.add (Lane.add x y) (Lane.add z w), fun x y z w x' y' z' w' a b d e => (a.add b).add (d.add e),
        fun x y z w x' y' z' w' a b d e => (a.add b).add (d.add e), fun A B => ?_⟩
      unfold XMVector4Dot; rw [h1, h2]; simp only [Bool.false_eq_true, if_true, if_false, SSE.dpff, SSE.hadd, SSE.mul, SSE.add, SSE.perm, SSE.shuffle, V4.map2, V4.lane, V4.splat]

/-- Two vectors whose squared lanes are the same numbers. -/
def Sq (V W : V4 (F32 P)) : Prop := SameNum (Lane.mul V.x V.x) (Lane.mul W.x W.x) ∧ SameNum (Lane.mul V.y V.y) (Lane.mul W.y W.y) ∧
  SameNum (Lane.mul V.z V.z) (Lane.mul W.z W.z) ∧ SameNum (Lane.mul V.w V.w) (Lane.mul W.w W.w)
/-- Unfold the length functions to lanes. -/
macro "lens" : tactic => `(tactic| (
  simp only [XMVector2LengthSq, XMVector3LengthSq, XMVector4LengthSq, XMVector2Length, XMVector3Length, XMVector4Length, XMVectorSqrt, XMVector2Dot, XMVector3Dot, XMVector4Dot, lengthSq4]
  split_ifs <;>
  simp only [sum3ss, sum3ss', sum3h, sum4h, sum4ss, g_XMMask3, SSE.dp3f, SSE.dp7f, SSE.dpff, SSE.hadd, SSE.and, SSE.mul, SSE.add, SSE.add_ss, SSE.sqrt, SSE.sqrt_ss, SSE.perm, SSE.shuffle,
    V4.splat, V4.map, V4.map2, V4.lane, LawfulLane.band_ones_right, LawfulLane.band_zero_right] <;>
  (refine ⟨?_, ?_, ?_, ?_⟩ <;> snum)))
theorem lenSq_congr (c : Cfg) {V W : V4 (F32 P)} (h : Sq V W) :
    SameNumV (XMVector2LengthSq c V) (XMVector2LengthSq c W) ∧ SameNumV (XMVector3LengthSq c V) (XMVector3LengthSq c W) ∧ SameNumV (XMVector4LengthSq c V) (XMVector4LengthSq c W) := by
  obtain ⟨h1, h2, h3, h4⟩ := h
  refine ⟨?_, ?_, ?_⟩
  · rw [XMVector2LengthSq, XMVector2LengthSq, dot2_lanes, dot2_lanes]; exact splatN (h1.add h2)
  · rw [XMVector3LengthSq, XMVector3LengthSq, dot3_lanes, dot3_lanes]
    split_ifs
    · exact splatN ((h1.add h2).add (h3.add SameNum.rfl'))
    · exact splatN ((h1.add h2).add h3)
  · obtain ⟨f, -, hf, e⟩ := dot4_lanes (P := P) c
    rw [XMVector4LengthSq, XMVector4LengthSq, e, e]; exact splatN (hf _ _ _ _ _ _ _ _ h1 h2 h3 h4)
theorem len2_congr (c : Cfg) {V W : V4 (F32 P)} (h : Sq V W) : SameNumV (XMVector2Length c V) (XMVector2Length c W) := by
  obtain ⟨h1, h2, h3, h4⟩ := h
  lens
theorem len3_congr (c : Cfg) {V W : V4 (F32 P)} (h : Sq V W) : SameNumV (XMVector3Length c V) (XMVector3Length c W) := by
  obtain ⟨h1, h2, h3, h4⟩ := h
  lens
theorem len4_congr (c : Cfg) {V W : V4 (F32 P)} (h : Sq V W) : SameNumV (XMVector4Length c V) (XMVector4Length c W) := by
  obtain ⟨h1, h2, h3, h4⟩ := h
  lens
theorem sq_sub (A B : V4 (F32 P)) : Sq (XMVectorSubtract A B) (XMVectorSubtract B A) :=
  ⟨SameNum.sq_congr (SameNum.sub_anti _ _), SameNum.sq_congr (SameNum.sub_anti _ _), SameNum.sq_congr (SameNum.sub_anti _ _), SameNum.sq_congr (SameNum.sub_anti _ _)⟩
theorem negate_num (c : Cfg) (V : V4 (F32 P)) : SameNumV (XMVectorNegate c V) (V.map Lane.neg) := by
  unfold XMVectorNegate
  split_ifs
  · exact ⟨SameNum.zero_sub _, SameNum.zero_sub _, SameNum.zero_sub _, SameNum.zero_sub _⟩
  · exact ⟨SameNum.rfl', SameNum.rfl', SameNum.rfl', SameNum.rfl'⟩
theorem sq_negate (c : Cfg) (V : V4 (F32 P)) : Sq (XMVectorNegate c V) V := by
  obtain ⟨h1, h2, h3, h4⟩ := negate_num c V
  exact ⟨SameNum.sq_congr h1, SameNum.sq_congr h2, SameNum.sq_congr h3, SameNum.sq_congr h4⟩

/-- C125: the dot product of two vectors does not depend on their order: the same bits (or NaN both times) in every build, for all bit patterns. -/
theorem C125_dot_symmetric (c : Cfg) (A B : V4 (F32 P)) :
    SameV (XMVector2Dot c A B) (XMVector2Dot c B A) ∧ SameV (XMVector3Dot c A B) (XMVector3Dot c B A) ∧ SameV (XMVector4Dot c A B) (XMVector4Dot c B A) := by
  refine ⟨?_, ?_, ?_⟩
  · rw [dot2_lanes, dot2_lanes]; exact splatS ((Same.mul_comm _ _).add (Same.mul_comm _ _))
  · rw [dot3_lanes, dot3_lanes]
    split_ifs
    · exact splatS (((Same.mul_comm _ _).add (Same.mul_comm _ _)).add ((Same.mul_comm _ _).add Same.rfl'))
    · exact splatS (((Same.mul_comm _ _).add (Same.mul_comm _ _)).add (Same.mul_comm _ _))
  · obtain ⟨f, hf, -, e⟩ := dot4_lanes (P := P) c
    rw [e, e]; exact splatS (hf _ _ _ _ _ _ _ _ (Same.mul_comm _ _) (Same.mul_comm _ _) (Same.mul_comm _ _) (Same.mul_comm _ _))

/-- C125: the distance from `A` to `B` is the distance from `B` to `A`, and its square too: the same number in every build, for all bit patterns. -/
theorem C125_distance_symmetric (c : Cfg) (A B : V4 (F32 P)) :
    SameNumV (XMVector2Length c (XMVectorSubtract A B)) (XMVector2Length c (XMVectorSubtract B A)) ∧
    SameNumV (XMVector3Length c (XMVectorSubtract A B)) (XMVector3Length c (XMVectorSubtract B A)) ∧
    SameNumV (XMVector4Length c (XMVectorSubtract A B)) (XMVector4Length c (XMVectorSubtract B A)) ∧
    SameNumV (XMVector2LengthSq c (XMVectorSubtract A B)) (XMVector2LengthSq c (XMVectorSubtract B A)) ∧
    SameNumV (XMVector3LengthSq c (XMVectorSubtract A B)) (XMVector3LengthSq c (XMVectorSubtract B A)) ∧
    SameNumV (XMVector4LengthSq c (XMVectorSubtract A B)) (XMVector4LengthSq c (XMVectorSubtract B A)) :=
  ⟨len2_congr c (sq_sub A B), len3_congr c (sq_sub A B), len4_congr c (sq_sub A B), lenSq_congr c (sq_sub A B)⟩

/-- C125: a vector and its opposite have the same length. -/
theorem C125_length_negate (c : Cfg) (V : V4 (F32 P)) :
    SameNumV (XMVector2Length c (XMVectorNegate c V)) (XMVector2Length c V) ∧ SameNumV (XMVector3Length c (XMVectorNegate c V)) (XMVector3Length c V) ∧
    SameNumV (XMVector4Length c (XMVectorNegate c V)) (XMVector4Length c V) :=
  ⟨len2_congr c (sq_negate c V), len3_congr c (sq_negate c V), len4_congr c (sq_negate c V)⟩

/-- C125: subtraction taken the other way round is the opposite number. -/
theorem C125_subtract_antisymmetric (c : Cfg) (A B : V4 (F32 P)) : SameNumV (XMVectorSubtract A B) (XMVectorNegate c (XMVectorSubtract B A)) := by
  have h := negate_num c (XMVectorSubtract B A)
  exact ⟨(SameNum.sub_anti _ _).trans h.1.symm, (SameNum.sub_anti _ _).trans h.2.1.symm, (SameNum.sub_anti _ _).trans h.2.2.1.symm, (SameNum.sub_anti _ _).trans h.2.2.2.symm⟩

theorem cross_anti_noi (A B : V4 (F32 P)) : SameNumV (XMVector3Cross noi A B) ((XMVector3Cross noi B A).map Lane.neg) := by
  have k : ∀ p q r s : F32 P, SameNum (Lane.sub (Lane.mul p q) (Lane.mul r s)) (Lane.neg (Lane.sub (Lane.mul s r) (Lane.mul q p))) := fun p q r s =>
    (SameNum.sub (SameNum.of_same (Same.mul_comm _ _)) (SameNum.of_same (Same.mul_comm _ _))).trans (SameNum.sub_anti _ _)
  exact ⟨k _ _ _ _, k _ _ _ _, k _ _ _ _, SameNum.zeros (by show IEEE.mag 0#32 = 0; decide +kernel) (by show IEEE.mag (IEEE.neg 0#32) = 0; decide +kernel)⟩
/-- C125: without fused multiply-add the cross product changes sign, and nothing else, when its arguments are exchanged; the plane cross product does so in every build. -/
theorem C125_cross_antisymmetric (c : Cfg) (A B : V4 (F32 P)) :
    (c.fma = false → SameNumV (XMVector3Cross c A B) (XMVectorNegate c (XMVector3Cross c B A))) ∧
    SameNumV (XMVector2Cross c A B) (XMVectorNegate c (XMVector2Cross c B A)) := by
  constructor
  · intro hf
    have h := negate_num c (XMVector3Cross c B A)
    have h1 := XMVector3Cross_noi c hf A B; have h2 := XMVector3Cross_noi c hf B A
    have k := cross_anti_noi A B
    exact ⟨(SameNum.of_same h1.1).trans (k.1.trans ((SameNum.of_same h2.1.symm).neg.trans h.1.symm)),
      (SameNum.of_same h1.2.1).trans (k.2.1.trans ((SameNum.of_same h2.2.1.symm).neg.trans h.2.1.symm)),
      (SameNum.of_same h1.2.2.1).trans (k.2.2.1.trans ((SameNum.of_same h2.2.2.1.symm).neg.trans h.2.2.1.symm)),
      (SameNum.of_same h1.2.2.2).trans (k.2.2.2.trans ((SameNum.of_same h2.2.2.2.symm).neg.trans h.2.2.2.symm))⟩
  · have h := negate_num c (XMVector2Cross c B A)
    have k : ∀ A B : V4 (F32 P), SameNumV (XMVector2Cross c A B) (.splat (Lane.sub (Lane.mul A.x B.y) (Lane.mul A.y B.x))) := by
      intro A B; unfold XMVector2Cross; split_ifs
      · exact splatN (SameNum.of_same ((Same.mul_comm _ _).sub (Same.mul_comm _ _)))
      · exact splatN SameNum.rfl'
    have e : SameNum (Lane.sub (Lane.mul A.x B.y) (Lane.mul A.y B.x)) (Lane.neg (Lane.sub (Lane.mul B.x A.y) (Lane.mul B.y A.x))) :=
      (SameNum.sub (SameNum.of_same (Same.mul_comm _ _)) (SameNum.of_same (Same.mul_comm _ _))).trans (SameNum.sub_anti _ _)
    have k1 := k A B; have k2 := k B A
    exact ⟨k1.1.trans (e.trans (k2.1.symm.neg.trans h.1.symm)), k1.2.1.trans (e.trans (k2.2.1.symm.neg.trans h.2.1.symm)),
      k1.2.2.1.trans (e.trans (k2.2.2.1.symm.neg.trans h.2.2.1.symm)), k1.2.2.2.trans (e.trans (k2.2.2.2.symm.neg.trans h.2.2.2.symm))⟩
example : noi.fma = false ∧ sse2.fma = false := ⟨rfl, rfl⟩

theorem sub_self_zero {x y : F32 P} (h : Same x y) (hf : IsFinite x.bits) : SameNum (Lane.sub x y) (Lane.ofBits 0#32) := by
  rcases h with h | h
  · have e : y = x := h.symm
    rw [e]
    have hx := FErr.ex_leaf (a := x) hf
    exact ((FErr.ex_sub hx hx (by rw [sub_self]; exact FErr.isF_zero)).eq (sub_self _)).sameNum FErr.ex_zero
  · exact absurd h.1 (IEEE.not_nan_of_finite hf)
/-- C125: without fused multiply-add the cross product of a vector with itself is exactly zero unless a product of two of its coordinates overflows. -/
theorem C125_cross_self (c : Cfg) (hc : c.fma = false) (A : V4 (F32 P)) (hyz : IsFinite (Lane.mul A.y A.z).bits) (hzx : IsFinite (Lane.mul A.z A.x).bits) (hxy : IsFinite (Lane.mul A.x A.y).bits) :
    SameNumV (XMVector3Cross c A A) ⟨Lane.c0, Lane.c0, Lane.c0, Lane.c0⟩ := by
  have h := XMVector3Cross_noi c hc A A
  exact ⟨(SameNum.of_same h.1).trans (sub_self_zero (Same.mul_comm _ _) hyz), (SameNum.of_same h.2.1).trans (sub_self_zero (Same.mul_comm _ _) hzx),
    (SameNum.of_same h.2.2.1).trans (sub_self_zero (Same.mul_comm _ _) hxy), (SameNum.of_same h.2.2.2).trans SameNum.rfl'⟩
example : IsFinite (Lane.mul (Lane.ofBits 0x40400000#32 : F32 P) (Lane.ofBits 0xC0000000#32)).bits := by
  rw [ev_mul _ _ 0xC0C00000#32 (by decide +kernel) (by decide +kernel)]; exact (IEEE.finite_iff' 0xC0C00000#32).2 (by decide +kernel)
/-- C125: with fused multiply-add it is not: the third coordinate of `A × A` is `-2^-46` for `A = (1 + 2^-23, 1 + 2^-23, 0)`, so exchanging equal arguments does not change the sign either. -/
theorem C125_cross_self_fma : ∃ A : V4 (F32 P), (XMVector3Cross sse2fma A A).z = Lane.ofBits 0xA8800000#32 ∧
    ¬ SameNum (XMVector3Cross sse2fma A A).z Lane.c0 ∧ ¬ SameNum (XMVector3Cross sse2fma A A).z (Lane.neg (XMVector3Cross sse2fma A A).z) := by
  refine ⟨⟨Lane.ofBits 0x3F800001#32, Lane.ofBits 0x3F800001#32, Lane.ofBits 0#32, Lane.ofBits 0#32⟩, ?_⟩
  have e : (XMVector3Cross sse2fma (⟨Lane.ofBits 0x3F800001#32, Lane.ofBits 0x3F800001#32, Lane.ofBits 0#32, Lane.ofBits 0#32⟩ : V4 (F32 P))
      ⟨Lane.ofBits 0x3F800001#32, Lane.ofBits 0x3F800001#32, Lane.ofBits 0#32, Lane.ofBits 0#32⟩).z = Lane.ofBits 0xA8800000#32 := by
    have e1 : ∀ p q r s : F32 P, (XMVector3Cross sse2fma (⟨p, q, r, s⟩ : V4 (F32 P)) ⟨p, q, r, s⟩).z = Lane.band (Lane.fnma q p (Lane.mul p q)) (Lane.ofBits 0xFFFFFFFF#32) := fun _ _ _ _ => rfl
    rw [e1, LawfulLane.band_ones_right, ev_mul _ _ 0x3F800002#32 (by decide +kernel) (by decide +kernel), ev_fnma _ _ _ 0xA8800000#32 (by decide +kernel) (by decide +kernel)]
  rw [e]
  exact ⟨rfl, differ _ _ (by decide +kernel), differ 0xA8800000#32 (IEEE.neg 0xA8800000#32) (by decide +kernel)⟩

end DXM.Props
