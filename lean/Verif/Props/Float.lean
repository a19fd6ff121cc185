import Verif.Lemmas.FErr
import Verif.Model.Geom
import Verif.Model.Misc
import Verif.Model.Matrix

/-
Rounding error of the bilinear functions on binary32 lanes (interpretation I), in every build.

`Near r x M k` (Spec/Rounding.lean): as long as `M ≤ 2^127`, `r` is finite and `|r - x| ≤ gam k * M`, where `gam k ≈ k 2^-24`.
-/

set_option linter.all false

namespace DXM.Props
open DXM.Spec DXM.FErr DXM.IEEE
variable {P : Env}

/-- Lanes `0 … n-1` are finite. -/
def Fins (n : ℕ) (A : V4 (F32 P)) : Prop := ∀ i : Fin 4, i.val < n → IsFinite (A.lane i).bits
/-- The numbers in the lanes. -/
noncomputable def vals (A : V4 (F32 P)) (i : Fin 4) : ℝ := value (A.lane i).bits

theorem fins2 {A : V4 (F32 P)} (h : Fins 2 A) : Fin' A.x ∧ Fin' A.y := ⟨h 0 (by decide), h 1 (by decide)⟩
theorem fins3 {A : V4 (F32 P)} (h : Fins 3 A) : Fin' A.x ∧ Fin' A.y ∧ Fin' A.z := ⟨h 0 (by decide), h 1 (by decide), h 2 (by decide)⟩
theorem fins4 {A : V4 (F32 P)} (h : Fins 4 A) : Fin' A.x ∧ Fin' A.y ∧ Fin' A.z ∧ Fin' A.w := ⟨h 0 (by decide), h 1 (by decide), h 2 (by decide), h 3 (by decide)⟩

theorem vals_0 (A : V4 (F32 P)) : vals A 0 = val A.x := rfl
theorem vals_1 (A : V4 (F32 P)) : vals A 1 = val A.y := rfl
theorem vals_2 (A : V4 (F32 P)) : vals A 2 = val A.z := rfl
theorem vals_3 (A : V4 (F32 P)) : vals A 3 = val A.w := rfl

/-- One lane: apply the rules, compare value, magnitude and depth. -/
macro "lane_ap" : tactic => `(tactic| exact Ap.le (by ap) (by simp only [vals_0, vals_1, vals_2, vals_3]; try ring)
  (by simp only [vals_0, vals_1, vals_2, vals_3, abs_mul]; linarith [tiny_pos]) (by norm_num))
/-- The lanes of a vector expression. -/
macro "lanes" "[" f:Lean.Parser.Tactic.simpLemma,* "]" : tactic => `(tactic| (
  refine nearLanes (by norm_num) ?_
  beta_reduce
  simp only [$f,*, SSE.fmadd, SSE.fnmadd, XMVectorMultiplyAdd, XMVectorNegativeMultiplySubtract, XMVectorMultiply, XMVectorSplatX, XMVectorSplatY, XMVectorSplatZ, XMVectorSplatW]
  split_ifs <;>
  simp only [SSE.perm, SSE.shuffle, SSE.add_ss, SSE.sub_ss, SSE.add, SSE.sub, SSE.mul, SSE.hadd, SSE.dp7f, SSE.dpff, SSE.dp3f, sum3ss, sum3ss', V4.splat, V4.map2, V4.map3, V4.lane,
    SSE.and, g_XMMask3, LawfulLane.band_ones_right, LawfulLane.band_zero_right] <;>
  refine ⟨?_, ?_, ?_, ?_⟩ <;> lane_ap))

/-- A vector and a matrix used to show that the hypotheses below are met: (3, -2, 1.5, 1), and the matrix with that vector in every row. -/
def exV : V4 (F32 P) := ⟨Lane.ofBits 0x40400000#32, Lane.ofBits 0xC0000000#32, Lane.ofBits 0x3FC00000#32, Lane.ofBits 0x3F800000#32⟩
def exM : M4 (F32 P) := ⟨exV, exV, exV, exV⟩
theorem exV_fin (n : ℕ) : Fins n (exV : V4 (F32 P)) := by
  intro i _; fin_cases i
  · show IsFinite 0x40400000#32; decide
  · show IsFinite 0xC0000000#32; decide
  · show IsFinite 0x3FC00000#32; decide
  · show IsFinite 0x3F800000#32; decide
theorem exV_vals : vals (exV : V4 (F32 P)) 0 = 3 ∧ vals (exV : V4 (F32 P)) 1 = -2 ∧ vals (exV : V4 (F32 P)) 2 = 3/2 ∧ vals (exV : V4 (F32 P)) 3 = 1 := by
  refine ⟨?_, ?_, ?_, value_one⟩
  · show value 0x40400000#32 = 3
    have e1 : signBit 0x40400000#32 = false := by decide
    have e2 : expField 0x40400000#32 = 128 := by decide
    have e3 : fracField 0x40400000#32 = 4194304 := by decide
    unfold value; rw [e1, e2, e3]; norm_num
  · show value 0xC0000000#32 = -2
    have e1 : signBit 0xC0000000#32 = true := by decide
    have e2 : expField 0xC0000000#32 = 128 := by decide
    have e3 : fracField 0xC0000000#32 = 0 := by decide
    unfold value; rw [e1, e2, e3]; norm_num
  · show value 0x3FC00000#32 = 3/2
    have e1 : signBit 0x3FC00000#32 = false := by decide
    have e2 : expField 0x3FC00000#32 = 127 := by decide
    have e3 : fracField 0x3FC00000#32 = 4194304 := by decide
    unfold value; rw [e1, e2, e3]; norm_num
theorem exM_fin (i : Fin 4) : Fins 4 ((exM : M4 (F32 P)).row i) := by fin_cases i <;> exact exV_fin 4

/-- C93: two-component dot product: two roundings. -/
theorem C93_dot2 (c : Cfg) (A B : V4 (F32 P)) (hA : Fins 2 A) (hB : Fins 2 B) (i : Fin 4) :
    Near ((XMVector2Dot c A B).lane i).bits (vals A 0 * vals B 0 + vals A 1 * vals B 1) (|vals A 0 * vals B 0| + |vals A 1 * vals B 1| + 2 * tiny) 2 := by
  obtain ⟨h1, h2⟩ := fins2 hA; obtain ⟨g1, g2⟩ := fins2 hB
  revert i
  lanes [XMVector2Dot]
/-- C93 on a concrete vector: the squared length of (3, -2) is finite and within `gam 2 * (13 + 2 tiny)` of 13. -/
example (c : Cfg) (i : Fin 4) : IsFinite ((XMVector2Dot c (exV : V4 (F32 P)) exV).lane i).bits ∧
    |value ((XMVector2Dot c (exV : V4 (F32 P)) exV).lane i).bits - 13| ≤ gam 2 * (13 + 2 * tiny) := by
  obtain ⟨e0, e1, e2, e3⟩ := exV_vals (P := P)
  have h := C93_dot2 (P := P) c exV exV (exV_fin 2) (exV_fin 2) i
  rw [e0, e1] at h
  norm_num at h
  refine h ?_
  have : tiny ≤ 1 := by unfold tiny; norm_num
  norm_num; linarith
/-- C93: three-component dot product: three roundings. -/
theorem C93_dot3 (c : Cfg) (A B : V4 (F32 P)) (hA : Fins 3 A) (hB : Fins 3 B) (i : Fin 4) :
    Near ((XMVector3Dot c A B).lane i).bits (vals A 0 * vals B 0 + vals A 1 * vals B 1 + vals A 2 * vals B 2)
      (|vals A 0 * vals B 0| + |vals A 1 * vals B 1| + |vals A 2 * vals B 2| + 3 * tiny) 3 := by
  obtain ⟨h1, h2, h3⟩ := fins3 hA; obtain ⟨g1, g2, g3⟩ := fins3 hB
  revert i
  lanes [XMVector3Dot]
/-- C93: four-component dot product: four roundings. -/
theorem C93_dot4 (c : Cfg) (A B : V4 (F32 P)) (hA : Fins 4 A) (hB : Fins 4 B) (i : Fin 4) :
    Near ((XMVector4Dot c A B).lane i).bits (vals A 0 * vals B 0 + vals A 1 * vals B 1 + vals A 2 * vals B 2 + vals A 3 * vals B 3)
      (|vals A 0 * vals B 0| + |vals A 1 * vals B 1| + |vals A 2 * vals B 2| + |vals A 3 * vals B 3| + 4 * tiny) 4 := by
  obtain ⟨h1, h2, h3, h4⟩ := fins4 hA; obtain ⟨g1, g2, g3, g4⟩ := fins4 hB
  revert i
  lanes [XMVector4Dot]
example : Fins 3 (exV : V4 (F32 P)) ∧ Fins 4 (exV : V4 (F32 P)) := ⟨exV_fin 3, exV_fin 4⟩
/-- C93: squared lengths. -/
theorem C93_lengthSq (c : Cfg) (A : V4 (F32 P)) (i : Fin 4) :
    (Fins 2 A → Near ((XMVector2LengthSq c A).lane i).bits (vals A 0 ^ 2 + vals A 1 ^ 2) (vals A 0 ^ 2 + vals A 1 ^ 2 + 2 * tiny) 2) ∧
    (Fins 3 A → Near ((XMVector3LengthSq c A).lane i).bits (vals A 0 ^ 2 + vals A 1 ^ 2 + vals A 2 ^ 2)
      (vals A 0 ^ 2 + vals A 1 ^ 2 + vals A 2 ^ 2 + 3 * tiny) 3) ∧
    (Fins 4 A → Near ((XMVector4LengthSq c A).lane i).bits (vals A 0 ^ 2 + vals A 1 ^ 2 + vals A 2 ^ 2 + vals A 3 ^ 2)
      (vals A 0 ^ 2 + vals A 1 ^ 2 + vals A 2 ^ 2 + vals A 3 ^ 2 + 4 * tiny) 4) := by
  have e : ∀ x : ℝ, |x * x| = x ^ 2 := fun x => by rw [abs_of_nonneg (mul_self_nonneg x), sq]
  refine ⟨fun h => ?_, fun h => ?_, fun h => ?_⟩
  · have := C93_dot2 c A A h h i; simp only [e] at this; simp only [← sq] at this; exact this
  · have := C93_dot3 c A A h h i; simp only [e] at this; simp only [← sq] at this; exact this
  · have := C93_dot4 c A A h h i; simp only [e] at this; simp only [← sq] at this; exact this
/-- C93: three-component cross product: every component after two roundings. -/
theorem C93_cross3 (c : Cfg) (A B : V4 (F32 P)) (hA : Fins 3 A) (hB : Fins 3 B) :
    let r := XMVector3Cross c A B; let a := vals A; let b := vals B
    Near r.x.bits (a 1 * b 2 - a 2 * b 1) (|a 1 * b 2| + |a 2 * b 1| + 2 * tiny) 2 ∧
    Near r.y.bits (a 2 * b 0 - a 0 * b 2) (|a 2 * b 0| + |a 0 * b 2| + 2 * tiny) 2 ∧
    Near r.z.bits (a 0 * b 1 - a 1 * b 0) (|a 0 * b 1| + |a 1 * b 0| + 2 * tiny) 2 ∧
    r.w.bits = 0#32 := by
  obtain ⟨h1, h2, h3⟩ := fins3 hA; obtain ⟨g1, g2, g3⟩ := fins3 hB
  intro r a b
  simp only [r, a, b, XMVector3Cross]
  split_ifs with hs
  · unfold SSE.fnmadd
    split_ifs with hf <;> simp only [SSE.perm, SSE.mul, SSE.sub, V4.lane, V4.map2, V4.map3, SSE.and, g_XMMask3, LawfulLane.band_ones_right, LawfulLane.band_zero_right] <;>
      exact ⟨Ap.near (by lane_ap) (by norm_num), Ap.near (by lane_ap) (by norm_num), Ap.near (by lane_ap) (by norm_num), rfl⟩
  · exact ⟨Ap.near (by lane_ap) (by norm_num), Ap.near (by lane_ap) (by norm_num), Ap.near (by lane_ap) (by norm_num), rfl⟩
/-- C93: two-component cross product. -/
theorem C93_cross2 (c : Cfg) (A B : V4 (F32 P)) (hA : Fins 2 A) (hB : Fins 2 B) (i : Fin 4) :
    Near ((XMVector2Cross c A B).lane i).bits (vals A 0 * vals B 1 - vals A 1 * vals B 0)
      (|vals A 0 * vals B 1| + |vals A 1 * vals B 0| + 2 * tiny) 2 := by
  obtain ⟨h1, h2⟩ := fins2 hA; obtain ⟨g1, g2⟩ := fins2 hB
  revert i
  lanes [XMVector2Cross]

/-! ### C94 matrices and quaternions -/

theorem finsM {M : M4 (F32 P)} (h : ∀ i, Fins 4 (M.row i)) :
    (Fin' M.r0.x ∧ Fin' M.r0.y ∧ Fin' M.r0.z ∧ Fin' M.r0.w) ∧ (Fin' M.r1.x ∧ Fin' M.r1.y ∧ Fin' M.r1.z ∧ Fin' M.r1.w) ∧
    (Fin' M.r2.x ∧ Fin' M.r2.y ∧ Fin' M.r2.z ∧ Fin' M.r2.w) ∧ (Fin' M.r3.x ∧ Fin' M.r3.y ∧ Fin' M.r3.z ∧ Fin' M.r3.w) :=
  ⟨fins4 (h 0), fins4 (h 1), fins4 (h 2), fins4 (h 3)⟩

/-- C94: a row vector times a matrix: lane `j` is `Σ v_i m_ij` after four roundings. -/
theorem C94_transform4 (c : Cfg) (V : V4 (F32 P)) (M : M4 (F32 P)) (hV : Fins 4 V) (hM : ∀ i, Fins 4 (M.row i)) (j : Fin 4) :
    Near ((XMVector4Transform c V M).lane j).bits
      (vals V 0 * vals M.r0 j + vals V 1 * vals M.r1 j + vals V 2 * vals M.r2 j + vals V 3 * vals M.r3 j)
      (|vals V 0 * vals M.r0 j| + |vals V 1 * vals M.r1 j| + |vals V 2 * vals M.r2 j| + |vals V 3 * vals M.r3 j| + 4 * tiny) 4 := by
  obtain ⟨h1, h2, h3, h4⟩ := fins4 hV
  obtain ⟨⟨a1, a2, a3, a4⟩, ⟨b1, b2, b3, b4⟩, ⟨c1, c2, c3, c4⟩, d1, d2, d3, d4⟩ := finsM hM
  revert j
  lanes [XMVector4Transform]
/-- C94: points (`w = 1`): three roundings. -/
theorem C94_transform3 (c : Cfg) (V : V4 (F32 P)) (M : M4 (F32 P)) (hV : Fins 3 V) (hM : ∀ i, Fins 4 (M.row i)) (j : Fin 4) :
    Near ((XMVector3Transform c V M).lane j).bits
      (vals V 0 * vals M.r0 j + vals V 1 * vals M.r1 j + vals V 2 * vals M.r2 j + vals M.r3 j)
      (|vals V 0 * vals M.r0 j| + |vals V 1 * vals M.r1 j| + |vals V 2 * vals M.r2 j| + |vals M.r3 j| + 3 * tiny) 4 := by
  obtain ⟨h1, h2, h3⟩ := fins3 hV
  obtain ⟨⟨a1, a2, a3, a4⟩, ⟨b1, b2, b3, b4⟩, ⟨c1, c2, c3, c4⟩, d1, d2, d3, d4⟩ := finsM hM
  revert j
  lanes [XMVector3Transform]
theorem C94_transformNormal3 (c : Cfg) (V : V4 (F32 P)) (M : M4 (F32 P)) (hV : Fins 3 V) (hM : ∀ i, Fins 4 (M.row i)) (j : Fin 4) :
    Near ((XMVector3TransformNormal c V M).lane j).bits
      (vals V 0 * vals M.r0 j + vals V 1 * vals M.r1 j + vals V 2 * vals M.r2 j)
      (|vals V 0 * vals M.r0 j| + |vals V 1 * vals M.r1 j| + |vals V 2 * vals M.r2 j| + 3 * tiny) 3 := by
  obtain ⟨h1, h2, h3⟩ := fins3 hV
  obtain ⟨⟨a1, a2, a3, a4⟩, ⟨b1, b2, b3, b4⟩, ⟨c1, c2, c3, c4⟩, d1, d2, d3, d4⟩ := finsM hM
  revert j
  lanes [XMVector3TransformNormal]
theorem C94_transform2 (c : Cfg) (V : V4 (F32 P)) (M : M4 (F32 P)) (hV : Fins 2 V) (hM : ∀ i, Fins 4 (M.row i)) (j : Fin 4) :
    Near ((XMVector2Transform c V M).lane j).bits (vals V 0 * vals M.r0 j + vals V 1 * vals M.r1 j + vals M.r3 j)
      (|vals V 0 * vals M.r0 j| + |vals V 1 * vals M.r1 j| + |vals M.r3 j| + 2 * tiny) 3 := by
  obtain ⟨h1, h2⟩ := fins2 hV
  obtain ⟨⟨a1, a2, a3, a4⟩, ⟨b1, b2, b3, b4⟩, ⟨c1, c2, c3, c4⟩, d1, d2, d3, d4⟩ := finsM hM
  revert j
  lanes [XMVector2Transform]
theorem C94_transformNormal2 (c : Cfg) (V : V4 (F32 P)) (M : M4 (F32 P)) (hV : Fins 2 V) (hM : ∀ i, Fins 4 (M.row i)) (j : Fin 4) :
    Near ((XMVector2TransformNormal c V M).lane j).bits (vals V 0 * vals M.r0 j + vals V 1 * vals M.r1 j)
      (|vals V 0 * vals M.r0 j| + |vals V 1 * vals M.r1 j| + 2 * tiny) 2 := by
  obtain ⟨h1, h2⟩ := fins2 hV
  obtain ⟨⟨a1, a2, a3, a4⟩, ⟨b1, b2, b3, b4⟩, ⟨c1, c2, c3, c4⟩, d1, d2, d3, d4⟩ := finsM hM
  revert j
  lanes [XMVector2TransformNormal]
/-- C94: matrix product: entry `(i, j)` is `Σ_k a_ik b_kj` after four roundings. -/
theorem C94_multiply (c : Cfg) (A B : M4 (F32 P)) (hA : ∀ i, Fins 4 (A.row i)) (hB : ∀ i, Fins 4 (B.row i)) (i j : Fin 4) :
    Near (((XMMatrixMultiply c A B).row i).lane j).bits
      (vals (A.row i) 0 * vals B.r0 j + vals (A.row i) 1 * vals B.r1 j + vals (A.row i) 2 * vals B.r2 j + vals (A.row i) 3 * vals B.r3 j)
      (|vals (A.row i) 0 * vals B.r0 j| + |vals (A.row i) 1 * vals B.r1 j| + |vals (A.row i) 2 * vals B.r2 j| + |vals (A.row i) 3 * vals B.r3 j| + 4 * tiny) 4 := by
  have e : (XMMatrixMultiply c A B).row i = mulRow c (A.row i) B := by fin_cases i <;> rfl
  rw [e]
  have hr := hA i
  generalize A.row i = V at hr ⊢
  obtain ⟨h1, h2, h3, h4⟩ := fins4 hr
  obtain ⟨⟨a1, a2, a3, a4⟩, ⟨b1, b2, b3, b4⟩, ⟨c1, c2, c3, c4⟩, d1, d2, d3, d4⟩ := finsM hB
  revert j
  lanes [mulRow]
/-- C94: quaternion product: every component is a sum of four products after four roundings (the sign controls ±1 are exact). -/
theorem C94_quaternionMultiply (c : Cfg) (A B : V4 (F32 P)) (hA : Fins 4 A) (hB : Fins 4 B) :
    let r := XMQuaternionMultiply c A B; let p := vals A; let q := vals B
    Near r.x.bits (q 3 * p 0 + q 0 * p 3 + q 1 * p 2 - q 2 * p 1) (|q 3 * p 0| + |q 0 * p 3| + |q 1 * p 2| + |q 2 * p 1| + 4 * tiny) 4 ∧
    Near r.y.bits (q 3 * p 1 - q 0 * p 2 + q 1 * p 3 + q 2 * p 0) (|q 3 * p 1| + |q 0 * p 2| + |q 1 * p 3| + |q 2 * p 0| + 4 * tiny) 4 ∧
    Near r.z.bits (q 3 * p 2 + q 0 * p 1 - q 1 * p 0 + q 2 * p 3) (|q 3 * p 2| + |q 0 * p 1| + |q 1 * p 0| + |q 2 * p 3| + 4 * tiny) 4 ∧
    Near r.w.bits (q 3 * p 3 - q 0 * p 0 - q 1 * p 1 - q 2 * p 2) (|q 3 * p 3| + |q 0 * p 0| + |q 1 * p 1| + |q 2 * p 2| + 4 * tiny) 4 := by
  obtain ⟨h1, h2, h3, h4⟩ := fins4 hA; obtain ⟨g1, g2, g3, g4⟩ := fins4 hB
  intro r p q
  simp only [r, p, q, XMQuaternionMultiply, SSE.fmadd]
  split_ifs <;> simp only [SSE.perm, SSE.mul, SSE.add, V4.lane, V4.map2, V4.map3] <;>
    exact ⟨Ap.near (by lane_ap) (by norm_num), Ap.near (by lane_ap) (by norm_num), Ap.near (by lane_ap) (by norm_num), Ap.near (by lane_ap) (by norm_num)⟩

/-- The hypotheses of C94 on a concrete vector and matrix, with the bound on the magnitude met. -/
example (c : Cfg) (j : Fin 4) (hj : j = 1) : IsFinite ((XMVector4Transform c (exV : V4 (F32 P)) exM).lane j).bits := by
  obtain ⟨e0, e1, e2, e3⟩ := exV_vals (P := P)
  subst hj
  have h := C94_transform4 (P := P) c exV exM (exV_fin 4) exM_fin 1
  refine (h ?_).1
  have : tiny ≤ 1 := by unfold tiny; norm_num
  simp only [exM, e0, e1, e2, e3]
  norm_num [abs_of_pos, abs_of_neg]; linarith
example : (∀ i, Fins 4 ((exM : M4 (F32 P)).row i)) ∧ Fins 4 (exV : V4 (F32 P)) := ⟨exM_fin, exV_fin 4⟩

end DXM.Props
