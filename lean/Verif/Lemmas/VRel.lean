import Verif.Props.Float
import Verif.Lemmas.Mat

/-
Refinement between the binary32 reading (interpretation I) and the exact reading (interpretation II) of the same function:
`VR A B M k` says that every lane of `A` is, after at most `k` roundings and with terms of total magnitude at most `M`, the number in the same
lane of `B`.  The rules follow the operations, so that a bound for a whole function is read off the function itself, and the exact reading is
the one that the theorems on exact lanes already describe.
-/

set_option linter.all false

namespace DXM
open DXM.Spec DXM.FErr DXM.IEEE DXM.E
variable {P : Env}

/-- One lane. -/
def RAp (a : F32 P) (e : E) (M : ℝ) (k : ℕ) : Prop := ∃ v, e = num v ∧ Ap a v M k
/-- All four lanes. -/
def VR (A : V4 (F32 P)) (B : V4 E) (M : ℝ) (k : ℕ) : Prop := ∀ i : Fin 4, RAp (A.lane i) (B.lane i) M k

section lane
variable {a b d : F32 P} {x y z : E} {M N K : ℝ} {j k l : ℕ}
theorem RAp.le (h : RAp a x M j) {M' : ℝ} {j' : ℕ} (hM : M ≤ M') (hj : j ≤ j') : RAp a x M' j' := by
  obtain ⟨v, e, h⟩ := h; exact ⟨v, e, h.le rfl hM hj⟩
theorem RAp.add (ha : RAp a x M j) (hb : RAp b y N k) : RAp (Lane.add a b) (Lane.add x y) (M + N) (max j k + 1) := by
  obtain ⟨v, rfl, h1⟩ := ha; obtain ⟨w, rfl, h2⟩ := hb; exact ⟨_, by simp, Ap.add h1 h2⟩
theorem RAp.sub (ha : RAp a x M j) (hb : RAp b y N k) : RAp (Lane.sub a b) (Lane.sub x y) (M + N) (max j k + 1) := by
  obtain ⟨v, rfl, h1⟩ := ha; obtain ⟨w, rfl, h2⟩ := hb; exact ⟨_, by simp, Ap.sub h1 h2⟩
theorem RAp.mul (ha : RAp a x M j) (hb : RAp b y N k) (hM : M ≤ 2^127) (hN : N ≤ 2^127) : RAp (Lane.mul a b) (Lane.mul x y) (M * N + tiny) (j + k + 1) := by
  obtain ⟨v, rfl, h1⟩ := ha; obtain ⟨w, rfl, h2⟩ := hb; exact ⟨_, by simp, Ap.mul h1 h2 hM hN⟩
theorem RAp.mul1 (ha : RAp a x M j) : RAp (Lane.mul a Lane.c1) (Lane.mul x Lane.c1) M j := by
  obtain ⟨v, rfl, h1⟩ := ha; exact ⟨v, by simp, Ap.mul1 h1⟩
theorem RAp.mulN1 (ha : RAp a x M j) : RAp (Lane.mul a Lane.cNeg1) (Lane.mul x Lane.cNeg1) M j := by
  obtain ⟨v, rfl, h1⟩ := ha; exact ⟨-v, by simp, Ap.mulN1 h1⟩
theorem RAp.fma (ha : RAp a x M j) (hb : RAp b y N k) (hd : RAp d z K l) (hM : M ≤ 2^127) (hN : N ≤ 2^127) :
    RAp (Lane.fma a b d) (Lane.fma x y z) (M * N + K + tiny) (max (j + k) l + 1) := by
  obtain ⟨v, rfl, h1⟩ := ha; obtain ⟨w, rfl, h2⟩ := hb; obtain ⟨u, rfl, h3⟩ := hd; exact ⟨_, by simp, Ap.fma h1 h2 h3 hM hN⟩
theorem RAp.fnma (ha : RAp a x M j) (hb : RAp b y N k) (hd : RAp d z K l) (hM : M ≤ 2^127) (hN : N ≤ 2^127) :
    RAp (Lane.fnma a b d) (Lane.fnma x y z) (M * N + K + tiny) (max (j + k) l + 1) := by
  obtain ⟨v, rfl, h1⟩ := ha; obtain ⟨w, rfl, h2⟩ := hb; obtain ⟨u, rfl, h3⟩ := hd; exact ⟨_, by simp, Ap.fnma h1 h2 h3 hM hN⟩
end lane

section vec
variable {A B D : V4 (F32 P)} {X Y Z : V4 E} {M N K : ℝ} {j k l : ℕ}
theorem VR.mk {a0 a1 a2 a3 : F32 P} {x0 x1 x2 x3 : E} (h0 : RAp a0 x0 M j) (h1 : RAp a1 x1 M j) (h2 : RAp a2 x2 M j) (h3 : RAp a3 x3 M j) :
    VR ⟨a0, a1, a2, a3⟩ ⟨x0, x1, x2, x3⟩ M j := by
  intro i; fin_cases i
  · exact h0
  · exact h1
  · exact h2
  · exact h3
theorem VR.le (h : VR A X M j) {M' : ℝ} {j' : ℕ} (hM : M ≤ M') (hj : j ≤ j') : VR A X M' j' := fun i => (h i).le hM hj
theorem VR.add (ha : VR A X M j) (hb : VR B Y N k) : VR (SSE.add A B) (SSE.add X Y) (M + N) (max j k + 1) :=
  VR.mk ((ha 0).add (hb 0)) ((ha 1).add (hb 1)) ((ha 2).add (hb 2)) ((ha 3).add (hb 3))
theorem VR.sub (ha : VR A X M j) (hb : VR B Y N k) : VR (SSE.sub A B) (SSE.sub X Y) (M + N) (max j k + 1) :=
  VR.mk ((ha 0).sub (hb 0)) ((ha 1).sub (hb 1)) ((ha 2).sub (hb 2)) ((ha 3).sub (hb 3))
theorem VR.mul (ha : VR A X M j) (hb : VR B Y N k) (hM : M ≤ 2^127) (hN : N ≤ 2^127) : VR (SSE.mul A B) (SSE.mul X Y) (M * N + tiny) (j + k + 1) :=
  VR.mk ((ha 0).mul (hb 0) hM hN) ((ha 1).mul (hb 1) hM hN) ((ha 2).mul (hb 2) hM hN) ((ha 3).mul (hb 3) hM hN)
theorem VR.mul' (ha : VR A X M j) (hb : VR B Y N k) (hM : M ≤ 2^127) (hN : N ≤ 2^127) : VR (XMVectorMultiply A B) (XMVectorMultiply X Y) (M * N + tiny) (j + k + 1) :=
  VR.mul ha hb hM hN
theorem VR.fmadd (c : Cfg) (ha : VR A X M j) (hb : VR B Y N k) (hd : VR D Z K l) (hM : M ≤ 2^127) (hN : N ≤ 2^127) :
    VR (SSE.fmadd c A B D) (SSE.fmadd c X Y Z) (M * N + tiny + K) (max (j + k + 1) l + 1) := by
  unfold SSE.fmadd; split_ifs
  · exact VR.le (VR.mk ((ha 0).fma (hb 0) (hd 0) hM hN) ((ha 1).fma (hb 1) (hd 1) hM hN) ((ha 2).fma (hb 2) (hd 2) hM hN) ((ha 3).fma (hb 3) (hd 3) hM hN)) (by linarith) (by omega)
  · exact (ha.mul hb hM hN).add hd
theorem VR.fnmadd (c : Cfg) (ha : VR A X M j) (hb : VR B Y N k) (hd : VR D Z K l) (hM : M ≤ 2^127) (hN : N ≤ 2^127) :
    VR (SSE.fnmadd c A B D) (SSE.fnmadd c X Y Z) (M * N + tiny + K) (max (j + k + 1) l + 1) := by
  unfold SSE.fnmadd; split_ifs
  · exact VR.le (VR.mk ((ha 0).fnma (hb 0) (hd 0) hM hN) ((ha 1).fnma (hb 1) (hd 1) hM hN) ((ha 2).fnma (hb 2) (hd 2) hM hN) ((ha 3).fnma (hb 3) (hd 3) hM hN)) (by linarith) (by omega)
  · exact (hd.sub (ha.mul hb hM hN)).le (by linarith) (by omega)
theorem VR.madd (c : Cfg) (ha : VR A X M j) (hb : VR B Y N k) (hd : VR D Z K l) (hM : M ≤ 2^127) (hN : N ≤ 2^127) :
    VR (XMVectorMultiplyAdd c A B D) (XMVectorMultiplyAdd c X Y Z) (M * N + tiny + K) (max (j + k + 1) l + 1) := by
  unfold XMVectorMultiplyAdd; split_ifs
  · exact ha.fmadd c hb hd hM hN
  · exact (ha.mul hb hM hN).add hd
theorem VR.nmsub (c : Cfg) (ha : VR A X M j) (hb : VR B Y N k) (hd : VR D Z K l) (hM : M ≤ 2^127) (hN : N ≤ 2^127) :
    VR (XMVectorNegativeMultiplySubtract c A B D) (XMVectorNegativeMultiplySubtract c X Y Z) (M * N + tiny + K) (max (j + k + 1) l + 1) := by
  unfold XMVectorNegativeMultiplySubtract; split_ifs
  · exact ha.fnmadd c hb hd hM hN
  · exact (hd.sub (ha.mul hb hM hN)).le (by linarith) (by omega)
theorem VR.perm (ha : VR A X M j) (i3 i2 i1 i0 : Fin 4) : VR (SSE.perm A i3 i2 i1 i0) (SSE.perm X i3 i2 i1 i0) M j := VR.mk (ha _) (ha _) (ha _) (ha _)
theorem VR.shuffle (ha : VR A X M j) (hb : VR B Y N k) (i3 i2 i1 i0 : Fin 4) : VR (SSE.shuffle A B i3 i2 i1 i0) (SSE.shuffle X Y i3 i2 i1 i0) (max M N) (max j k) :=
  VR.mk ((ha _).le (le_max_left _ _) (le_max_left _ _)) ((ha _).le (le_max_left _ _) (le_max_left _ _)) ((hb _).le (le_max_right _ _) (le_max_right _ _)) ((hb _).le (le_max_right _ _) (le_max_right _ _))
theorem VR.swizzle (c : Cfg) (ha : VR A X M j) (e0 e1 e2 e3 : Fin 4) : VR (XMVectorSwizzleC c A e0 e1 e2 e3) (XMVectorSwizzleC c X e0 e1 e2 e3) M j := by
  rw [swizzleC_eq, swizzleC_eq]; exact VR.mk (ha _) (ha _) (ha _) (ha _)
theorem RAp.pick (ha : VR A X M j) (hb : VR B Y N k) (p : Fin 8) : RAp (Spec.pick A B p) (Spec.pick X Y p) (max M N) (max j k) := by
  unfold Spec.pick; split_ifs
  · exact (ha _).le (le_max_left _ _) (le_max_left _ _)
  · exact (hb _).le (le_max_right _ _) (le_max_right _ _)
theorem VR.permute (c : Cfg) (ha : VR A X M j) (hb : VR B Y N k) (e0 e1 e2 e3 : Fin 8) : VR (XMVectorPermuteC c A B e0 e1 e2 e3) (XMVectorPermuteC c X Y e0 e1 e2 e3) (max M N) (max j k) := by
  rw [permuteC_eq, permuteC_eq]; exact VR.mk (RAp.pick ha hb _) (RAp.pick ha hb _) (RAp.pick ha hb _) (RAp.pick ha hb _)
theorem select0101 {α : Type} [Lane α] [LawfulLane α] (A B : V4 α) : XMVectorSelect A B g_XMSelect0101 = ⟨A.x, B.y, A.z, B.w⟩ := by
  simp only [XMVectorSelect, SSE.or, SSE.and, SSE.andnot, V4.map2, g_XMSelect0101, LawfulLane.band_ones_right, LawfulLane.band_zero_right, LawfulLane.bandn_ones_left, LawfulLane.bandn_zero_left,
    LawfulLane.bor_zero_left, LawfulLane.bor_zero_right]
theorem VR.select0101 (ha : VR A X M j) (hb : VR B Y N k) : VR (XMVectorSelect A B g_XMSelect0101) (XMVectorSelect X Y g_XMSelect0101) (max M N) (max j k) := by
  rw [DXM.select0101, DXM.select0101]
  exact VR.mk ((ha 0).le (le_max_left _ _) (le_max_left _ _)) ((hb 1).le (le_max_right _ _) (le_max_right _ _)) ((ha 2).le (le_max_left _ _) (le_max_left _ _)) ((hb 3).le (le_max_right _ _) (le_max_right _ _))
/-- Apply the rules with symbolic magnitudes. -/
macro "vap" : tactic => `(tactic| (repeat' with_reducible first
  | assumption | apply Ap.add | apply Ap.sub | apply Ap.mul))
theorem VR.dot4 (c : Cfg) (ha : VR A X M j) (hb : VR B Y N k) (hM : M ≤ 2^127) (hN : N ≤ 2^127) :
    VR (XMVector4Dot c A B) (XMVector4Dot c X Y) (4 * (M * N + tiny)) (j + k + 4) := by
  obtain ⟨v0, e0, a0⟩ := ha 0; obtain ⟨v1, e1, a1⟩ := ha 1; obtain ⟨v2, e2, a2⟩ := ha 2; obtain ⟨v3, e3, a3⟩ := ha 3
  obtain ⟨w0, f0, b0⟩ := hb 0; obtain ⟨w1, f1, b1⟩ := hb 1; obtain ⟨w2, f2, b2⟩ := hb 2; obtain ⟨w3, f3, b3⟩ := hb 3
  have eX : X = ⟨num v0, num v1, num v2, num v3⟩ := by cases X; simp_all [V4.lane]
  have eY : Y = ⟨num w0, num w1, num w2, num w3⟩ := by cases Y; simp_all [V4.lane]
  have hE : XMVector4Dot c X Y = all (v0 * w0 + v1 * w1 + v2 * w2 + v3 * w3) := by rw [eX, eY]; simp
  rw [hE]
  clear hE eX eY
  have key : ∀ i, Ap ((XMVector4Dot c A B).lane i) (v0 * w0 + v1 * w1 + v2 * w2 + v3 * w3) (4 * (M * N + tiny)) (j + k + 4) := by
    simp only [XMVector4Dot]
    intro i
    dsimp only [V4.lane] at a0 a1 a2 a3 b0 b1 b2 b3
    split_ifs <;> fin_cases i <;>
      simp only [SSE.perm, SSE.shuffle, SSE.add, SSE.mul, SSE.hadd, SSE.dpff, V4.splat, V4.map2, V4.lane] <;>
      exact Ap.le (by vap) (by ring) (by linarith) (by omega)
  intro i
  exact ⟨_, by fin_cases i <;> rfl, key i⟩
end vec
end DXM
