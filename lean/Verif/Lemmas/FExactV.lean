import Verif.Lemmas.FExact
import Verif.Lemmas.Movement
import Verif.Props.Float

/-
Exact vectors: `XV A v` says that the four lanes of `A` are finite and exactly the numbers `v`.  The inverse of a translation, statement by statement.
-/

set_option linter.all false
namespace DXM.FEx
open DXM.Props DXM.Spec DXM.FErr DXM.IEEE
variable {P : Env}

/-- The four lanes are exactly these numbers. -/
def XV (A : V4 (F32 P)) (v : Fin 4 → ℝ) : Prop := ∀ i, Ex (A.lane i) (v i)
/-- All four are floats. -/
def IsFV (v : Fin 4 → ℝ) : Prop := ∀ i, IsF (v i)
section
variable {A B D : V4 (F32 P)} {v w u : Fin 4 → ℝ}
theorem XV.mk {a b c d : F32 P} {p q r s : ℝ} (h1 : Ex a p) (h2 : Ex b q) (h3 : Ex c r) (h4 : Ex d s) : XV ⟨a, b, c, d⟩ ![p, q, r, s] := by
  intro i; fin_cases i <;> assumption
theorem XV.eq (h : XV A v) (e : v = w) : XV A w := e ▸ h
theorem XV.perm (h : XV A v) (i j k l : Fin 4) : XV (SSE.perm A i j k l) ![v l, v k, v j, v i] := XV.mk (h _) (h _) (h _) (h _)
theorem XV.shuffle (h : XV A v) (g : XV B w) (i j k l : Fin 4) : XV (SSE.shuffle A B i j k l) ![v l, v k, w j, w i] := XV.mk (h _) (h _) (g _) (g _)
theorem XV.swizzle (c : Cfg) (h : XV A v) (i j k l : Fin 4) : XV (XMVectorSwizzleC c A i j k l) ![v i, v j, v k, v l] := by
  rw [swizzleC_eq]; exact XV.mk (h _) (h _) (h _) (h _)
theorem pick_ex (h : XV A v) (g : XV B w) (i : Fin 8) : Ex (Spec.pick A B i) (Fin.append v w i) := by
  fin_cases i <;> first | exact h 0 | exact h 1 | exact h 2 | exact h 3 | exact g 0 | exact g 1 | exact g 2 | exact g 3
theorem XV.permute (c : Cfg) (h : XV A v) (g : XV B w) (i j k l : Fin 8) : XV (XMVectorPermuteC c A B i j k l)
    ![Fin.append v w i, Fin.append v w j, Fin.append v w k, Fin.append v w l] := by
  rw [permuteC_eq]; exact XV.mk (pick_ex h g _) (pick_ex h g _) (pick_ex h g _) (pick_ex h g _)
theorem XV.mul (h : XV A v) (g : XV B w) (hf : IsFV (v * w)) : XV (SSE.mul A B) (v * w) := by
  intro i; match i with | 0 => exact ex_mul (h 0) (g 0) (hf 0) | 1 => exact ex_mul (h 1) (g 1) (hf 1) | 2 => exact ex_mul (h 2) (g 2) (hf 2) | 3 => exact ex_mul (h 3) (g 3) (hf 3)
theorem XV.add (h : XV A v) (g : XV B w) (hf : IsFV (v + w)) : XV (SSE.add A B) (v + w) := by
  intro i; match i with | 0 => exact ex_add (h 0) (g 0) (hf 0) | 1 => exact ex_add (h 1) (g 1) (hf 1) | 2 => exact ex_add (h 2) (g 2) (hf 2) | 3 => exact ex_add (h 3) (g 3) (hf 3)
theorem XV.sub (h : XV A v) (g : XV B w) (hf : IsFV (v - w)) : XV (SSE.sub A B) (v - w) := by
  intro i; match i with | 0 => exact ex_sub (h 0) (g 0) (hf 0) | 1 => exact ex_sub (h 1) (g 1) (hf 1) | 2 => exact ex_sub (h 2) (g 2) (hf 2) | 3 => exact ex_sub (h 3) (g 3) (hf 3)
theorem XV.fnmadd (c : Cfg) (h : XV A v) (g : XV B w) (k : XV D u) (hp : IsFV (v * w)) (hf : IsFV (u - v * w)) : XV (SSE.fnmadd c A B D) (u - v * w) := by
  unfold SSE.fnmadd
  split_ifs
  · intro i; match i with | 0 => exact ex_fnma (h 0) (g 0) (k 0) (hf 0) | 1 => exact ex_fnma (h 1) (g 1) (k 1) (hf 1) | 2 => exact ex_fnma (h 2) (g 2) (k 2) (hf 2) | 3 => exact ex_fnma (h 3) (g 3) (k 3) (hf 3)
  · intro i; match i with | 0 => exact ex_sub (k 0) (ex_mul (h 0) (g 0) (hp 0)) (hf 0) | 1 => exact ex_sub (k 1) (ex_mul (h 1) (g 1) (hp 1)) (hf 1) | 2 => exact ex_sub (k 2) (ex_mul (h 2) (g 2) (hp 2)) (hf 2) | 3 => exact ex_sub (k 3) (ex_mul (h 3) (g 3) (hp 3)) (hf 3)
theorem XV.fmadd (c : Cfg) (h : XV A v) (g : XV B w) (k : XV D u) (hp : IsFV (v * w)) (hf : IsFV (v * w + u)) : XV (SSE.fmadd c A B D) (v * w + u) := by
  unfold SSE.fmadd
  split_ifs
  · intro i; match i with | 0 => exact ex_fma (h 0) (g 0) (k 0) (hf 0) | 1 => exact ex_fma (h 1) (g 1) (k 1) (hf 1) | 2 => exact ex_fma (h 2) (g 2) (k 2) (hf 2) | 3 => exact ex_fma (h 3) (g 3) (k 3) (hf 3)
  · intro i; match i with | 0 => exact ex_add (ex_mul (h 0) (g 0) (hp 0)) (k 0) (hf 0) | 1 => exact ex_add (ex_mul (h 1) (g 1) (hp 1)) (k 1) (hf 1) | 2 => exact ex_add (ex_mul (h 2) (g 2) (hp 2)) (k 2) (hf 2) | 3 => exact ex_add (ex_mul (h 3) (g 3) (hp 3)) (k 3) (hf 3)
theorem XV.nms (c : Cfg) (h : XV A v) (g : XV B w) (k : XV D u) (hp : IsFV (v * w)) (hf : IsFV (u - v * w)) : XV (XMVectorNegativeMultiplySubtract c A B D) (u - v * w) := by
  unfold XMVectorNegativeMultiplySubtract
  split_ifs
  · exact XV.fnmadd c h g k hp hf
  · intro i; match i with | 0 => exact ex_sub (k 0) (ex_mul (h 0) (g 0) (hp 0)) (hf 0) | 1 => exact ex_sub (k 1) (ex_mul (h 1) (g 1) (hp 1)) (hf 1) | 2 => exact ex_sub (k 2) (ex_mul (h 2) (g 2) (hp 2)) (hf 2) | 3 => exact ex_sub (k 3) (ex_mul (h 3) (g 3) (hp 3)) (hf 3)
theorem XV.mad (c : Cfg) (h : XV A v) (g : XV B w) (k : XV D u) (hp : IsFV (v * w)) (hf : IsFV (v * w + u)) : XV (XMVectorMultiplyAdd c A B D) (v * w + u) := by
  unfold XMVectorMultiplyAdd
  split_ifs
  · exact XV.fmadd c h g k hp hf
  · intro i; match i with | 0 => exact ex_add (ex_mul (h 0) (g 0) (hp 0)) (k 0) (hf 0) | 1 => exact ex_add (ex_mul (h 1) (g 1) (hp 1)) (k 1) (hf 1) | 2 => exact ex_add (ex_mul (h 2) (g 2) (hp 2)) (k 2) (hf 2) | 3 => exact ex_add (ex_mul (h 3) (g 3) (hp 3)) (k 3) (hf 3)
theorem XV.sel0101 (h : XV A v) (g : XV B w) : XV (XMVectorSelect A B g_XMSelect0101) ![v 0, w 1, v 2, w 3] := by
  have e : XMVectorSelect A B g_XMSelect0101 = ⟨A.x, B.y, A.z, B.w⟩ := by
    simp only [XMVectorSelect, SSE.or, SSE.and, SSE.andnot, V4.map2, g_XMSelect0101, LawfulLane.band_ones_right, LawfulLane.band_zero_right, LawfulLane.bandn_ones_left, LawfulLane.bandn_zero_left,
      LawfulLane.bor_zero_left, LawfulLane.bor_zero_right]
  rw [e]; exact XV.mk (h 0) (g 1) (h 2) (g 3)
theorem dot_one (c : Cfg) (hA : XV A ![1, 0, 0, 0]) {b : ℝ} (hB : XV B ![1, 0, 0, b]) (hb : IsF b) : XV (XMVector4Dot c A B) ![1, 1, 1, 1] := by
  have a1 : Ex A.x 1 := hA 0; have a2 : Ex A.y 0 := hA 1; have a3 : Ex A.z 0 := hA 2; have a4 : Ex A.w 0 := hA 3
  have b1 : Ex B.x 1 := hB 0; have b2 : Ex B.y 0 := hB 1; have b3 : Ex B.z 0 := hB 2; have b4 : Ex B.w b := hB 3
  unfold XMVector4Dot
  split_ifs <;> simp only [SSE.dpff, SSE.hadd, SSE.perm, SSE.shuffle, SSE.add, SSE.mul, V4.splat, V4.map2, V4.lane] <;> refine XV.mk ?_ ?_ ?_ ?_ <;> exv
end
macro "isfv" : tactic => `(tactic| (intro i; fin_cases i <;> simp [Fin.append, Fin.addCases] <;> with_reducible first | exact isF_zero | exact isF_one | assumption | exact isF_neg isF_one | (apply isF_neg; assumption)))
macro "xveq" : tactic => `(tactic| (ext i; fin_cases i <;> simp [Fin.append, Fin.addCases]))
theorem invSSE (c : Cfg) {M : M4 (F32 P)} {x y z : F32 P} (hx : Fin' x) (hy : Fin' y) (hz : Fin' z) (hMT0 : XV (transposeSSE M.r0 M.r1 M.r2 M.r3).r0 ![1, 0, 0, val x]) (hMT1 : XV (transposeSSE M.r0 M.r1 M.r2 M.r3).r1 ![0, 1, 0, val y]) (hMT2 : XV (transposeSSE M.r0 M.r1 M.r2 M.r3).r2 ![0, 0, 1, val z]) (hMT3 : XV (transposeSSE M.r0 M.r1 M.r2 M.r3).r3 ![0, 0, 0, 1]) :
    (XV (inverseSSE c M).1.r0 ![1, 0, 0, 0] ∧ XV (inverseSSE c M).1.r1 ![0, 1, 0, 0] ∧ XV (inverseSSE c M).1.r2 ![0, 0, 1, 0] ∧
      XV (inverseSSE c M).1.r3 ![-val x, -val y, -val z, 1]) ∧ XV (inverseSSE c M).2 ![1, 1, 1, 1] := by
  have f1 := isF_val hx; have f2 := isF_val hy; have f3 := isF_val hz
  have hD0 := XV.eq (w := ![0, 0, 0, 0]) (XV.mul (XV.perm hMT2 1 1 0 0) (XV.perm hMT3 3 2 3 2) (by isfv)) (by xveq)
  have hD1 := XV.eq (w := ![0, val y, 0, 0]) (XV.mul (XV.perm hMT0 1 1 0 0) (XV.perm hMT1 3 2 3 2) (by isfv)) (by xveq)
  have hD2 := XV.eq (w := ![0, 1, 1, 0]) (XV.mul (XV.shuffle hMT2 hMT0 2 0 2 0) (XV.shuffle hMT3 hMT1 3 1 3 1) (by isfv)) (by xveq)
  have hD0_1 := XV.eq (w := ![0, 0, 0, 0]) (XV.fnmadd c (XV.perm hMT2 3 2 3 2) (XV.perm hMT3 1 1 0 0) hD0 (by isfv) (by isfv)) (by xveq)
  have hD1_1 := XV.eq (w := ![0, val y, 0, -val x]) (XV.fnmadd c (XV.perm hMT0 3 2 3 2) (XV.perm hMT1 1 1 0 0) hD1 (by isfv) (by isfv)) (by xveq)
  have hD2_1 := XV.eq (w := ![0, 1, 1, 0]) (XV.fnmadd c (XV.shuffle hMT2 hMT0 3 1 3 1) (XV.shuffle hMT3 hMT1 2 0 2 0) hD2 (by isfv) (by isfv)) (by xveq)
  have hC0 := XV.eq (w := ![1, 0, 0, 0]) (XV.mul (XV.perm hMT1 1 0 2 1) (XV.shuffle (XV.shuffle hD0_1 hD2_1 1 1 3 1) hD0_1 0 3 0 2) (by isfv)) (by xveq)
  have hC2 := XV.eq (w := ![0, 1, 0, 0]) (XV.mul (XV.perm hMT0 0 1 0 2) (XV.shuffle (XV.shuffle hD0_1 hD2_1 1 1 3 1) hD0_1 2 1 2 1) (by isfv)) (by xveq)
  have hC4 := XV.eq (w := ![0, 0, 0, 0]) (XV.mul (XV.perm hMT3 1 0 2 1) (XV.shuffle (XV.shuffle hD1_1 hD2_1 3 3 3 1) hD1_1 0 3 0 2) (by isfv)) (by xveq)
  have hC6 := XV.eq (w := ![-val x, 0, 0, 0]) (XV.mul (XV.perm hMT2 0 1 0 2) (XV.shuffle (XV.shuffle hD1_1 hD2_1 3 3 3 1) hD1_1 2 1 2 1) (by isfv)) (by xveq)
  have hC0_1 := XV.eq (w := ![1, 0, 0, 0]) (XV.fnmadd c (XV.perm hMT1 2 1 3 2) (XV.shuffle hD0_1 (XV.shuffle hD0_1 hD2_1 0 0 1 0) 2 1 0 3) hC0 (by isfv) (by isfv)) (by xveq)
  have hC2_1 := XV.eq (w := ![0, 1, 0, 0]) (XV.fnmadd c (XV.perm hMT0 1 3 2 3) (XV.shuffle hD0_1 (XV.shuffle hD0_1 hD2_1 0 0 1 0) 0 2 1 2) hC2 (by isfv) (by isfv)) (by xveq)
  have hC4_1 := XV.eq (w := ![0, 0, 0, 0]) (XV.fnmadd c (XV.perm hMT3 2 1 3 2) (XV.shuffle hD1_1 (XV.shuffle hD1_1 hD2_1 2 2 1 0) 2 1 0 3) hC4 (by isfv) (by isfv)) (by xveq)
  have hC6_1 := XV.eq (w := ![-val x, -val y, -val z, 0]) (XV.fnmadd c (XV.perm hMT2 1 3 2 3) (XV.shuffle hD1_1 (XV.shuffle hD1_1 hD2_1 2 2 1 0) 0 2 1 2) hC6 (by isfv) (by isfv)) (by xveq)
  have hV00_5 := XV.eq (w := ![0, 0, 0, 0]) (XV.mul (XV.perm hMT1 0 3 0 3) (XV.perm (XV.shuffle hD0_1 hD2_1 1 0 2 2) 0 2 3 0) (by isfv)) (by xveq)
  have hV01_5 := XV.eq (w := ![0, 0, 0, 0]) (XV.mul (XV.perm hMT0 2 0 3 1) (XV.perm (XV.shuffle hD0_1 hD2_1 1 0 3 0) 2 1 0 3) (by isfv)) (by xveq)
  have hV02_5 := XV.eq (w := ![0, 0, 1, 0]) (XV.mul (XV.perm hMT3 0 3 0 3) (XV.perm (XV.shuffle hD1_1 hD2_1 3 2 2 2) 0 2 3 0) (by isfv)) (by xveq)
  have hV03_3 := XV.eq (w := ![0, 0, 0, 1]) (XV.mul (XV.perm hMT2 2 0 3 1) (XV.perm (XV.shuffle hD1_1 hD2_1 3 2 3 0) 2 1 0 3) (by isfv)) (by xveq)
  have hC1 := XV.eq (w := ![1, 0, 0, 0]) (XV.sub hC0_1 hV00_5 (by isfv)) (by xveq)
  have hC0_2 := XV.eq (w := ![1, 0, 0, 0]) (XV.add hC0_1 hV00_5 (by isfv)) (by xveq)
  have hC3 := XV.eq (w := ![0, 1, 0, 0]) (XV.add hC2_1 hV01_5 (by isfv)) (by xveq)
  have hC2_2 := XV.eq (w := ![0, 1, 0, 0]) (XV.sub hC2_1 hV01_5 (by isfv)) (by xveq)
  have hC5 := XV.eq (w := ![0, 0, -1, 0]) (XV.sub hC4_1 hV02_5 (by isfv)) (by xveq)
  have hC4_2 := XV.eq (w := ![0, 0, 1, 0]) (XV.add hC4_1 hV02_5 (by isfv)) (by xveq)
  have hC7 := XV.eq (w := ![-val x, -val y, -val z, 1]) (XV.add hC6_1 hV03_3 (by isfv)) (by xveq)
  have hC6_2 := XV.eq (w := ![-val x, -val y, -val z, -1]) (XV.sub hC6_1 hV03_3 (by isfv)) (by xveq)
  have hC0_4 := XV.eq (w := ![1, 0, 0, 0]) (XV.perm (XV.shuffle hC0_2 hC1 3 1 2 0) 3 1 2 0) (by xveq)
  have hC2_4 := XV.eq (w := ![0, 1, 0, 0]) (XV.perm (XV.shuffle hC2_2 hC3 3 1 2 0) 3 1 2 0) (by xveq)
  have hC4_4 := XV.eq (w := ![0, 0, 1, 0]) (XV.perm (XV.shuffle hC4_2 hC5 3 1 2 0) 3 1 2 0) (by xveq)
  have hC6_4 := XV.eq (w := ![-val x, -val y, -val z, 1]) (XV.perm (XV.shuffle hC6_2 hC7 3 1 2 0) 3 1 2 0) (by xveq)
  exact ⟨⟨hC0_4, hC2_4, hC4_4, hC6_4⟩, dot_one c hC0_4 hMT0 f1⟩
theorem invNOI (c : Cfg) {M : M4 (F32 P)} {x y z : F32 P} (hx : Fin' x) (hy : Fin' y) (hz : Fin' z) (hMT0 : XV (XMMatrixTranspose c M).r0 ![1, 0, 0, val x]) (hMT1 : XV (XMMatrixTranspose c M).r1 ![0, 1, 0, val y]) (hMT2 : XV (XMMatrixTranspose c M).r2 ![0, 0, 1, val z]) (hMT3 : XV (XMMatrixTranspose c M).r3 ![0, 0, 0, 1]) :
    (XV (inverseNOI c M).1.r0 ![1, 0, 0, 0] ∧ XV (inverseNOI c M).1.r1 ![0, 1, 0, 0] ∧ XV (inverseNOI c M).1.r2 ![0, 0, 1, 0] ∧
      XV (inverseNOI c M).1.r3 ![-val x, -val y, -val z, 1]) ∧ XV (inverseNOI c M).2 ![1, 1, 1, 1] := by
  have f1 := isF_val hx; have f2 := isF_val hy; have f3 := isF_val hz
  have hD0 := XV.eq (w := ![0, 0, 0, 0]) (XV.mul (XV.swizzle c hMT2 0 0 1 1) (XV.swizzle c hMT3 2 3 2 3) (by isfv)) (by xveq)
  have hD1 := XV.eq (w := ![0, val y, 0, 0]) (XV.mul (XV.swizzle c hMT0 0 0 1 1) (XV.swizzle c hMT1 2 3 2 3) (by isfv)) (by xveq)
  have hD2 := XV.eq (w := ![0, 1, 1, 0]) (XV.mul (XV.permute c hMT2 hMT0 0 2 4 6) (XV.permute c hMT3 hMT1 1 3 5 7) (by isfv)) (by xveq)
  have hD0_1 := XV.eq (w := ![0, 0, 0, 0]) (XV.nms c (XV.swizzle c hMT2 2 3 2 3) (XV.swizzle c hMT3 0 0 1 1) hD0 (by isfv) (by isfv)) (by xveq)
  have hD1_1 := XV.eq (w := ![0, val y, 0, -val x]) (XV.nms c (XV.swizzle c hMT0 2 3 2 3) (XV.swizzle c hMT1 0 0 1 1) hD1 (by isfv) (by isfv)) (by xveq)
  have hD2_1 := XV.eq (w := ![0, 1, 1, 0]) (XV.nms c (XV.permute c hMT2 hMT0 1 3 5 7) (XV.permute c hMT3 hMT1 0 2 4 6) hD2 (by isfv) (by isfv)) (by xveq)
  have hC0 := XV.eq (w := ![1, 0, 0, 0]) (XV.mul (XV.swizzle c hMT1 1 2 0 1) (XV.permute c hD0_1 hD2_1 5 1 3 0) (by isfv)) (by xveq)
  have hC2 := XV.eq (w := ![0, 1, 0, 0]) (XV.mul (XV.swizzle c hMT0 2 0 1 0) (XV.permute c hD0_1 hD2_1 3 5 1 2) (by isfv)) (by xveq)
  have hC4 := XV.eq (w := ![0, 0, 0, 0]) (XV.mul (XV.swizzle c hMT3 1 2 0 1) (XV.permute c hD1_1 hD2_1 7 1 3 0) (by isfv)) (by xveq)
  have hC6 := XV.eq (w := ![-val x, 0, 0, 0]) (XV.mul (XV.swizzle c hMT2 2 0 1 0) (XV.permute c hD1_1 hD2_1 3 7 1 2) (by isfv)) (by xveq)
  have hC0_1 := XV.eq (w := ![1, 0, 0, 0]) (XV.nms c (XV.swizzle c hMT1 2 3 1 2) (XV.permute c hD0_1 hD2_1 3 0 1 4) hC0 (by isfv) (by isfv)) (by xveq)
  have hC2_1 := XV.eq (w := ![0, 1, 0, 0]) (XV.nms c (XV.swizzle c hMT0 3 2 3 1) (XV.permute c hD0_1 hD2_1 2 1 4 0) hC2 (by isfv) (by isfv)) (by xveq)
  have hC4_1 := XV.eq (w := ![0, 0, 0, 0]) (XV.nms c (XV.swizzle c hMT3 2 3 1 2) (XV.permute c hD1_1 hD2_1 3 0 1 6) hC4 (by isfv) (by isfv)) (by xveq)
  have hC6_1 := XV.eq (w := ![-val x, -val y, -val z, 0]) (XV.nms c (XV.swizzle c hMT2 3 2 3 1) (XV.permute c hD1_1 hD2_1 2 1 6 0) hC6 (by isfv) (by isfv)) (by xveq)
  have hC1 := XV.eq (w := ![1, 0, 0, 0]) (XV.nms c (XV.swizzle c hMT1 3 0 3 0) (XV.permute c hD0_1 hD2_1 2 5 4 2) hC0_1 (by isfv) (by isfv)) (by xveq)
  have hC0_2 := XV.eq (w := ![1, 0, 0, 0]) (XV.mad c (XV.swizzle c hMT1 3 0 3 0) (XV.permute c hD0_1 hD2_1 2 5 4 2) hC0_1 (by isfv) (by isfv)) (by xveq)
  have hC3 := XV.eq (w := ![0, 1, 0, 0]) (XV.mad c (XV.swizzle c hMT0 1 3 0 2) (XV.permute c hD0_1 hD2_1 5 0 3 4) hC2_1 (by isfv) (by isfv)) (by xveq)
  have hC2_2 := XV.eq (w := ![0, 1, 0, 0]) (XV.nms c (XV.swizzle c hMT0 1 3 0 2) (XV.permute c hD0_1 hD2_1 5 0 3 4) hC2_1 (by isfv) (by isfv)) (by xveq)
  have hC5 := XV.eq (w := ![0, 0, -1, 0]) (XV.nms c (XV.swizzle c hMT3 3 0 3 0) (XV.permute c hD1_1 hD2_1 2 7 6 2) hC4_1 (by isfv) (by isfv)) (by xveq)
  have hC4_2 := XV.eq (w := ![0, 0, 1, 0]) (XV.mad c (XV.swizzle c hMT3 3 0 3 0) (XV.permute c hD1_1 hD2_1 2 7 6 2) hC4_1 (by isfv) (by isfv)) (by xveq)
  have hC7 := XV.eq (w := ![-val x, -val y, -val z, 1]) (XV.mad c (XV.swizzle c hMT2 1 3 0 2) (XV.permute c hD1_1 hD2_1 7 0 3 6) hC6_1 (by isfv) (by isfv)) (by xveq)
  have hC6_2 := XV.eq (w := ![-val x, -val y, -val z, -1]) (XV.nms c (XV.swizzle c hMT2 1 3 0 2) (XV.permute c hD1_1 hD2_1 7 0 3 6) hC6_1 (by isfv) (by isfv)) (by xveq)
  have hR0 := XV.eq (w := ![1, 0, 0, 0]) (XV.sel0101 hC0_2 hC1) (by xveq)
  have hR1 := XV.eq (w := ![0, 1, 0, 0]) (XV.sel0101 hC2_2 hC3) (by xveq)
  have hR2 := XV.eq (w := ![0, 0, 1, 0]) (XV.sel0101 hC4_2 hC5) (by xveq)
  have hR3 := XV.eq (w := ![-val x, -val y, -val z, 1]) (XV.sel0101 hC6_2 hC7) (by xveq)
  exact ⟨⟨hR0, hR1, hR2, hR3⟩, dot_one c hR0 hMT0 f1⟩

end DXM.FEx
