import Verif.Props.FloatDrift
import Verif.Props.FloatMat
import Verif.Lemmas.FExact
import Mathlib.Analysis.Matrix.Normed

/-
C132: long chains of rotation matrices on binary32 lanes.
-/

set_option linter.all false

namespace DXM.Props
open DXM.Spec DXM.FErr DXM.IEEE
open scoped Matrix.Norms.Frobenius Matrix
variable {P : Env}

/-- The Frobenius distance of two matrices: the root of the sum of the squared differences of their entries. -/
noncomputable def frobDist (A B : Matrix (Fin 4) (Fin 4) ℝ) : ℝ := Real.sqrt (∑ i, ∑ j, (A i j - B i j)^2)

namespace DriftM
abbrev M := Matrix (Fin 4) (Fin 4) ℝ
theorem fsq (A : M) : ‖A‖^2 = ∑ i, ∑ j, (A i j)^2 := by
  rw [Matrix.frobenius_norm_def, ← Real.sqrt_eq_rpow, Real.sq_sqrt (by positivity)]
  simp
theorem fdist (A B : M) : frobDist A B = ‖A - B‖ := by
  have h := fsq (A - B)
  unfold frobDist
  rw [← Real.sqrt_sq (norm_nonneg (A - B)), h]
  simp
/-- Multiplication by an orthogonal matrix preserves the norm. -/
theorem orth {U : M} (h : U * Uᵀ = 1) (X : M) : ‖X * U‖ = ‖X‖ := by
  have tr : ∀ Y : M, ‖Y‖^2 = (Y * Yᵀ).trace := fun Y => by
    rw [fsq]; simp only [Matrix.trace, Matrix.diag, Matrix.mul_apply, Matrix.transpose_apply, pow_two]
  have : ‖X * U‖^2 = ‖X‖^2 := by
    rw [tr, tr, Matrix.transpose_mul, Matrix.mul_assoc, ← Matrix.mul_assoc U, h, Matrix.one_mul]
  exact (sq_eq_sq₀ (norm_nonneg _) (norm_nonneg _)).1 this
theorem norm_one4 : ‖(1 : M)‖ = 2 := by
  have : ‖(1 : M)‖^2 = 2^2 := by
    rw [fsq]; simp [Matrix.one_apply, Fin.sum_univ_four]; norm_num
  exact (sq_eq_sq₀ (norm_nonneg _) (by norm_num)).1 this
theorem norm_orth {U : M} (h : U * Uᵀ = 1) : ‖U‖ = 2 := by rw [← norm_one4, ← orth h 1, Matrix.one_mul]
/-- A matrix with entries bounded by those of another is not larger. -/
theorem mono {A B : M} (h : ∀ i j, |A i j| ≤ B i j) : ‖A‖ ≤ ‖B‖ := by
  refine (sq_le_sq₀ (norm_nonneg _) (norm_nonneg _)).1 ?_
  rw [fsq, fsq]
  refine Finset.sum_le_sum fun i _ => Finset.sum_le_sum fun j _ => ?_
  rw [← sq_abs]; exact pow_le_pow_left₀ (abs_nonneg _) (h i j) 2
theorem norm_abs (A : M) : ‖(Matrix.of fun i j => |A i j| : M)‖ = ‖A‖ := by
  refine (sq_eq_sq₀ (norm_nonneg _) (norm_nonneg _)).1 ?_
  rw [fsq, fsq]; simp
theorem norm_const {t : ℝ} (ht : 0 ≤ t) : ‖(Matrix.of fun _ _ => t : M)‖ = 4 * t := by
  refine (sq_eq_sq₀ (norm_nonneg _) (by positivity)).1 ?_
  rw [fsq]; simp; ring
theorem entry (A : M) (i j : Fin 4) : |A i j| ≤ ‖A‖ := by
  refine (sq_le_sq₀ (abs_nonneg _) (norm_nonneg _)).1 ?_
  rw [fsq, sq_abs]
  exact (Finset.single_le_sum (f := fun j => (A i j)^2) (fun _ _ => sq_nonneg _) (Finset.mem_univ j)).trans
    (Finset.single_le_sum (f := fun i => ∑ j, (A i j)^2) (fun _ _ => Finset.sum_nonneg fun _ _ => sq_nonneg _) (Finset.mem_univ i))
/-- One product. -/
theorem mul_step (c : Cfg) {A B : M4 (F32 P)} (hA : ∀ i, Fins 4 (A.row i)) (hB : ∀ i, Fins 4 (B.row i)) (hM : ‖matOf A‖ * ‖matOf B‖ ≤ 2^100) :
    (∀ i, Fins 4 ((XMMatrixMultiply c A B).row i)) ∧ ‖matOf (XMMatrixMultiply c A B) - matOf A * matOf B‖ ≤ 239 / 10^9 * (‖matOf A‖ * ‖matOf B‖ + 16 * tiny) := by
  let N : M := (Matrix.of fun i j => |matOf A i j| : M) * (Matrix.of fun i j => |matOf B i j| : M) + (Matrix.of fun _ _ => 4 * tiny : M)
  have t0 := Drift.tiny_pos; have t1 := Drift.tiny_le
  have nN : ‖N‖ ≤ ‖matOf A‖ * ‖matOf B‖ + 16 * tiny := by
    refine (norm_add_le _ _).trans ?_
    rw [norm_const (by positivity)]
    have := norm_mul_le (Matrix.of fun i j => |matOf A i j| : M) (Matrix.of fun i j => |matOf B i j| : M)
    rw [norm_abs, norm_abs] at this
    linarith
  have eN : ∀ i j, N i j = |vals (A.row i) 0 * vals B.r0 j| + |vals (A.row i) 1 * vals B.r1 j| + |vals (A.row i) 2 * vals B.r2 j| + |vals (A.row i) 3 * vals B.r3 j| + 4 * tiny := by
    intro i j
    simp only [N, Matrix.add_apply, Matrix.mul_apply, Fin.sum_univ_four, Matrix.of_apply, abs_mul, matOf]
    rfl
  have eM : ∀ i j, (matOf A * matOf B) i j = vals (A.row i) 0 * vals B.r0 j + vals (A.row i) 1 * vals B.r1 j + vals (A.row i) 2 * vals B.r2 j + vals (A.row i) 3 * vals B.r3 j := by
    intro i j
    simp only [Matrix.mul_apply, Fin.sum_univ_four, Matrix.of_apply, matOf]
    rfl
  have key : ∀ i j, IsFinite (((XMMatrixMultiply c A B).row i).lane j).bits ∧ |matOf (XMMatrixMultiply c A B) i j - (matOf A * matOf B) i j| ≤ 239 / 10^9 * N i j := by
    intro i j
    have h := C94_multiply c A B hA hB i j
    rw [← eN, ← eM] at h
    have le : N i j ≤ 2^127 := (le_abs_self _).trans ((entry N i j).trans (nN.trans (by norm_num at hM t1 ⊢; linarith)))
    have n0 : 0 ≤ N i j := by rw [eN]; positivity
    obtain ⟨h1, h2⟩ := h le
    exact ⟨h1, h2.trans (mul_le_mul_of_nonneg_right Drift.gam4 n0)⟩
  refine ⟨fun i j _ => (key i j).1, ?_⟩
  have := mono (A := matOf (XMMatrixMultiply c A B) - matOf A * matOf B) (B := (239 / 10^9 : ℝ) • N) fun i j => (key i j).2
  refine this.trans ?_
  rw [norm_smul, Real.norm_of_nonneg (by norm_num)]
  exact mul_le_mul_of_nonneg_left nN (by norm_num)
end DriftM
open DriftM

/-- What a program computes that multiplies an orientation by one rotation matrix after the other. -/
def matrixChain (c : Cfg) (A : M4 (F32 P)) (l : List (M4 (F32 P))) : M4 (F32 P) := l.foldl (fun A R => XMMatrixMultiply c A R) A

namespace DriftM
theorem chain (c : Cfg) (l : List (M4 (F32 P) × M)) : ∀ (A : M4 (F32 P)) (X : M) (δ : ℝ), (∀ i, Fins 4 (A.row i)) → X * Xᵀ = 1 → ‖matOf A - X‖ ≤ δ → δ + 4 / 10^6 * l.length ≤ 1 / 2 →
    (∀ p ∈ l, (∀ i, Fins 4 (p.1.row i)) ∧ p.2 * p.2ᵀ = 1 ∧ ‖matOf p.1 - p.2‖ ≤ 1 / 10^6) →
    (∀ i, Fins 4 ((matrixChain c A (l.map Prod.fst)).row i)) ∧ ‖matOf (matrixChain c A (l.map Prod.fst)) - X * (l.map Prod.snd).prod‖ ≤ δ + 4 / 10^6 * l.length := by
  induction l with
  | nil => intro A X δ hA _ hd _ _; exact ⟨hA, by simpa [matrixChain] using hd⟩
  | cons p l ih =>
    intro A X δ hA hX hd hn hl
    obtain ⟨hB, hU, hb⟩ := hl p (by simp)
    rw [List.length_cons] at hn; push_cast at hn
    have l0 : (0:ℝ) ≤ l.length := Nat.cast_nonneg _
    have a1 : ‖matOf A‖ ≤ 5 / 2 := by
      have := norm_le_norm_add_norm_sub' (matOf A) X
      rw [norm_orth hX] at this
      norm_num at hn ⊢; linarith
    have b1 : ‖matOf p.1‖ ≤ 2001 / 1000 := by
      have := norm_le_norm_add_norm_sub' (matOf p.1) p.2
      rw [norm_orth hU] at this
      norm_num at hb ⊢; linarith
    have m : ‖matOf A‖ * ‖matOf p.1‖ ≤ 5 / 2 * (2001 / 1000) := mul_le_mul a1 b1 (norm_nonneg _) (by norm_num)
    obtain ⟨f, e⟩ := mul_step c hA hB (m.trans (by norm_num))
    have t1 := Drift.tiny_le
    have e' : ‖matOf (XMMatrixMultiply c A p.1) - matOf A * matOf p.1‖ ≤ 12 / 10^7 := e.trans (by norm_num at m t1 ⊢; linarith)
    have s1 : ‖matOf A * (matOf p.1 - p.2)‖ ≤ 5 / 2 * (1 / 10^6) := (norm_mul_le _ _).trans (mul_le_mul a1 hb (norm_nonneg _) (by norm_num))
    have s2 : ‖(matOf A - X) * p.2‖ ≤ δ := by rw [orth hU]; exact hd
    have hd' : ‖matOf (XMMatrixMultiply c A p.1) - X * p.2‖ ≤ δ + 4 / 10^6 := by
      have d : matOf (XMMatrixMultiply c A p.1) - X * p.2 = (matOf (XMMatrixMultiply c A p.1) - matOf A * matOf p.1) + (matOf A * (matOf p.1 - p.2) + (matOf A - X) * p.2) := by noncomm_ring
      rw [d]
      refine (norm_add_le _ _).trans ?_
      have := norm_add_le (matOf A * (matOf p.1 - p.2)) ((matOf A - X) * p.2)
      norm_num at *; linarith
    have hX' : X * p.2 * (X * p.2)ᵀ = 1 := by rw [Matrix.transpose_mul, Matrix.mul_assoc, ← Matrix.mul_assoc p.2, hU, Matrix.one_mul, hX]
    obtain ⟨g1, g2⟩ := ih _ (X * p.2) (δ + 4 / 10^6) f hX' hd' (by linarith) (fun q hq => hl q (by simp [hq]))
    refine ⟨g1, ?_⟩
    rw [List.map_cons, List.map_cons, List.prod_cons, ← Matrix.mul_assoc]
    exact g2.trans (by rw [List.length_cons]; push_cast; linarith)
end DriftM

/-- C132: a chain of up to a hundred thousand products of single-precision matrices that are within 1e-6 of rotations (or reflections): the result is finite and within 4e-6 per product of
the exact product of the rotations, in every entry. -/
theorem C132_matrixChain (c : Cfg) (A : M4 (F32 P)) (X : Matrix (Fin 4) (Fin 4) ℝ) (l : List (M4 (F32 P) × Matrix (Fin 4) (Fin 4) ℝ)) (hA : ∀ i, Fins 4 (A.row i)) (hX : X * Xᵀ = 1)
    (hd : frobDist (matOf A) X ≤ 1 / 10^6) (hl : ∀ p ∈ l, (∀ i, Fins 4 (p.1.row i)) ∧ p.2 * p.2ᵀ = 1 ∧ frobDist (matOf p.1) p.2 ≤ 1 / 10^6) (hn : l.length ≤ 100000) :
    let R := matrixChain c A (l.map Prod.fst)
    (∀ i, Fins 4 (R.row i)) ∧ frobDist (matOf R) (X * (l.map Prod.snd).prod) ≤ 4 / 10^6 * (l.length + 1) ∧
      ∀ i j, |vals (R.row i) j - (X * (l.map Prod.snd).prod) i j| ≤ 4 / 10^6 * (l.length + 1) := by
  intro R
  have hn' : (l.length : ℝ) ≤ 100000 := by exact_mod_cast hn
  rw [fdist] at hd
  obtain ⟨h1, h2⟩ := DriftM.chain c l A X (1 / 10^6) hA hX hd (by norm_num; linarith) (fun p hp => by have := hl p hp; rw [fdist] at this; exact this)
  have h3 : ‖matOf R - X * (l.map Prod.snd).prod‖ ≤ 4 / 10^6 * (l.length + 1) := h2.trans (by linarith)
  refine ⟨h1, by rw [fdist]; exact h3, fun i j => ?_⟩
  exact (entry (matOf R - X * (l.map Prod.snd).prod) i j).trans h3

/-- A quarter turn about the z axis. -/
def DriftM.exR : M4 (F32 P) :=
  let o : F32 P := Lane.ofBits 0#32; let i : F32 P := Lane.ofBits 0x3F800000#32
  ⟨⟨o, i, o, o⟩, ⟨Lane.ofBits 0xBF800000#32, o, o, o⟩, ⟨o, o, i, o⟩, ⟨o, o, o, i⟩⟩
noncomputable def DriftM.exU : Matrix (Fin 4) (Fin 4) ℝ := !![0, 1, 0, 0; -1, 0, 0, 0; 0, 0, 1, 0; 0, 0, 0, 1]
theorem DriftM.exR_spec : (∀ i, Fins 4 ((exR : M4 (F32 P)).row i)) ∧ exU * exUᵀ = 1 ∧ frobDist (matOf (exR : M4 (F32 P))) exU ≤ 1 / 10^6 := by
  have e : ∀ i j, Ex (((exR : M4 (F32 P)).row i).lane j) (exU i j) := by
    intro i j
    fin_cases i <;> fin_cases j <;> first | exact ex_zero | exact ex_one | exact ex_negOne
  refine ⟨fun i j _ => (e i j).1, ?_, ?_⟩
  · ext i j; fin_cases i <;> fin_cases j <;> simp [exU, Matrix.mul_apply, Fin.sum_univ_four]
  · have : matOf (exR : M4 (F32 P)) = exU := by ext i j; exact (e i j).2
    rw [this, fdist, sub_self, norm_zero]; norm_num
/-- A chain of a hundred quarter turns meets the hypotheses. -/
example : (∀ i, Fins 4 ((exR : M4 (F32 P)).row i)) ∧ exU * exUᵀ = 1 ∧ frobDist (matOf (exR : M4 (F32 P))) exU ≤ 1 / 10^6 ∧ (List.replicate 100 ((exR : M4 (F32 P)), exU)).length ≤ 100000 ∧
    ∀ p ∈ List.replicate 100 ((exR : M4 (F32 P)), exU), (∀ i, Fins 4 (p.1.row i)) ∧ p.2 * p.2ᵀ = 1 ∧ frobDist (matOf p.1) p.2 ≤ 1 / 10^6 :=
  ⟨exR_spec.1, (exR_spec (P := P)).2.1, exR_spec.2.2, by simp, fun p hp => by rw [List.eq_of_mem_replicate hp]; exact exR_spec⟩
end DXM.Props
