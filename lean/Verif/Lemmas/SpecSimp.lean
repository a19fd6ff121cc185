import Mathlib.Tactic.LinearCombination
import Mathlib.Tactic.FinCases
import Verif.Spec.Real
import Verif.Lemmas.Vec2

/-
Unfolding of the specification vocabulary to components.
-/

set_option linter.all false

namespace DXM.Spec
open DXM.E

attribute [simp] vec2 vec3 vec4 all mat quat
theorem dot2 (a b : Fin 2 → ℝ) : a ⬝ᵥ b = a 0 * b 0 + a 1 * b 1 := by simp [dotProduct, Fin.sum_univ_two]
theorem dot3 (a b : Fin 3 → ℝ) : a ⬝ᵥ b = a 0 * b 0 + a 1 * b 1 + a 2 * b 2 := by simp [dotProduct, Fin.sum_univ_three]
theorem dot4 (a b : Fin 4 → ℝ) : a ⬝ᵥ b = a 0 * b 0 + a 1 * b 1 + a 2 * b 2 + a 3 * b 3 := by
  simp [dotProduct, Fin.sum_univ_four]
theorem dot_self_nonneg {n : ℕ} (a : Fin n → ℝ) : 0 ≤ a ⬝ᵥ a := by
  unfold dotProduct; exact Finset.sum_nonneg fun i _ => mul_self_nonneg _
theorem dot_self_pos {n : ℕ} {a : Fin n → ℝ} (h : a ≠ 0) : 0 < a ⬝ᵥ a := by
  obtain ⟨i, hi⟩ := Function.ne_iff.1 h
  unfold dotProduct
  exact Finset.sum_pos' (fun i _ => mul_self_nonneg _) ⟨i, Finset.mem_univ _, mul_self_pos.2 hi⟩
theorem len_pos {n : ℕ} {a : Fin n → ℝ} (h : a ≠ 0) : 0 < len a := Real.sqrt_pos.2 (dot_self_pos h)
theorem len_sq {n : ℕ} (a : Fin n → ℝ) : len a * len a = a ⬝ᵥ a := Real.mul_self_sqrt (dot_self_nonneg a)
theorem len_nonneg {n : ℕ} (a : Fin n → ℝ) : 0 ≤ len a := Real.sqrt_nonneg _
theorem len_smul {n : ℕ} (k : ℝ) (a : Fin n → ℝ) : len (k • a) = |k| * len a := by
  unfold len; rw [smul_dotProduct, dotProduct_smul, smul_eq_mul, smul_eq_mul, ← mul_assoc,
    Real.sqrt_mul (mul_self_nonneg k), Real.sqrt_mul_self_eq_abs]
theorem len_unit {n : ℕ} {a : Fin n → ℝ} (h : a ≠ 0) : len ((len a)⁻¹ • a) = 1 := by
  rw [len_smul, abs_of_pos (inv_pos.2 (len_pos h)), inv_mul_cancel₀ (len_pos h).ne']

theorem vecMul4 (v : Fin 4 → ℝ) (A : Matrix (Fin 4) (Fin 4) ℝ) (j : Fin 4) :
    (Matrix.vecMul v A) j = v 0 * A 0 j + v 1 * A 1 j + v 2 * A 2 j + v 3 * A 3 j := by
  rw [Matrix.vecMul, dot4]
theorem matMul4 (A B : Matrix (Fin 4) (Fin 4) ℝ) (i j : Fin 4) :
    (A * B) i j = A i 0 * B 0 j + A i 1 * B 1 j + A i 2 * B 2 j + A i 3 * B 3 j := by
  rw [Matrix.mul_apply, Fin.sum_univ_four]
theorem is2_iff (v : V4 E) (a : Fin 2 → ℝ) : Is2 v a ↔ v.x = num (a 0) ∧ v.y = num (a 1) := by
  constructor
  · rintro ⟨z, w, rfl⟩; exact ⟨rfl, rfl⟩
  · rintro ⟨h1, h2⟩; exact ⟨v.z, v.w, by cases v; simp_all⟩
theorem is3_iff (v : V4 E) (a : Fin 3 → ℝ) : Is3 v a ↔ v.x = num (a 0) ∧ v.y = num (a 1) ∧ v.z = num (a 2) := by
  constructor
  · rintro ⟨w, rfl⟩; exact ⟨rfl, rfl, rfl⟩
  · rintro ⟨h1, h2, h3⟩; exact ⟨v.w, by cases v; simp_all⟩
theorem sqrt25 : √(25:ℝ) = 5 := by rw [show (25:ℝ) = 5 * 5 by norm_num]; exact Real.sqrt_mul_self (by norm_num)

end DXM.Spec
