import Verif.Props.FloatRot
import Mathlib.Analysis.Quaternion

/-
C131: long chains of rotations on binary32 lanes: the error after any number of quaternion products.
-/

set_option linter.all false

namespace DXM.Props
open DXM.Spec DXM.FErr DXM.IEEE
open scoped Quaternion
variable {P : Env}

namespace Drift
theorem nsq (q : ℍ[ℝ]) : ‖q‖^2 = q.re^2 + q.imI^2 + q.imJ^2 + q.imK^2 := by
  rw [pow_two, ← Quaternion.normSq_eq_norm_mul_self, Quaternion.normSq_def']
/-- The inequality of Cauchy and Schwarz for four terms. -/
theorem cs4 {a b c d e f g h X Y : ℝ} (hX : 0 ≤ X) (hY : 0 ≤ Y) (h1 : X^2 = a^2 + b^2 + c^2 + d^2) (h2 : Y^2 = e^2 + f^2 + g^2 + h^2) :
    |a * e| + |b * f| + |c * g| + |d * h| ≤ X * Y := by
  simp only [abs_mul]
  rw [← sq_abs a, ← sq_abs b, ← sq_abs c, ← sq_abs d] at h1
  rw [← sq_abs e, ← sq_abs f, ← sq_abs g, ← sq_abs h] at h2
  generalize |a| = a at *; generalize |b| = b at *; generalize |c| = c at *; generalize |d| = d at *
  generalize |e| = e at *; generalize |f| = f at *; generalize |g| = g at *; generalize |h| = h at *
  refine (le_abs_self _).trans (abs_le_of_sq_le_sq ?_ (by positivity))
  rw [mul_pow, h1, h2]
  nlinarith [sq_nonneg (a * f - b * e), sq_nonneg (a * g - c * e), sq_nonneg (a * h - d * e), sq_nonneg (b * g - c * f), sq_nonneg (b * h - d * f), sq_nonneg (c * h - d * g)]
/-- Four small components make a small quaternion. -/
theorem comps {q : ℍ[ℝ]} {e : ℝ} (he : 0 ≤ e) (h1 : |q.re| ≤ e) (h2 : |q.imI| ≤ e) (h3 : |q.imJ| ≤ e) (h4 : |q.imK| ≤ e) : ‖q‖ ≤ 2 * e := by
  refine (le_abs_self _).trans (abs_le_of_sq_le_sq ?_ (by positivity))
  rw [nsq]
  have k : ∀ x : ℝ, |x| ≤ e → x^2 ≤ e^2 := fun x h => by rw [← sq_abs]; exact pow_le_pow_left₀ (abs_nonneg _) h 2
  nlinarith [k _ h1, k _ h2, k _ h3, k _ h4]
theorem gam4 : gam 4 ≤ 239 / 10^9 := by unfold gam ulp2; norm_num
theorem gam15 : gam 15 ≤ 895 / 10^9 := by unfold gam ulp2; norm_num
theorem tiny_pos : 0 < tiny := by unfold tiny; positivity
theorem tiny_le : tiny ≤ 1 / 10^30 := by unfold tiny; norm_num
/-- One product. -/
theorem mul_step (c : Cfg) {A B : V4 (F32 P)} (hA : Fins 4 A) (hB : Fins 4 B) (hM : ‖quatOf B‖ * ‖quatOf A‖ ≤ 2^100) :
    Fins 4 (XMQuaternionMultiply c A B) ∧ ‖quatOf (XMQuaternionMultiply c A B) - quatOf B * quatOf A‖ ≤ 2 * (239 / 10^9 * (‖quatOf B‖ * ‖quatOf A‖ + 4 * tiny)) := by
  obtain ⟨h1, h2, h3, h4⟩ := C94_quaternionMultiply c A B hA hB
  have nA := nsq (quatOf A); have nB := nsq (quatOf B)
  simp only [quatOf] at nA nB
  have t0 := tiny_pos; have t1 := tiny_le
  have m := fun {x : ℝ} (h : x ≤ ‖quatOf B‖ * ‖quatOf A‖) => (show x + 4 * tiny ≤ ‖quatOf B‖ * ‖quatOf A‖ + 4 * tiny by linarith)
  have big : ∀ {x : ℝ}, x ≤ ‖quatOf B‖ * ‖quatOf A‖ + 4 * tiny → x ≤ 2^127 := fun {x} h => by norm_num at hM t1 ⊢; linarith
  have k1 := m (cs4 (a := vals B 3) (b := vals B 0) (c := vals B 1) (d := vals B 2) (e := vals A 0) (f := vals A 3) (g := vals A 2) (h := vals A 1)
    (norm_nonneg (quatOf B)) (norm_nonneg (quatOf A)) nB (by rw [show ‖quatOf A‖^2 = _ from nA]; try ring))
  have k2 := m (cs4 (a := vals B 3) (b := vals B 0) (c := vals B 1) (d := vals B 2) (e := vals A 1) (f := vals A 2) (g := vals A 3) (h := vals A 0)
    (norm_nonneg (quatOf B)) (norm_nonneg (quatOf A)) nB (by rw [show ‖quatOf A‖^2 = _ from nA]; try ring))
  have k3 := m (cs4 (a := vals B 3) (b := vals B 0) (c := vals B 1) (d := vals B 2) (e := vals A 2) (f := vals A 1) (g := vals A 0) (h := vals A 3)
    (norm_nonneg (quatOf B)) (norm_nonneg (quatOf A)) nB (by rw [show ‖quatOf A‖^2 = _ from nA]; try ring))
  have k4 := m (cs4 (a := vals B 3) (b := vals B 0) (c := vals B 1) (d := vals B 2) (e := vals A 3) (f := vals A 0) (g := vals A 1) (h := vals A 2)
    (norm_nonneg (quatOf B)) (norm_nonneg (quatOf A)) nB (by rw [show ‖quatOf A‖^2 = _ from nA]; try ring))
  have e1 := h1 (big k1); have e2 := h2 (big k2); have e3 := h3 (big k3); have e4 := h4 (big k4)
  have up : ∀ {x M : ℝ}, |x| ≤ gam 4 * M → M ≤ ‖quatOf B‖ * ‖quatOf A‖ + 4 * tiny → |x| ≤ 239 / 10^9 * (‖quatOf B‖ * ‖quatOf A‖ + 4 * tiny) := by
    intro x M hx hm
    have s0 : 0 ≤ ‖quatOf B‖ * ‖quatOf A‖ + 4 * tiny := by positivity
    have g0 : 0 ≤ gam 4 := gam_nonneg (k := 4) (by norm_num)
    exact hx.trans ((mul_le_mul_of_nonneg_left hm g0).trans (mul_le_mul_of_nonneg_right gam4 s0))
  refine ⟨fun i _ => ?_, comps (by positivity) ?_ ?_ ?_ ?_⟩
  · fin_cases i
    · exact e1.1
    · exact e2.1
    · exact e3.1
    · exact e4.1
  · refine le_of_eq_of_le (congrArg _ ?_) (up e4.2 k4)
    rw [Quaternion.re_sub, Quaternion.re_mul]; exact congrArg₂ (· - ·) rfl (by simp only [quatOf])
  · refine le_of_eq_of_le (congrArg _ ?_) (up e1.2 k1)
    rw [Quaternion.imI_sub, Quaternion.imI_mul]; exact congrArg₂ (· - ·) rfl (by simp only [quatOf])
  · refine le_of_eq_of_le (congrArg _ ?_) (up e2.2 k2)
    rw [Quaternion.imJ_sub, Quaternion.imJ_mul]; exact congrArg₂ (· - ·) rfl (by simp only [quatOf])
  · refine le_of_eq_of_le (congrArg _ ?_) (up e3.2 k3)
    rw [Quaternion.imK_sub, Quaternion.imK_mul]; exact congrArg₂ (· - ·) rfl (by simp only [quatOf])
/-- One normalization. -/
theorem norm_step (c : Cfg) {R : V4 (F32 P)} (hR : Fins 4 R) (h1 : 1 / 2^40 ≤ ‖quatOf R‖) (h2 : ‖quatOf R‖ ≤ 2^40) :
    Fins 4 (XMQuaternionNormalize c R) ∧ ‖quatOf (XMQuaternionNormalize c R) - ‖quatOf R‖⁻¹ • quatOf R‖ ≤ 9 / 10^7 := by
  have e : sqs 4 R = ‖quatOf R‖^2 := by rw [sqs4, nsq]; simp only [quatOf, vals_0, vals_1, vals_2, vals_3]; ring
  have hp : 0 < ‖quatOf R‖ := lt_of_lt_of_le (by positivity) h1
  have es : Real.sqrt (sqs 4 R) = ‖quatOf R‖ := by rw [e]; exact Real.sqrt_sq hp.le
  have hm : Mid (sqs 4 R) := by
    rw [e]; constructor
    · calc (1:ℝ) / 2^100 ≤ (1 / 2^40)^2 := by norm_num
        _ ≤ _ := pow_le_pow_left₀ (by positivity) h1 2
    · calc ‖quatOf R‖^2 ≤ (2^40)^2 := pow_le_pow_left₀ hp.le h2 2
        _ ≤ _ := by norm_num
  have t0 := tiny_pos; have t1 := tiny_le
  have n1 : ‖‖quatOf R‖⁻¹ • quatOf R‖ = 1 := by rw [norm_smul, norm_inv, norm_norm]; exact inv_mul_cancel₀ hp.ne'
  have n2 := nsq (‖quatOf R‖⁻¹ • quatOf R)
  rw [n1] at n2
  simp only [Quaternion.re_smul, Quaternion.imI_smul, Quaternion.imJ_smul, Quaternion.imK_smul, smul_eq_mul] at n2
  have u : ∀ i, Spec.Near ((XMQuaternionNormalize c R).lane i).bits (‖quatOf R‖⁻¹ * vals R i) (|‖quatOf R‖⁻¹ * vals R i| + tiny) 15 := by
    intro i
    have := C95_normalize4 c R hR hm i
    rw [es] at this
    rw [abs_mul, abs_of_pos (inv_pos.2 hp), inv_mul_eq_div, inv_mul_eq_div]; exact this
  have x3 : (quatOf R).re = vals R 3 := rfl
  have x0 : (quatOf R).imI = vals R 0 := rfl
  have x1 : (quatOf R).imJ = vals R 1 := rfl
  have x2 : (quatOf R).imK = vals R 2 := rfl
  rw [x0, x1, x2, x3] at n2
  have le1 : ∀ {x : ℝ}, x^2 ≤ 1 → |x| ≤ 1 := fun {x} h => by rw [← sq_le_one_iff_abs_le_one]; exact h
  have b0 := le1 (x := ‖quatOf R‖⁻¹ * vals R 0) (by nlinarith [sq_nonneg (‖quatOf R‖⁻¹ * vals R 1), sq_nonneg (‖quatOf R‖⁻¹ * vals R 2), sq_nonneg (‖quatOf R‖⁻¹ * vals R 3)])
  have b1 := le1 (x := ‖quatOf R‖⁻¹ * vals R 1) (by nlinarith [sq_nonneg (‖quatOf R‖⁻¹ * vals R 0), sq_nonneg (‖quatOf R‖⁻¹ * vals R 2), sq_nonneg (‖quatOf R‖⁻¹ * vals R 3)])
  have b2 := le1 (x := ‖quatOf R‖⁻¹ * vals R 2) (by nlinarith [sq_nonneg (‖quatOf R‖⁻¹ * vals R 1), sq_nonneg (‖quatOf R‖⁻¹ * vals R 0), sq_nonneg (‖quatOf R‖⁻¹ * vals R 3)])
  have b3 := le1 (x := ‖quatOf R‖⁻¹ * vals R 3) (by nlinarith [sq_nonneg (‖quatOf R‖⁻¹ * vals R 1), sq_nonneg (‖quatOf R‖⁻¹ * vals R 2), sq_nonneg (‖quatOf R‖⁻¹ * vals R 0)])
  have fin : ∀ {x : ℝ}, |x| ≤ 1 → |x| + tiny ≤ 2^127 := fun {x} h => by norm_num at t1 ⊢; linarith
  have g0 : 0 ≤ gam 15 := gam_nonneg (k := 15) (by norm_num)
  have sq : ∀ {r x : ℝ}, |x| ≤ 1 → |r - x| ≤ gam 15 * (|x| + tiny) → (r - x)^2 ≤ (895 / 10^9)^2 * (x^2 + 3 * tiny) := by
    intro r x hx h
    have h' : |r - x| ≤ 895 / 10^9 * (|x| + tiny) := h.trans (mul_le_mul_of_nonneg_right gam15 (by positivity))
    rw [← sq_abs]
    refine (pow_le_pow_left₀ (abs_nonneg _) h' 2).trans ?_
    rw [mul_pow]
    refine mul_le_mul_of_nonneg_left ?_ (by positivity)
    rw [← sq_abs x]
    nlinarith [mul_le_mul_of_nonneg_right hx t0.le, mul_le_mul_of_nonneg_right t1 t0.le]
  have d0 := u 0 (fin b0); have d1 := u 1 (fin b1); have d2 := u 2 (fin b2); have d3 := u 3 (fin b3)
  refine ⟨fun i _ => ?_, ?_⟩
  · fin_cases i
    · exact d0.1
    · exact d1.1
    · exact d2.1
    · exact d3.1
  · refine (le_abs_self _).trans (abs_le_of_sq_le_sq ?_ (by positivity))
    rw [nsq]
    simp only [Quaternion.re_sub, Quaternion.imI_sub, Quaternion.imJ_sub, Quaternion.imK_sub, Quaternion.re_smul, Quaternion.imI_smul, Quaternion.imJ_smul, Quaternion.imK_smul, smul_eq_mul, x0, x1, x2, x3]
    have s0 := sq b0 d0.2; have s1 := sq b1 d1.2; have s2 := sq b2 d2.2; have s3 := sq b3 d3.2
    have key : ∀ {r0 r1 r2 r3 y0 y1 y2 y3 : ℝ}, r0 ≤ (895 / 10^9)^2 * (y0 + 3 * tiny) → r1 ≤ (895 / 10^9)^2 * (y1 + 3 * tiny) → r2 ≤ (895 / 10^9)^2 * (y2 + 3 * tiny) → r3 ≤ (895 / 10^9)^2 * (y3 + 3 * tiny) →
        1 ^ 2 = y3 + y0 + y1 + y2 → r3 + r0 + r1 + r2 ≤ (9 / 10^7)^2 := by
      intro r0 r1 r2 r3 y0 y1 y2 y3 a0 a1 a2 a3 hy
      have : r3 + r0 + r1 + r2 ≤ (895 / 10^9)^2 * (1 + 12 * tiny) := by nlinarith
      refine this.trans ?_
      norm_num at t1 ⊢; linarith
    exact key s0 s1 s2 s3 n2
/-- The direction of a quaternion. -/
noncomputable def dir (q : ℍ[ℝ]) : ℍ[ℝ] := ‖q‖⁻¹ • q
theorem norm_dir {q : ℍ[ℝ]} (h : q ≠ 0) : ‖dir q‖ = 1 := by
  unfold dir; rw [norm_smul, norm_inv, norm_norm]; exact inv_mul_cancel₀ (norm_ne_zero_iff.2 h)
theorem dir_mul (p q : ℍ[ℝ]) : dir (p * q) = dir p * dir q := by
  unfold dir; rw [norm_mul, mul_inv, smul_mul_smul_comm]
theorem dir_unit {q : ℍ[ℝ]} (h : ‖q‖ = 1) : dir q = q := by unfold dir; rw [h, inv_one, one_smul]
/-- Directions of close quaternions are close. -/
theorem dir_close {x y : ℍ[ℝ]} (hx : x ≠ 0) (hy : y ≠ 0) : ‖dir x - dir y‖ ≤ 2 * ‖x - y‖ / ‖y‖ := by
  have nx := norm_pos_iff.2 hx; have ny := norm_pos_iff.2 hy
  have e : dir x - dir y = ‖y‖⁻¹ • (x - y) + (‖x‖⁻¹ - ‖y‖⁻¹) • x := by unfold dir; module
  rw [e]
  refine (norm_add_le _ _).trans ?_
  rw [norm_smul, norm_smul, norm_inv, norm_norm, Real.norm_eq_abs]
  have h2 : |‖x‖⁻¹ - ‖y‖⁻¹| * ‖x‖ = |‖y‖ - ‖x‖| / ‖y‖ := by
    rw [inv_sub_inv nx.ne' ny.ne', abs_div, abs_mul, abs_of_pos nx, abs_of_pos ny]; field_simp
  rw [h2, inv_mul_eq_div, ← add_div]
  refine div_le_div_of_nonneg_right ?_ ny.le
  have := abs_norm_sub_norm_le y x
  rw [norm_sub_rev] at this
  linarith
end Drift
open Drift

/-- Finite lanes and a length between one half and two. -/
def NearUnitQ (Q : V4 (F32 P)) : Prop := Fins 4 Q ∧ 1 / 2 ≤ ‖quatOf Q‖ ∧ ‖quatOf Q‖ ≤ 2
/-- The exact product of rotations, applied one after the other, starting from `A`. -/
noncomputable def exactChain (A : ℍ[ℝ]) (l : List ℍ[ℝ]) : ℍ[ℝ] := l.foldl (fun A q => q * A) A
/-- What a program computes that applies rotations one after the other and renormalizes each time. -/
def computedChain (c : Cfg) (A : V4 (F32 P)) (l : List (V4 (F32 P))) : V4 (F32 P) := l.foldl (fun A Q => XMQuaternionNormalize c (XMQuaternionMultiply c A Q)) A
/-- The same without renormalization. -/
def rawChain (c : Cfg) (A : V4 (F32 P)) (l : List (V4 (F32 P))) : V4 (F32 P) := l.foldl (fun A Q => XMQuaternionMultiply c A Q) A

namespace Drift
theorem ne0 {Q : V4 (F32 P)} (h : NearUnitQ Q) : quatOf Q ≠ 0 := by
  intro e; have := h.2.1; rw [e, norm_zero] at this; norm_num at this
/-- One step of the chain. -/
theorem step (c : Cfg) {A B : V4 (F32 P)} (hA : NearUnitQ A) (hB : NearUnitQ B) :
    Fins 4 (XMQuaternionNormalize c (XMQuaternionMultiply c A B)) ∧ |‖quatOf (XMQuaternionNormalize c (XMQuaternionMultiply c A B))‖ - 1| ≤ 9 / 10^7 ∧
      ‖dir (quatOf (XMQuaternionNormalize c (XMQuaternionMultiply c A B))) - dir (quatOf B) * dir (quatOf A)‖ ≤ 3 / 10^6 := by
  have m1 : 1 / 4 ≤ ‖quatOf B‖ * ‖quatOf A‖ := by nlinarith [hA.2.1, hB.2.1, hA.2.2, hB.2.2]
  have m2 : ‖quatOf B‖ * ‖quatOf A‖ ≤ 4 := by nlinarith [hA.2.1, hB.2.1, hA.2.2, hB.2.2]
  have t1 := tiny_le
  obtain ⟨f1, e1⟩ := mul_step c hA.1 hB.1 (m2.trans (by norm_num))
  have n0 : ‖quatOf B * quatOf A‖ = ‖quatOf B‖ * ‖quatOf A‖ := norm_mul _ _
  have e2 : ‖quatOf (XMQuaternionMultiply c A B) - quatOf B * quatOf A‖ ≤ 48 / 10^8 * ‖quatOf B * quatOf A‖ := by
    rw [n0]; refine e1.trans ?_; norm_num at t1 m1 ⊢; nlinarith
  have b := abs_norm_sub_norm_le (quatOf (XMQuaternionMultiply c A B)) (quatOf B * quatOf A)
  rw [abs_le] at b
  rw [n0] at e2 b
  obtain ⟨f2, e3⟩ := norm_step c f1 (by norm_num at m1 m2 ⊢; nlinarith [b.1]) (by norm_num at m1 m2 ⊢; nlinarith [b.2])
  have r0 : quatOf (XMQuaternionMultiply c A B) ≠ 0 := by
    rw [← norm_pos_iff]; nlinarith [b.1]
  have q0 : quatOf B * quatOf A ≠ 0 := mul_ne_zero (ne0 hB) (ne0 hA)
  have u := norm_dir r0
  change ‖_ - dir (quatOf (XMQuaternionMultiply c A B))‖ ≤ _ at e3
  have l := abs_norm_sub_norm_le (quatOf (XMQuaternionNormalize c (XMQuaternionMultiply c A B))) (dir (quatOf (XMQuaternionMultiply c A B)))
  rw [u] at l
  have l' := l.trans e3
  refine ⟨f2, l', ?_⟩
  have z0 : quatOf (XMQuaternionNormalize c (XMQuaternionMultiply c A B)) ≠ 0 := by
    intro e; rw [e, norm_zero] at l'; norm_num at l'
  have w0 : dir (quatOf (XMQuaternionMultiply c A B)) ≠ 0 := by rw [← norm_pos_iff, u]; norm_num
  have d1 := dir_close z0 w0
  rw [u, div_one, dir_unit u] at d1
  have d2 := dir_close r0 q0
  rw [n0] at d2
  have d3 : 2 * ‖quatOf (XMQuaternionMultiply c A B) - quatOf B * quatOf A‖ / (‖quatOf B‖ * ‖quatOf A‖) ≤ 96 / 10^8 := by
    rw [div_le_iff₀ (by linarith)]; linarith
  rw [← dir_mul]
  have t := norm_sub_le_norm_sub_add_norm_sub (dir (quatOf (XMQuaternionNormalize c (XMQuaternionMultiply c A B)))) (dir (quatOf (XMQuaternionMultiply c A B))) (dir (quatOf B * quatOf A))
  linarith
theorem chain (c : Cfg) (l : List (V4 (F32 P))) : ∀ (A : V4 (F32 P)) (X : ℍ[ℝ]), NearUnitQ A → (∀ Q ∈ l, NearUnitQ Q) →
    Fins 4 (computedChain c A l) ∧ |‖quatOf (computedChain c A l)‖ - 1| ≤ max (9 / 10^7) (if l = [] then |‖quatOf A‖ - 1| else 0) ∧
      ‖dir (quatOf (computedChain c A l)) - exactChain X (l.map fun Q => dir (quatOf Q))‖ ≤ ‖dir (quatOf A) - X‖ + 3 / 10^6 * l.length := by
  induction l with
  | nil => intro A X hA _; exact ⟨hA.1, by simp [computedChain], by simp [computedChain, exactChain]⟩
  | cons B l ih =>
    intro A X hA hl
    have hB := hl B (by simp)
    obtain ⟨f, e1, e2⟩ := step c hA hB
    have hA' : NearUnitQ (XMQuaternionNormalize c (XMQuaternionMultiply c A B)) := ⟨f, by rw [abs_le] at e1; norm_num at e1 ⊢; linarith [e1.1], by rw [abs_le] at e1; norm_num at e1 ⊢; linarith [e1.2]⟩
    obtain ⟨g1, g2, g3⟩ := ih _ (dir (quatOf B) * X) hA' (fun Q hQ => hl Q (by simp [hQ]))
    refine ⟨g1, g2.trans ?_, ?_⟩
    · refine max_le (le_max_left _ _) (le_trans ?_ (le_max_left _ _))
      split_ifs
      · exact e1
      · norm_num
    · refine g3.trans ?_
      have : ‖dir (quatOf (XMQuaternionNormalize c (XMQuaternionMultiply c A B))) - dir (quatOf B) * X‖ ≤ 3 / 10^6 + ‖dir (quatOf A) - X‖ := by
        have t := norm_sub_le_norm_sub_add_norm_sub (dir (quatOf (XMQuaternionNormalize c (XMQuaternionMultiply c A B)))) (dir (quatOf B) * dir (quatOf A)) (dir (quatOf B) * X)
        rw [← mul_sub, norm_mul, norm_dir (ne0 hB), one_mul] at t
        linarith
      rw [List.length_cons]; push_cast; linarith
end Drift

/-- C131: after any number of rotations applied and renormalized in single precision, the quaternion is finite, its length is one up to 1e-6, and it is within (n+1) * 3e-6 of the
exact product of the rotations. -/
theorem C131_renormalizedChain (c : Cfg) (A : V4 (F32 P)) (l : List (V4 (F32 P))) (hA : NearUnitQ A) (hl : ∀ Q ∈ l, NearUnitQ Q) (hn : l ≠ []) :
    Fins 4 (computedChain c A l) ∧ |‖quatOf (computedChain c A l)‖ - 1| ≤ 1 / 10^6 ∧
      ‖quatOf (computedChain c A l) - exactChain (‖quatOf A‖⁻¹ • quatOf A) (l.map fun Q => ‖quatOf Q‖⁻¹ • quatOf Q)‖ ≤ 3 / 10^6 * (l.length + 1) := by
  obtain ⟨h1, h2, h3⟩ := Drift.chain c l A (dir (quatOf A)) hA hl
  rw [if_neg hn] at h2
  have h2' : |‖quatOf (computedChain c A l)‖ - 1| ≤ 9 / 10^7 := h2.trans (max_le le_rfl (by norm_num))
  refine ⟨h1, h2'.trans (by norm_num), ?_⟩
  rw [sub_self, norm_zero, zero_add] at h3
  have n0 : 0 < ‖quatOf (computedChain c A l)‖ := by rw [abs_le] at h2'; norm_num at h2' ⊢; intro e; rw [e, norm_zero] at h2'; linarith [h2'.1]
  have e : ‖quatOf (computedChain c A l) - dir (quatOf (computedChain c A l))‖ ≤ 9 / 10^7 := by
    have : quatOf (computedChain c A l) - dir (quatOf (computedChain c A l)) = (1 - ‖quatOf (computedChain c A l)‖⁻¹) • quatOf (computedChain c A l) := by unfold dir; module
    rw [this, norm_smul, Real.norm_eq_abs]
    have k : |1 - ‖quatOf (computedChain c A l)‖⁻¹| * ‖quatOf (computedChain c A l)‖ = |‖quatOf (computedChain c A l)‖ - 1| := by
      rw [show ‖quatOf (computedChain c A l)‖ - 1 = (1 - ‖quatOf (computedChain c A l)‖⁻¹) * ‖quatOf (computedChain c A l)‖ by field_simp, abs_mul, abs_of_pos n0]
    rw [k]; exact h2'
  have t := norm_sub_le_norm_sub_add_norm_sub (quatOf (computedChain c A l)) (dir (quatOf (computedChain c A l))) (exactChain (dir (quatOf A)) (l.map fun Q => dir (quatOf Q)))
  refine t.trans ?_
  norm_num at e h3 ⊢; linarith

namespace Drift
theorem raw_step (c : Cfg) {A B : V4 (F32 P)} (hA : NearUnitQ A) (hB : NearUnitQ B) :
    Fins 4 (XMQuaternionMultiply c A B) ∧ |‖quatOf (XMQuaternionMultiply c A B)‖ - ‖quatOf B‖ * ‖quatOf A‖| ≤ 48 / 10^8 * (‖quatOf B‖ * ‖quatOf A‖) ∧
      ‖dir (quatOf (XMQuaternionMultiply c A B)) - dir (quatOf B) * dir (quatOf A)‖ ≤ 1 / 10^6 := by
  have m1 : 1 / 4 ≤ ‖quatOf B‖ * ‖quatOf A‖ := by nlinarith [hA.2.1, hB.2.1, hA.2.2, hB.2.2]
  have m2 : ‖quatOf B‖ * ‖quatOf A‖ ≤ 4 := by nlinarith [hA.2.1, hB.2.1, hA.2.2, hB.2.2]
  have t1 := tiny_le
  obtain ⟨f1, e1⟩ := mul_step c hA.1 hB.1 (m2.trans (by norm_num))
  have n0 : ‖quatOf B * quatOf A‖ = ‖quatOf B‖ * ‖quatOf A‖ := norm_mul _ _
  have e2 : ‖quatOf (XMQuaternionMultiply c A B) - quatOf B * quatOf A‖ ≤ 48 / 10^8 * (‖quatOf B‖ * ‖quatOf A‖) := by
    refine e1.trans ?_; norm_num at t1 m1 ⊢; nlinarith
  have b := abs_norm_sub_norm_le (quatOf (XMQuaternionMultiply c A B)) (quatOf B * quatOf A)
  rw [n0] at b
  have q0 : quatOf B * quatOf A ≠ 0 := mul_ne_zero (ne0 hB) (ne0 hA)
  have r0 : quatOf (XMQuaternionMultiply c A B) ≠ 0 := by
    rw [← norm_pos_iff]; rw [abs_le] at b; nlinarith [b.1]
  refine ⟨f1, b.trans e2, ?_⟩
  have d2 := dir_close r0 q0
  rw [n0] at d2
  have d3 : 2 * ‖quatOf (XMQuaternionMultiply c A B) - quatOf B * quatOf A‖ / (‖quatOf B‖ * ‖quatOf A‖) ≤ 96 / 10^8 := by
    rw [div_le_iff₀ (by linarith)]; linarith
  rw [← dir_mul]
  refine d2.trans (d3.trans (by norm_num))
theorem raw (c : Cfg) (l : List (V4 (F32 P))) : ∀ (A : V4 (F32 P)) (X : ℍ[ℝ]) (δ : ℝ), Fins 4 A → |‖quatOf A‖ - 1| ≤ δ → δ + 3 / 10^6 * l.length ≤ 1 / 2 →
    (∀ Q ∈ l, Fins 4 Q ∧ |‖quatOf Q‖ - 1| ≤ 1 / 10^6) →
    Fins 4 (rawChain c A l) ∧ |‖quatOf (rawChain c A l)‖ - 1| ≤ δ + 3 / 10^6 * l.length ∧
      ‖dir (quatOf (rawChain c A l)) - exactChain X (l.map fun Q => dir (quatOf Q))‖ ≤ ‖dir (quatOf A) - X‖ + 1 / 10^6 * l.length := by
  induction l with
  | nil => intro A X δ hA hd _ _; exact ⟨hA, by simpa [rawChain] using hd, by simp [rawChain, exactChain]⟩
  | cons B l ih =>
    intro A X δ hA hd hn hl
    obtain ⟨hB, hb⟩ := hl B (by simp)
    rw [List.length_cons] at hn; push_cast at hn
    have l0 : (0:ℝ) ≤ l.length := Nat.cast_nonneg _
    rw [abs_le] at hd hb
    have uA : NearUnitQ A := ⟨hA, by norm_num at hd hb hn ⊢; linarith [hd.1], by norm_num at hd hb hn ⊢; linarith [hd.2]⟩
    have uB : NearUnitQ B := ⟨hB, by norm_num at hd hb hn ⊢; linarith [hb.1], by norm_num at hd hb hn ⊢; linarith [hb.2]⟩
    obtain ⟨f, e1, e2⟩ := raw_step c uA uB
    have hA' : |‖quatOf (XMQuaternionMultiply c A B)‖ - 1| ≤ δ + 3 / 10^6 := by
      rw [abs_le] at e1 ⊢
      have a1 : ‖quatOf A‖ ≤ 3 / 2 := by norm_num at hd hn ⊢; linarith [hd.2]
      have a0 := norm_nonneg (quatOf A)
      have p1 : ‖quatOf B‖ * ‖quatOf A‖ ≤ ‖quatOf A‖ + 1 / 10^6 * (3 / 2) := by nlinarith [hb.2]
      have p2 : ‖quatOf A‖ - 1 / 10^6 * (3 / 2) ≤ ‖quatOf B‖ * ‖quatOf A‖ := by nlinarith [hb.1]
      norm_num at *
      constructor <;> linarith [e1.1, e1.2, hd.1, hd.2]
    obtain ⟨g1, g2, g3⟩ := ih _ (dir (quatOf B) * X) (δ + 3 / 10^6) f hA' (by linarith) (fun Q hQ => hl Q (by simp [hQ]))
    refine ⟨g1, g2.trans (by rw [List.length_cons]; push_cast; linarith), g3.trans ?_⟩
    have : ‖dir (quatOf (XMQuaternionMultiply c A B)) - dir (quatOf B) * X‖ ≤ 1 / 10^6 + ‖dir (quatOf A) - X‖ := by
      have t := norm_sub_le_norm_sub_add_norm_sub (dir (quatOf (XMQuaternionMultiply c A B))) (dir (quatOf B) * dir (quatOf A)) (dir (quatOf B) * X)
      rw [← mul_sub, norm_mul, norm_dir (ne0 uB), one_mul] at t
      linarith
    rw [List.length_cons]; push_cast; linarith
end Drift

/-- C131: without renormalization, up to a hundred thousand products of quaternions of length one (up to 1e-6): the length drifts by at most 3e-6 per product and the direction by at most
1e-6 per product. -/
theorem C131_rawChain (c : Cfg) (A : V4 (F32 P)) (l : List (V4 (F32 P))) (hA : Fins 4 A ∧ |‖quatOf A‖ - 1| ≤ 1 / 10^6) (hl : ∀ Q ∈ l, Fins 4 Q ∧ |‖quatOf Q‖ - 1| ≤ 1 / 10^6)
    (hn : l.length ≤ 100000) :
    Fins 4 (rawChain c A l) ∧ |‖quatOf (rawChain c A l)‖ - 1| ≤ 3 / 10^6 * (l.length + 1) ∧
      ‖‖quatOf (rawChain c A l)‖⁻¹ • quatOf (rawChain c A l) - exactChain (‖quatOf A‖⁻¹ • quatOf A) (l.map fun Q => ‖quatOf Q‖⁻¹ • quatOf Q)‖ ≤ 1 / 10^6 * l.length := by
  have hn' : (l.length : ℝ) ≤ 100000 := by exact_mod_cast hn
  obtain ⟨h1, h2, h3⟩ := Drift.raw c l A (dir (quatOf A)) (1 / 10^6) hA.1 hA.2 (by norm_num; linarith) hl
  refine ⟨h1, h2.trans (by linarith), ?_⟩
  rw [sub_self, norm_zero, zero_add] at h3
  exact h3

/-- A rotation by 120 degrees: all four components are one half. -/
def Drift.exQ : V4 (F32 P) := V4.splat (Lane.ofBits 0x3F000000#32)
theorem Drift.exQ_norm : Fins 4 (exQ : V4 (F32 P)) ∧ ‖quatOf (exQ : V4 (F32 P))‖ = 1 := by
  have hv : value 0x3F000000#32 = 1 / 2 := half_value
  refine ⟨fun i _ => by fin_cases i <;> exact (by decide : IsFinite 0x3F000000#32), ?_⟩
  have e : ∀ i, vals (exQ : V4 (F32 P)) i = 1 / 2 := fun i => by fin_cases i <;> exact hv
  have : ‖quatOf (exQ : V4 (F32 P))‖^2 = 1 := by
    rw [nsq]; simp only [quatOf, e]; norm_num
  exact (pow_eq_one_iff_of_nonneg (norm_nonneg _) (by norm_num)).1 this
/-- A chain of a hundred such rotations meets the hypotheses of both theorems. -/
example : NearUnitQ (exQ : V4 (F32 P)) ∧ (∀ Q ∈ List.replicate 100 (exQ : V4 (F32 P)), NearUnitQ Q) ∧ List.replicate 100 (exQ : V4 (F32 P)) ≠ [] ∧
    (∀ Q ∈ List.replicate 100 (exQ : V4 (F32 P)), Fins 4 Q ∧ |‖quatOf Q‖ - 1| ≤ 1 / 10^6) ∧ (List.replicate 100 (exQ : V4 (F32 P))).length ≤ 100000 := by
  obtain ⟨h1, h2⟩ := exQ_norm (P := P)
  have u : NearUnitQ (exQ : V4 (F32 P)) := ⟨h1, by rw [h2]; norm_num, by rw [h2]; norm_num⟩
  refine ⟨u, fun Q h => by rw [List.eq_of_mem_replicate h]; exact u, by simp, fun Q h => by rw [List.eq_of_mem_replicate h]; exact ⟨h1, by rw [h2]; norm_num⟩, by simp⟩
end DXM.Props
