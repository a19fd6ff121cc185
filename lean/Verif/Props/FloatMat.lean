import Verif.Lemmas.VRel
import Verif.Props.FloatRot

/-
C118: determinant and inverse of a matrix on binary32 lanes (interpretation I), by refinement of the exact reading (Lemmas/VRel.lean).
-/

set_option linter.all false

namespace DXM.Props
open DXM.Spec DXM.FErr DXM.IEEE DXM.E Matrix
variable {P : Env}

/-- The matrix of real numbers held in the registers. -/
noncomputable def matOf (M : M4 (F32 P)) : Matrix (Fin 4) (Fin 4) ℝ := Matrix.of fun i j => vals (M.row i) j

theorem leafVR {A : V4 (F32 P)} {B : ℝ} (h : Fins 4 A) (hb : ∀ i, |vals A i| ≤ B) : VR A (vec4 (vals A)) B 0 := by
  intro i
  refine ⟨vals A i, by fin_cases i <;> rfl, leafB (h i (by omega)) (hb i)⟩
theorem leafMR {M : M4 (F32 P)} {B : ℝ} (h : ∀ i, Fins 4 (M.row i)) (hb : ∀ i j, |vals (M.row i) j| ≤ B) (i : Fin 4) : VR (M.row i) ((mat (matOf M)).row i) B 0 := by
  have := leafVR (h i) (hb i)
  have e : (mat (matOf M)).row i = vec4 (vals (M.row i)) := by fin_cases i <;> rfl
  rwa [e]

/-- Apply the rules. -/
macro "vr" : tactic => `(tactic| (repeat' with_reducible first
  | assumption | apply VR.perm | apply VR.shuffle | apply VR.swizzle | apply VR.permute | apply VR.select0101 | apply VR.mul | apply VR.mul' | apply VR.fmadd | apply VR.fnmadd | apply VR.madd | apply VR.nmsub | apply VR.add | apply VR.sub | apply VR.dot4))

theorem transpose_rel {M : M4 (F32 P)} {A : M4 E} {B : ℝ} {k : ℕ} (h : ∀ i, VR (M.row i) (A.row i) B k) (i : Fin 4) :
    VR ((transposeSSE M.r0 M.r1 M.r2 M.r3).row i) ((transposeSSE A.r0 A.r1 A.r2 A.r3).row i) B k := by
  rw [transposeSSE_eq, transposeSSE_eq]
  fin_cases i
  · exact VR.mk (h 0 0) (h 1 0) (h 2 0) (h 3 0)
  · exact VR.mk (h 0 1) (h 1 1) (h 2 1) (h 3 1)
  · exact VR.mk (h 0 2) (h 1 2) (h 2 2) (h 3 2)
  · exact VR.mk (h 0 3) (h 1 3) (h 2 3) (h 3 3)
theorem transpose_rel' (c : Cfg) {M : M4 (F32 P)} {A : M4 E} {B : ℝ} {k : ℕ} (h : ∀ i, VR (M.row i) (A.row i) B k) (i : Fin 4) :
    VR ((XMMatrixTranspose c M).row i) ((XMMatrixTranspose c A).row i) B k := by
  have := transpose_rel h i
  rw [transposeSSE_eq, transposeSSE_eq] at this
  rw [XMMatrixTranspose_eq, XMMatrixTranspose_eq]; exact this

/-- The magnitude of a cofactor: six products of three entries. -/
noncomputable def cofMag (B : ℝ) : ℝ := 3 * (B * (B * B + tiny + (B * B + tiny)) + tiny)
theorem inverseSSE_rel (c : Cfg) {M : M4 (F32 P)} {A : M4 E} {B : ℝ} (h : ∀ i, VR (M.row i) (A.row i) B 0) (hB : B ≤ 2^127) (hD : B * B + tiny + (B * B + tiny) ≤ 2^127) (hC : cofMag B ≤ 2^127) :
    (∀ i, VR ((inverseSSE c M).1.row i) ((inverseSSE c A).1.row i) (cofMag B) 5) ∧ VR (inverseSSE c M).2 (inverseSSE c A).2 (4 * (cofMag B * B + tiny)) 9 := by
  have t := transpose_rel h
  have t0 := t 0; have t1 := t 1; have t2 := t 2; have t3 := t 3
  simp only [M4.row] at t0 t1 t2 t3
  have key : ∀ i, VR ((inverseSSE c M).1.row i) ((inverseSSE c A).1.row i) (cofMag B) 5 := by
    intro i
    unfold inverseSSE
    fin_cases i <;> simp only [M4.row] <;> refine VR.le (by vr <;> (simp only [max_self]; assumption)) ?_ ?_
    all_goals first | (simp only [max_self, cofMag]; linarith) | norm_num
  refine ⟨key, ?_⟩
  exact VR.dot4 c (key 0) t0 hC hB
theorem inverseNOI_rel (c : Cfg) {M : M4 (F32 P)} {A : M4 E} {B : ℝ} (h : ∀ i, VR (M.row i) (A.row i) B 0) (hB : B ≤ 2^127) (hD : B * B + tiny + (B * B + tiny) ≤ 2^127) (hC : cofMag B ≤ 2^127) :
    (∀ i, VR ((inverseNOI c M).1.row i) ((inverseNOI c A).1.row i) (cofMag B) 5) ∧ VR (inverseNOI c M).2 (inverseNOI c A).2 (4 * (cofMag B * B + tiny)) 9 := by
  have t := transpose_rel' c h
  have t0 := t 0; have t1 := t 1; have t2 := t 2; have t3 := t 3
  simp only [M4.row] at t0 t1 t2 t3
  have key : ∀ i, VR ((inverseNOI c M).1.row i) ((inverseNOI c A).1.row i) (cofMag B) 5 := by
    intro i
    unfold inverseNOI
    fin_cases i <;> simp only [M4.row] <;> refine VR.le (by vr <;> (simp only [max_self]; assumption)) ?_ ?_
    all_goals first | (simp only [max_self, cofMag]; linarith) | norm_num
  refine ⟨key, ?_⟩
  exact VR.dot4 c (key 0) t0 hC hB

theorem sign_rel {A : V4 (F32 P)} {X : V4 E} {M : ℝ} {k : ℕ} (h : VR A X M k) :
    VR (XMVectorMultiply A ⟨Lane.c1, Lane.cNeg1, Lane.c1, Lane.cNeg1⟩) (XMVectorMultiply X ⟨Lane.c1, Lane.cNeg1, Lane.c1, Lane.cNeg1⟩) M k :=
  VR.mk (h 0).mul1 (h 1).mulN1 (h 2).mul1 (h 3).mulN1
theorem determinant_rel (c : Cfg) {M : M4 (F32 P)} {A : M4 E} {B : ℝ} (h : ∀ i, VR (M.row i) (A.row i) B 0) (hB : B ≤ 2^127) (hD : B * B + tiny + (B * B + tiny) ≤ 2^127) (hC : cofMag B ≤ 2^127) :
    VR (XMMatrixDeterminant c M) (XMMatrixDeterminant c A) (4 * (B * cofMag B + tiny)) 9 := by
  have t0 := h 0; have t1 := h 1; have t2 := h 2; have t3 := h 3
  simp only [M4.row] at t0 t1 t2 t3
  unfold XMMatrixDeterminant
  refine VR.dot4 c (j := 0) (k := 5) (sign_rel t0) (VR.le (by vr) ?_ ?_) hB hC
  · simp only [cofMag]; linarith
  · norm_num

/-! ### the bounds -/

/-- Magnitudes in the range 2⁻²⁰ … 2²⁰. -/
theorem mags {B : ℝ} (h0 : 1/2^20 ≤ B) (h1 : B ≤ 2^20) :
    B ≤ 2^127 ∧ B * B + tiny + (B * B + tiny) ≤ 2^127 ∧ cofMag B ≤ 2^127 ∧ cofMag B ≤ 601/100 * B^3 ∧ 4 * (B * cofMag B + tiny) ≤ 241/10 * B^4 := by
  have hp : 0 < B := lt_of_lt_of_le (by norm_num) h0
  have e2 : B * B ≤ 2^40 := by nlinarith
  have e3 : B ^ 3 ≤ 2^60 := by
    have := pow_le_pow_left₀ hp.le h1 3; norm_num at this ⊢; linarith
  have l2 : 1/2^40 ≤ B^2 := by
    have := pow_le_pow_left₀ (by norm_num) h0 2; norm_num at this ⊢; linarith
  have l3 : 1/2^60 ≤ B^3 := by
    have := pow_le_pow_left₀ (by norm_num) h0 3; norm_num at this ⊢; linarith
  have t1 : tiny ≤ 1/2^60 * B^3 := by unfold tiny; nlinarith
  have t2 : B * tiny ≤ 1/2^60 * B^3 := by
    have : tiny ≤ 1/2^60 * B^2 := by unfold tiny; nlinarith
    nlinarith
  have c3 : cofMag B ≤ 601/100 * B^3 := by
    unfold cofMag
    have : B * (B * B) = B^3 := by ring
    nlinarith
  refine ⟨by linarith, by unfold tiny; linarith, by linarith, c3, ?_⟩
  have : tiny ≤ 1/2^40 * B^4 := by
    have : B^4 = B^2 * B^2 := by ring
    have : 1/2^80 ≤ B^4 := by rw [this]; nlinarith
    unfold tiny; linarith
  have : B * cofMag B ≤ B * (601/100 * B^3) := mul_le_mul_of_nonneg_left c3 hp.le
  have : B * (601/100 * B^3) = 601/100 * B^4 := by ring
  have : 0 < B^4 := by positivity
  linarith

theorem RAp.fclose {a : F32 P} {v M e : ℝ} {k : ℕ} (h : RAp a (num v) M k) (hk : k ≤ 2^20) (hM : M ≤ 2^127) (he : gam k * M ≤ e) : FClose a.bits v e := by
  obtain ⟨w, e1, h⟩ := h
  obtain rfl : v = w := by simpa using e1
  exact Ap.fclose h hk hM rfl he
theorem RAp.mag {a : F32 P} {v M : ℝ} {k : ℕ} (h : RAp a (num v) M k) (hk : k ≤ 2^20) : |v| ≤ M := by
  obtain ⟨w, e1, h⟩ := h
  obtain rfl : v = w := by simpa using e1
  exact (h hk).1

theorem gam5M : gam 5 ≤ 3/10^7 := by unfold gam ulp2; norm_num
theorem gam9M : gam 9 ≤ 54/10^8 := by unfold gam ulp2; norm_num

/-- C118: the determinant: within 1.4e-5 B⁴, where B bounds the magnitude of the entries. -/
theorem C118_determinant (c : Cfg) (M : M4 (F32 P)) (B : ℝ) (hM : ∀ i, Fins 4 (M.row i)) (hb : ∀ i j, |vals (M.row i) j| ≤ B) (h0 : 1/2^20 ≤ B) (h1 : B ≤ 2^20) (i : Fin 4) :
    FClose ((XMMatrixDeterminant c M).lane i).bits (matOf M).det (14/10^6 * B^4) := by
  obtain ⟨m1, m2, m3, m4, m5⟩ := mags h0 h1
  have h := determinant_rel c (leafMR hM hb) m1 m2 m3 i
  rw [XMMatrixDeterminant_mat] at h
  have e : (all (matOf M).det).lane i = num (matOf M).det := by fin_cases i <;> rfl
  rw [e] at h
  have h4 : B^4 ≤ 2^80 := by
    have := pow_le_pow_left₀ (by linarith [show (0:ℝ) < 1/2^20 by norm_num]) h1 4; norm_num at this ⊢; linarith
  have h40 : 0 ≤ B^4 := by positivity
  refine RAp.fclose h (by norm_num) (by linarith) ?_
  calc gam 9 * (4 * (B * cofMag B + tiny)) ≤ 54/10^8 * (241/10 * B^4) := mul_le_mul gam9M m5 (by have := RAp.mag h (by norm_num); linarith [abs_nonneg (matOf M).det]) (by norm_num)
    _ ≤ _ := by linarith

theorem inv_err {B w d C a X : ℝ} (hB : 0 < B) (hw : w ≠ 0) (hd : |d - w| ≤ 14/10^6 * B^4) (hK : B^4 ≤ 20000 * |w|) (ha : |a - C| ≤ 2/10^6 * B^3) (hC : |C| ≤ 601/100 * B^3)
    (hX : |X - a * (1/d)| ≤ 13/10^8 * (|a| * (1/|d|)) + 1/10^8 * (B^3 / |w|)) : |X - C / w| ≤ B^3 / |w| * (4/10^6 + 12/10^5 * (B^4 / |w|)) := by
  have hw' : 0 < |w| := abs_pos.2 hw
  have hB3 : 0 < B^3 := by positivity
  have hB4 : 0 < B^4 := by positivity
  have hd1 : 72/100 * |w| ≤ |d| := by
    have := abs_sub_abs_le_abs_sub w d
    rw [abs_sub_comm] at this
    linarith
  have hd0 : 0 < |d| := by linarith
  have hdn : d ≠ 0 := abs_pos.1 hd0
  have hi : 1/|d| ≤ 139/100 * (1/|w|) := by
    have : 139/100 * (1/|w|) = 139/100/|w| := by ring
    rw [this, div_le_div_iff₀ hd0 hw']; linarith
  have q0 : 0 < 1/|w| := by positivity
  have q1 : 0 < 1/|d| := by positivity
  have e1 : a * (1/d) - C / w = (a - C) * (1/d) + C * (w - d) * (1/d) * (1/w) := by field_simp; ring
  have b1 : |(a - C) * (1/d)| ≤ 2/10^6 * B^3 * (139/100 * (1/|w|)) := by
    rw [abs_mul, abs_div, abs_one]; exact mul_le_mul ha hi q1.le (by positivity)
  have b2 : |C * (w - d) * (1/d) * (1/w)| ≤ 601/100 * B^3 * (14/10^6 * B^4) * (139/100 * (1/|w|)) * (1/|w|) := by
    rw [abs_mul, abs_mul, abs_mul, abs_div, abs_div, abs_one, abs_sub_comm w d]
    have := mul_le_mul hC hd (abs_nonneg _) (by positivity)
    exact mul_le_mul_of_nonneg_right (mul_le_mul this hi q1.le (by positivity)) q0.le
  have b3 : |a| ≤ 6011/1000 * B^3 := by
    have := abs_add_le (a - C) C; rw [sub_add_cancel] at this; linarith
  have b4 : |a| * (1/|d|) ≤ 6011/1000 * B^3 * (139/100 * (1/|w|)) := mul_le_mul b3 hi q1.le (by positivity)
  have t1 := abs_add_le (X - a * (1/d)) (a * (1/d) - C / w)
  rw [sub_add_sub_cancel] at t1
  have t2 := abs_add_le ((a - C) * (1/d)) (C * (w - d) * (1/d) * (1/w))
  rw [← e1] at t2
  have p1 : 0 < B^3 * (1/|w|) := by positivity
  have p2 : 0 < B^3 * (1/|w|) * (B^4 * (1/|w|)) := by positivity
  rw [div_eq_mul_one_div (B^3)] at hX
  rw [div_eq_mul_one_div (B^3), div_eq_mul_one_div (B^4)]
  nlinarith

/-- One entry: a rounded cofactor times the rounded reciprocal of the rounded determinant. -/
theorem inv_lane {a d : F32 P} {B w C : ℝ} (h0 : 1/2^20 ≤ B) (h1 : B ≤ 2^20) (hw : w ≠ 0) (ha : RAp a (num C) (cofMag B) 5) (hd : FClose d.bits w (14/10^6 * B^4)) (hw1 : |w| ≤ 241/10 * B^4)
    (hK : B^4 ≤ 20000 * |w|) : FClose (Lane.mul a (Lane.div Lane.c1 d)).bits (C / w) (B^3 / |w| * (4/10^6 + 12/10^5 * (B^4 / |w|))) := by
  obtain ⟨m1, m2, m3, m4, m5⟩ := mags h0 h1
  have hp : 0 < B := lt_of_lt_of_le (by norm_num) h0
  have h4 : B^4 ≤ 2^80 := by
    have := pow_le_pow_left₀ hp.le h1 4; norm_num at this ⊢; linarith
  have h3 : B^3 ≤ 2^60 := by
    have := pow_le_pow_left₀ hp.le h1 3; norm_num at this ⊢; linarith
  have l4 : 1/2^80 ≤ B^4 := by
    have := pow_le_pow_left₀ (by norm_num) h0 4; norm_num at this ⊢; linarith
  have hw' : 0 < |w| := abs_pos.2 hw
  have hC : |C| ≤ 601/100 * B^3 := (RAp.mag ha (by norm_num)).trans m4
  obtain ⟨fa, ea⟩ : FClose a.bits C (2/10^6 * B^3) := RAp.fclose ha (by norm_num) m3 (by
    calc gam 5 * cofMag B ≤ 3/10^7 * (601/100 * B^3) := mul_le_mul gam5M m4 ((abs_nonneg C).trans (RAp.mag ha (by norm_num))) (by norm_num)
      _ ≤ _ := by have : 0 < B^3 := by positivity
                  linarith)
  obtain ⟨fd, ed⟩ := hd
  have hd1 : 72/100 * |w| ≤ |value d.bits| := by
    have := abs_sub_abs_le_abs_sub w (value d.bits)
    rw [abs_sub_comm] at this
    linarith
  have hd2 : |value d.bits| ≤ 2^127 := by
    have := abs_sub_abs_le_abs_sub (value d.bits) w
    linarith
  have hd0 : 0 < |value d.bits| := by linarith
  have hdn : value d.bits ≠ 0 := abs_pos.1 hd0
  have A : |value a.bits| ≤ 2^63 := by
    have := abs_sub_abs_le_abs_sub (value a.bits) C
    linarith
  have r1 : 1 / |value d.bits| ≤ 2^100 := by
    rw [div_le_iff₀ hd0]; linarith
  have ht : tiny ≤ 1 := by unfold tiny; norm_num
  have R := oneB.div (P := P) (leaf (x := d) fd) hdn (by norm_num) hd2
  have X := (leaf (x := a) fa).mul R (le_trans A (by norm_num)) (le_trans (add_le_add r1 ht) (by norm_num))
  have b3 : |value a.bits| ≤ 6011/1000 * B^3 := by
    have := abs_add_le (value a.bits - C) C; rw [sub_add_cancel] at this
    have : 0 < B^3 := by positivity
    linarith
  have i1 : 1 / |value d.bits| ≤ 139/100 * (1/|w|) := by
    have : 139/100 * (1/|w|) = 139/100/|w| := by ring
    rw [this, div_le_div_iff₀ hd0 hw']; linarith
  have k1 : B^3 * (1/|w|) ≤ 20000 * 2^20 := by
    have e : B^3 * (1/|w|) = B^3/|w| := by ring
    rw [e, div_le_iff₀ hw']
    have : B^4 ≤ 20000 * |w| := hK
    have e2 : B^4 = B^3 * B := by ring
    have : B^3 * (1/2^20) ≤ B^4 := by rw [e2]; exact mul_le_mul_of_nonneg_left h0 (by positivity)
    linarith
  have k2 : 1/2^25 ≤ B^3 / |w| := by
    rw [le_div_iff₀ hw']
    have e2 : B^4 = B^3 * B := by ring
    have : B^4 ≤ B^3 * 2^20 := by rw [e2]; exact mul_le_mul_of_nonneg_left h1 (by positivity)
    linarith
  have q : |value a.bits| * (1 / |value d.bits|) ≤ 2^40 := by
    have := mul_le_mul b3 i1 (by positivity) (by positivity)
    nlinarith
  have tt : |value a.bits| * tiny ≤ 1/2^60 := by
    have := mul_le_mul_of_nonneg_right A (show 0 ≤ tiny by unfold tiny; positivity)
    refine this.trans ?_
    unfold tiny; norm_num
  have t2 : tiny ≤ 1/2^60 := by unfold tiny; norm_num
  obtain ⟨fx, ex⟩ := (X (by norm_num)).2.2 (by
    show |value a.bits| * (1 / |value d.bits| + tiny) + tiny ≤ 2^127
    rw [mul_add]; linarith)
  refine ⟨fx, inv_err hp hw ed hK ea hC ?_⟩
  refine ex.trans ?_
  have g2 : gam (0 + (0 + 2 * 0 + 1) + 1) ≤ 13/10^8 := by unfold gam ulp2; norm_num
  have z : 0 ≤ |value a.bits| * (1 / |value d.bits| + tiny) + tiny := by
    have ht0 : 0 ≤ tiny := by unfold tiny; norm_num
    exact add_nonneg (mul_nonneg (abs_nonneg _) (add_nonneg (one_div_nonneg.2 (abs_nonneg _)) ht0)) ht0
  refine (mul_le_mul_of_nonneg_right g2 z).trans ?_
  rw [mul_add]
  linarith

/-- C118: the inverse: the cofactors over the determinant.  `B` bounds the magnitude of the entries, and the determinant is at least B⁴/20000. -/
theorem C118_inverse (c : Cfg) (M : M4 (F32 P)) (B : ℝ) (hM : ∀ i, Fins 4 (M.row i)) (hb : ∀ i j, |vals (M.row i) j| ≤ B) (h0 : 1/2^20 ≤ B) (h1 : B ≤ 2^20)
    (hK : B^4 ≤ 20000 * |(matOf M).det|) :
    (∀ i j, FClose (((XMMatrixInverse c M).1.row i).lane j).bits ((matOf M)⁻¹ i j) (B^3 / |(matOf M).det| * (4/10^6 + 12/10^5 * (B^4 / |(matOf M).det|)))) ∧
    ∀ j, FClose ((XMMatrixInverse c M).2.lane j).bits (matOf M).det (14/10^6 * B^4) := by
  obtain ⟨m1, m2, m3, m4, m5⟩ := mags h0 h1
  have hp : 0 < B := lt_of_lt_of_le (by norm_num) h0
  have h4 : B^4 ≤ 2^80 := by
    have := pow_le_pow_left₀ hp.le h1 4; norm_num at this ⊢; linarith
  have h3 : B^3 ≤ 2^60 := by
    have := pow_le_pow_left₀ hp.le h1 3; norm_num at this ⊢; linarith
  have l4 : 1/2^80 ≤ B^4 := by
    have := pow_le_pow_left₀ (by norm_num) h0 4; norm_num at this ⊢; linarith
  have hdet : (matOf M).det ≠ 0 := fun h => by rw [h, abs_zero] at hK; linarith [show (0:ℝ) < 1/2^80 by norm_num]
  obtain ⟨R, hR, hR1, hR2⟩ : ∃ R : M4 (F32 P) × V4 (F32 P), XMMatrixInverse c M = (⟨SSE.mul R.1.r0 (SSE.div g_XMOne R.2), SSE.mul R.1.r1 (SSE.div g_XMOne R.2), SSE.mul R.1.r2 (SSE.div g_XMOne R.2), SSE.mul R.1.r3 (SSE.div g_XMOne R.2)⟩, R.2) ∧
      (∀ i, VR (R.1.row i) ((mat (matOf M).adjugate).row i) (cofMag B) 5) ∧ VR R.2 (all (matOf M).det) (4 * (cofMag B * B + tiny)) 9 := by
    have hl := leafMR hM hb
    by_cases hc : c.sse = true
    · obtain ⟨a1, a2⟩ := inverseSSE_rel c hl m1 m2 m3
      rw [inverseSSE_mat] at a1 a2
      exact ⟨inverseSSE c M, by unfold XMMatrixInverse; simp only [if_pos hc], a1, a2⟩
    · obtain ⟨a1, a2⟩ := inverseNOI_rel c hl m1 m2 m3
      rw [inverseNOI_mat] at a1 a2
      exact ⟨inverseNOI c M, by unfold XMMatrixInverse; simp only [if_neg hc]; rfl, a1, a2⟩
  rw [mul_comm (cofMag B) B] at hR2
  have D : ∀ j, FClose (R.2.lane j).bits (matOf M).det (14/10^6 * B^4) := by
    intro j
    have h := hR2 j
    have e : (all (matOf M).det).lane j = num (matOf M).det := by fin_cases j <;> rfl
    rw [e] at h
    refine RAp.fclose h (by norm_num) (by linarith) ?_
    calc gam 9 * (4 * (B * cofMag B + tiny)) ≤ 54/10^8 * (241/10 * B^4) := mul_le_mul gam9M m5 (by have := RAp.mag h (by norm_num); linarith [abs_nonneg (matOf M).det]) (by norm_num)
      _ ≤ _ := by linarith
  rw [hR]
  refine ⟨fun i j => ?_, D⟩
  have e1 : (((⟨SSE.mul R.1.r0 (SSE.div g_XMOne R.2), SSE.mul R.1.r1 (SSE.div g_XMOne R.2), SSE.mul R.1.r2 (SSE.div g_XMOne R.2), SSE.mul R.1.r3 (SSE.div g_XMOne R.2)⟩ : M4 (F32 P)).row i).lane j) = Lane.mul ((R.1.row i).lane j) (Lane.div Lane.c1 (R.2.lane j)) := by
    fin_cases i <;> fin_cases j <;> rfl
  have e2 : (matOf M)⁻¹ i j = (matOf M).adjugate i j / (matOf M).det := by
    rw [Matrix.inv_def, Ring.inverse_eq_inv', Matrix.smul_apply, smul_eq_mul]; ring
  have e3 : ((mat (matOf M).adjugate).row i).lane j = num ((matOf M).adjugate i j) := by
    fin_cases i <;> fin_cases j <;> rfl
  have h := hR1 i j
  rw [e3] at h
  have hw := hR2 j
  rw [show (all (matOf M).det).lane j = num (matOf M).det by fin_cases j <;> rfl] at hw
  rw [e1, e2]
  exact inv_lane h0 h1 hdet h (D j) ((RAp.mag hw (by norm_num)).trans m5) hK

/-! ### a case meeting the hypotheses -/

/-- The matrix with rows (3, −2, 1.5, 1), (0, 1, 0, 0), (0, 0, 1, 0) and (0, 0, 0, 1): determinant 3. -/
def exA3 : M4 (F32 P) := ⟨exV, g_XMIdentityR1, g_XMIdentityR2, g_XMIdentityR3⟩
theorem exA3_fin (i : Fin 4) : Fins 4 ((exA3 : M4 (F32 P)).row i) := by
  fin_cases i
  · exact exV_fin 4
  all_goals intro j _; fin_cases j <;> first | exact (by decide : IsFinite 0#32) | exact (by decide : IsFinite 0x3F800000#32)
theorem exA3_mat : matOf (exA3 : M4 (F32 P)) = !![3, -2, 3/2, 1; 0, 1, 0, 0; 0, 0, 1, 0; 0, 0, 0, 1] := by
  obtain ⟨e0, e1, e2, e3⟩ := exV_vals (P := P)
  have z : value 0#32 = 0 := by simp [value, expField, fracField]
  have o := value_one
  ext i j
  fin_cases i
  · fin_cases j
    · exact e0
    · exact e1
    · exact e2
    · exact e3
  all_goals fin_cases j <;> first | exact z | exact o
example (c : Cfg) : ∀ i j, FClose (((XMMatrixInverse c (exA3 : M4 (F32 P))).1.row i).lane j).bits ((!![3, -2, 3/2, 1; 0, 1, 0, 0; 0, 0, 1, 0; 0, 0, 0, 1] : Matrix (Fin 4) (Fin 4) ℝ)⁻¹ i j) (1/30) := by
  have d : (matOf (exA3 : M4 (F32 P))).det = 3 := by
    rw [exA3_mat]; simp [Matrix.det_succ_row_zero, Fin.sum_univ_succ]
  have h := (C118_inverse c (exA3 : M4 (F32 P)) 3 exA3_fin (fun i j => by
    have : vals ((exA3 : M4 (F32 P)).row i) j = matOf (exA3 : M4 (F32 P)) i j := rfl
    rw [this, exA3_mat]
    fin_cases i <;> fin_cases j <;> norm_num [abs_le]) (by norm_num) (by norm_num) (by rw [d]; norm_num)).1
  intro i j
  obtain ⟨a, b⟩ := h i j
  rw [d, exA3_mat] at b
  exact ⟨a, b.trans (by norm_num)⟩
end DXM.Props
