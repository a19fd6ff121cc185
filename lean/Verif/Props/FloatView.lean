import Verif.Props.FloatProj
import Verif.Props.Compose
import Verif.Lemmas.RealGeo
import Verif.Props.FloatSphere

/-
C122: view matrices on binary32 lanes (interpretation I).
-/

set_option linter.all false

namespace DXM.Props
open DXM.Spec DXM.FErr DXM.IEEE Matrix
variable {P : Env}

/-! ### the exact axes -/

/-- The axes of a view along the unit vector `z` with the given up vector: right and up. -/
noncomputable def viewX (u z : Fin 3 → ℝ) : Fin 3 → ℝ := (len (crossProduct u z))⁻¹ • crossProduct u z
noncomputable def viewY (u z : Fin 3 → ℝ) : Fin 3 → ℝ := crossProduct z (viewX u z)
/-- The view matrix as a rotation and a translation. -/
noncomputable def viewR (u z : Fin 3 → ℝ) : Matrix (Fin 3) (Fin 3) ℝ := !![viewX u z 0, viewY u z 0, z 0; viewX u z 1, viewY u z 1, z 1; viewX u z 2, viewY u z 2, z 2]
noncomputable def viewT (e u z : Fin 3 → ℝ) : Fin 3 → ℝ := ![-(viewX u z ⬝ᵥ e), -(viewY u z ⬝ᵥ e), -(z ⬝ᵥ e)]
theorem lookTo_eq (c : Cfg) (e d u : Fin 3 → ℝ) (w1 w2 w3 : E) (h : crossProduct u d ≠ 0) :
    XMMatrixLookToLH c (vec3 e w1) (vec3 d w2) (vec3 u w3) = mat (affine (viewR u ((len d)⁻¹ • d)) (viewT e u ((len d)⁻¹ • d))) := by
  have hd : d ≠ 0 := by rintro rfl; simp at h
  obtain ⟨⟨p, e1⟩, k1, l1⟩ := C26_normalize3 c d w2 hd
  set R2 := (len d)⁻¹ • d with hR2
  have hc : crossProduct u R2 ≠ 0 := by
    rw [hR2, map_smul]
    exact smul_ne_zero k1.ne' h
  have e2 : ∃ q, XMVector3Cross c (vec3 u w3) (vec3 R2 p) = vec3 (crossProduct u R2) q := by
    refine (is3_iff _ _).2 ?_
    simp [cross_apply]
  obtain ⟨q, e2⟩ := e2
  obtain ⟨⟨p3, e3⟩, k3, l3⟩ := C26_normalize3 c _ q hc
  have e4 : ∃ r, XMVector3Cross c (vec3 R2 p) (vec3 (viewX u R2) p3) = vec3 (viewY u R2) r := by
    refine (is3_iff _ _).2 ?_
    simp [viewY, cross_apply]
  obtain ⟨r, e4⟩ := e4
  have hn : ∃ q, XMVectorNegate c (vec3 e w1) = vec3 (-e) q := (is3_iff _ _).2 (by unfold XMVectorNegate; split_ifs <;> simp)
  obtain ⟨q', hn⟩ := hn
  have e3' : XMVector3Normalize c (vec3 (crossProduct u R2) q) = vec3 (viewX u R2) p3 := e3
  unfold XMMatrixLookToLH
  simp only [e1, e2, e3', e4, hn]
  simp [affine, viewR, viewT, dot3]
  refine ⟨?_, ?_, ?_⟩ <;> ring
theorem view_exact (e d u : Fin 3 → ℝ) (h : crossProduct u d ≠ 0) : let V := viewR u ((len d)⁻¹ • d); let t := viewT e u ((len d)⁻¹ • d)
    V * Vᵀ = 1 ∧ V.det = 1 ∧ e ᵥ* V + t = 0 ∧ d ᵥ* V = ![0, 0, len d] ∧ (u ᵥ* V) 0 = 0 ∧ 0 < (u ᵥ* V) 1 := by
  intro V t
  obtain ⟨V', t', h1, h2, h3, h4, h5, h6, h7⟩ := lookTo ⟨true, true, true, true, true, true, true, true, true⟩ e d u E.nan E.nan E.nan h
  rw [lookTo_eq _ _ _ _ _ _ _ h] at h1
  have hV : V' = V := by
    ext i j
    simp only [mat, vec4, M4.mk.injEq, V4.mk.injEq, E.num.injEq, affine] at h1
    fin_cases i <;> fin_cases j <;> simp_all [V]
  have hT : t' = t := by
    ext i
    simp only [mat, vec4, M4.mk.injEq, V4.mk.injEq, E.num.injEq, affine] at h1
    fin_cases i <;> simp_all [t]
  subst hV hT
  exact ⟨h2, h3, h4, h5, h6, h7⟩

/-! ### perturbation -/

theorem len_comp_bd (a : Fin 3 → ℝ) {δ : ℝ} (h : ∀ i, |a i| ≤ δ) : len a ≤ 174/100 * δ := by
  have d0 : 0 ≤ δ := (abs_nonneg _).trans (h 0)
  refine (RG.len_le_iff (by positivity)).2 ?_
  rw [dot3]
  have h0 := abs_le.1 (h 0); have h1 := abs_le.1 (h 1); have h2 := abs_le.1 (h 2)
  have q : ∀ x : ℝ, -δ ≤ x ∧ x ≤ δ → x * x ≤ δ * δ := fun x hx => by nlinarith
  have := q _ h0; have := q _ h1; have := q _ h2
  nlinarith
theorem dir_pert {a b : Fin 3 → ℝ} {δ : ℝ} (hb : 0 < len b) (ha : 0 < len a) (h : ∀ i, |a i - b i| ≤ δ) (i : Fin 3) : |((len a)⁻¹ • a) i - ((len b)⁻¹ • b) i| ≤ 274/100 * δ / len b := by
  have h1 : |len a - len b| ≤ 174/100 * δ := by
    have e := len_comp_bd (a - b) h
    have e' : len (b - a) ≤ 174/100 * δ := by rw [RG.len_sub_comm]; exact e
    have t1 := RG.len_add_le (a - b) b
    have t2 := RG.len_add_le (b - a) a
    rw [sub_add_cancel] at t1 t2
    exact abs_le.2 ⟨by linarith, by linarith⟩
  have e : ((len a)⁻¹ • a) i - ((len b)⁻¹ • b) i = ((a i - b i) - (a i / len a) * (len a - len b)) / len b := by
    simp only [Pi.smul_apply, smul_eq_mul]; field_simp; ring
  rw [e, abs_div, abs_of_pos hb]
  refine div_le_div_of_nonneg_right ?_ hb.le
  have h2 : |a i / len a| ≤ 1 := by rw [abs_div, abs_of_pos ha, div_le_one ha]; exact RG.abs_le_len a i
  have h3 := abs_sub (a i - b i) ((a i / len a) * (len a - len b))
  rw [abs_mul] at h3
  have h4 := mul_le_mul h2 h1 (abs_nonneg _) zero_le_one
  have h5 := h i
  linarith
theorem term_close {a b x y ea eb : ℝ} (ha : |a - x| ≤ ea) (hb : |b - y| ≤ eb) (hx : |x| ≤ 1) (hy : |y| ≤ 1) (he : eb ≤ 1/100) (hf : ea ≤ 1/100) : |a * b - x * y| ≤ 101/100 * ea + eb ∧ |a * b| ≤ 103/100 := by
  have hb' : |b| ≤ 101/100 := by have := abs_add_le (b - y) y; rw [sub_add_cancel] at this; linarith
  have ha' : |a| ≤ 101/100 := by have := abs_add_le (a - x) x; rw [sub_add_cancel] at this; linarith
  constructor
  · rw [show a * b - x * y = (a - x) * b + x * (b - y) by ring]
    refine (abs_add_le _ _).trans ?_
    rw [abs_mul, abs_mul]
    have h1 := mul_le_mul ha hb' (abs_nonneg _) ((abs_nonneg _).trans ha)
    have h2 := mul_le_mul hx hb (abs_nonneg _) zero_le_one
    linarith
  · rw [abs_mul]
    have := mul_le_mul ha' hb' (abs_nonneg _) (by norm_num)
    linarith
theorem comp_close {r a b p q x y v w ea eb : ℝ} (h1 : |a * b - x * y| ≤ 101/100 * ea + eb) (h2 : |p * q - v * w| ≤ 101/100 * ea + eb) (m1 : |a * b| ≤ 103/100) (m2 : |p * q| ≤ 103/100)
    (h : |r - (a * b - p * q)| ≤ gam 2 * (|a * b| + |p * q| + 2 * tiny)) : |r - (x * y - v * w)| ≤ 202/100 * ea + 2 * eb + 3/10^7 := by
  have g : gam 2 * (|a * b| + |p * q| + 2 * tiny) ≤ 3/10^7 := by
    have : gam 2 ≤ 12/10^8 := by unfold gam ulp2; norm_num
    have g0 : 0 ≤ gam 2 := by unfold gam ulp2; norm_num
    have m : |a * b| + |p * q| + 2 * tiny ≤ 25/10 := by unfold tiny; norm_num at m1 m2 ⊢; linarith
    refine (mul_le_mul this m (by have := abs_nonneg (a * b); have := abs_nonneg (p * q); have := tiny0; linarith) (by norm_num)).trans (by norm_num)
  have t : r - (x * y - v * w) = (r - (a * b - p * q)) + (a * b - x * y) - (p * q - v * w) := by ring
  rw [t]
  refine (abs_sub _ _).trans ?_
  have := abs_add_le (r - (a * b - p * q)) (a * b - x * y)
  linarith
/-- The computed cross product of vectors near `x` and `y`. -/
theorem cross_close (c : Cfg) (A B : V4 (F32 P)) {x y : Fin 3 → ℝ} {ea eb : ℝ} (hA : Fins 3 A) (hB : Fins 3 B) (ha : ∀ i, |axisOf A i - x i| ≤ ea) (hb : ∀ i, |axisOf B i - y i| ≤ eb)
    (hx : ∀ i, |x i| ≤ 1) (hy : ∀ i, |y i| ≤ 1) (he : ea ≤ 1/100) (hf : eb ≤ 1/100) :
    Fins 3 (XMVector3Cross c A B) ∧ ∀ i, |axisOf (XMVector3Cross c A B) i - crossProduct x y i| ≤ 202/100 * ea + 2 * eb + 3/10^7 := by
  obtain ⟨n0, n1, n2, -⟩ := C93_cross3 c A B hA hB
  have T : ∀ i j, |axisOf A i * axisOf B j - x i * y j| ≤ 101/100 * ea + eb ∧ |axisOf A i * axisOf B j| ≤ 103/100 := fun i j => term_close (ha i) (hb j) (hx i) (hy j) hf he
  have M : ∀ {p q : ℝ}, p ≤ 103/100 → q ≤ 103/100 → p + q + 2 * tiny ≤ 2^127 := fun h1 h2 => by unfold tiny; norm_num at h1 h2 ⊢; linarith
  obtain ⟨f0, e0⟩ := n0 (M (T 1 2).2 (T 2 1).2)
  obtain ⟨f1, e1⟩ := n1 (M (T 2 0).2 (T 0 2).2)
  obtain ⟨f2, e2⟩ := n2 (M (T 0 1).2 (T 1 0).2)
  constructor
  · intro i hi
    fin_cases i
    · exact f0
    · exact f1
    · exact f2
    · simp at hi
  · intro i
    rw [cross_apply]
    fin_cases i
    · exact comp_close (T 1 2).1 (T 2 1).1 (T 1 2).2 (T 2 1).2 e0
    · exact comp_close (T 2 0).1 (T 0 2).1 (T 2 0).2 (T 0 2).2 e1
    · exact comp_close (T 0 1).1 (T 1 0).1 (T 0 1).2 (T 1 0).2 e2

theorem unit_comp {z : Fin 3 → ℝ} (hz : len z = 1) (i : Fin 3) : |z i| ≤ 1 := hz ▸ RG.abs_le_len z i
theorem len_dir {v : Fin 3 → ℝ} (h : 0 < len v) : len ((len v)⁻¹ • v) = 1 := by
  unfold len at *
  rw [smul_dotProduct, dotProduct_smul, smul_eq_mul, smul_eq_mul]
  have := Real.sqrt_pos.1 h
  have e := Real.mul_self_sqrt this.le
  rw [Real.sqrt_eq_one]
  have hne := h.ne'
  field_simp
  rw [sq, e]
theorem cross_len_le {u z : Fin 3 → ℝ} (hu : ∀ i, |u i| ≤ 1) (hz : len z = 1) : len (crossProduct u z) ≤ 174/100 := by
  have h1 := len_comp_bd u hu
  have h2 : crossProduct u z ⬝ᵥ crossProduct u z ≤ (u ⬝ᵥ u) * (z ⬝ᵥ z) := by
    rw [dot3, dot3, dot3]; simp only [cross_apply, Matrix.cons_val]
    nlinarith [sq_nonneg (u 0 * z 0 + u 1 * z 1 + u 2 * z 2)]
  have h3 : z ⬝ᵥ z = 1 := Real.sqrt_eq_one.1 hz
  have h4 : len (crossProduct u z) ≤ len u := by
    unfold len; exact Real.sqrt_le_sqrt (by rw [h3, mul_one] at h2; exact h2)
  linarith
theorem view_unit {u z : Fin 3 → ℝ} (hs : 0 < len (crossProduct u z)) (hz : len z = 1) : len (viewX u z) = 1 ∧ ∀ i, |viewY u z i| ≤ 1 := by
  have h : len (viewX u z) = 1 := len_dir hs
  refine ⟨h, fun i => (RG.abs_le_len _ i).trans ?_⟩
  have h2 : viewY u z ⬝ᵥ viewY u z ≤ (z ⬝ᵥ z) * (viewX u z ⬝ᵥ viewX u z) := by
    unfold viewY
    rw [dot3, dot3, dot3]; simp only [cross_apply, Matrix.cons_val]
    nlinarith [sq_nonneg (z 0 * viewX u z 0 + z 1 * viewX u z 1 + z 2 * viewX u z 2)]
  rw [Real.sqrt_eq_one.1 hz, Real.sqrt_eq_one.1 h] at h2
  refine (RG.len_le_iff zero_le_one).2 (by linarith)
/-- The computed axes: the right and up vectors from a computed direction near the unit vector `z`. -/
theorem axes_close (c : Cfg) (U R2 : V4 (F32 P)) {z : Fin 3 → ℝ} (hU : Fins 3 U) (hR : Fins 3 R2) (hu : ∀ i, |axisOf U i| ≤ 1) (hz : len z = 1) (h2 : ∀ i, |axisOf R2 i - z i| ≤ 1/10^6)
    (hs : 1/1000 ≤ len (crossProduct (axisOf U) z)) :
    let s := len (crossProduct (axisOf U) z)
    let R0 := XMVector3Normalize c (XMVector3Cross c U R2); let R1 := XMVector3Cross c R2 R0
    Fins 3 R0 ∧ Fins 3 R1 ∧ (∀ i, |axisOf R0 i - viewX (axisOf U) z i| ≤ 8/10^6 / s) ∧ ∀ i, |axisOf R1 i - viewY (axisOf U) z i| ≤ 21/10^6 / s := by
  intro s R0 R1
  have sp : 0 < s := lt_of_lt_of_le (by norm_num) hs
  have su : s ≤ 174/100 := cross_len_le hu hz
  obtain ⟨fC, eC⟩ := cross_close c U R2 (x := axisOf U) (y := z) (ea := 0) (eb := 1/10^6) hU hR (fun i => by simp) h2 hu (unit_comp hz) (by norm_num) (by norm_num)
  set C := XMVector3Cross c U R2 with hC
  have hb : ∀ i, |axisOf C i - crossProduct (axisOf U) z i| ≤ 23/10^7 := fun i => (eC i).trans (by norm_num)
  have lC := len_comp_bd (axisOf C - crossProduct (axisOf U) z) hb
  have l1 : s - 5/10^6 ≤ len (axisOf C) := by
    have e : len (crossProduct (axisOf U) z - axisOf C) ≤ 5/10^6 := by rw [RG.len_sub_comm]; exact lC.trans (by norm_num)
    have := RG.len_add_le (crossProduct (axisOf U) z - axisOf C) (axisOf C)
    rw [sub_add_cancel] at this
    linarith
  have l2 : len (axisOf C) ≤ s + 5/10^6 := by
    have := RG.len_add_le (axisOf C - crossProduct (axisOf U) z) (crossProduct (axisOf U) z)
    rw [sub_add_cancel] at this
    have : len (axisOf C - crossProduct (axisOf U) z) ≤ 5/10^6 := lC.trans (by norm_num)
    linarith
  have lp : 0 < len (axisOf C) := by linarith
  have mid : Mid (sqs 3 C) := by
    have e : sqs 3 C = len (axisOf C) * len (axisOf C) := by
      rw [len_axisOf, Real.mul_self_sqrt]
      rw [sqs3]; positivity
    rw [e]
    constructor
    · have : (1/2000 : ℝ) * (1/2000) ≤ len (axisOf C) * len (axisOf C) := mul_le_mul (by linarith) (by linarith) (by norm_num) lp.le
      exact le_trans (by norm_num) this
    · have : len (axisOf C) * len (axisOf C) ≤ 2 * 2 := mul_le_mul (by linarith) (by linarith) lp.le (by norm_num)
      exact this.trans (by norm_num)
  obtain ⟨f0, e0, -⟩ := normalize_dir c C fC mid
  have hR0 : ∀ i, |axisOf R0 i - viewX (axisOf U) z i| ≤ 8/10^6 / s := fun i => by
    have p := dir_pert sp lp hb i
    have t := abs_add_le (axisOf R0 i - dirOf C i) (dirOf C i - viewX (axisOf U) z i)
    rw [sub_add_sub_cancel] at t
    have q : (8/10^7 : ℝ) ≤ 16/10^7 / s := by rw [le_div_iff₀ sp]; linarith
    have e : (8/10^6 : ℝ) / s = 16/10^7 / s + 64/10^7 / s := by ring
    rw [e]
    have p' : (274/100 * (23/10^7) : ℝ) / s ≤ 64/10^7 / s := div_le_div_of_nonneg_right (by norm_num) sp.le
    have := e0 i
    exact t.trans (by have := add_le_add (this.trans q) (p.trans p'); exact this)
  have hx := view_unit sp hz
  obtain ⟨f1, e1⟩ := cross_close c R2 R0 (x := z) (y := viewX (axisOf U) z) (ea := 1/10^6) (eb := 8/10^6 / s) hR f0 h2 hR0 (unit_comp hz) (unit_comp hx.1) (by norm_num)
    (by rw [div_le_iff₀ sp]; linarith)
  refine ⟨f0, f1, hR0, fun i => (e1 i).trans ?_⟩
  have q : (202/100 * (1/10^6) + 3/10^7 : ℝ) ≤ 41/10^7 / s := by rw [le_div_iff₀ sp]; linarith
  have e : (21/10^6 : ℝ) / s = 41/10^7 / s + 2 * (8/10^6 / s) + 9/10^7 / s := by ring
  rw [e]
  have : (0:ℝ) ≤ 9/10^7 / s := by positivity
  linarith
/-- The computed translation along an axis. -/
theorem trans_close (c : Cfg) (R N : V4 (F32 P)) {x e : Fin 3 → ℝ} {ε b : ℝ} (hR : Fins 3 R) (hN : Fins 3 N) (hr : ∀ i, |axisOf R i - x i| ≤ ε) (hn : ∀ i, axisOf N i = -e i)
    (hx : ∀ i, |x i| ≤ 1) (he : ∀ i, |e i| ≤ b) (hε : ε ≤ 3/100) (hb : b ≤ 2^100) : FClose (XMVector3Dot c R N).w.bits (-(x ⬝ᵥ e)) (3 * ε * b + 6/10^7 * b + tiny) := by
  have b0 : 0 ≤ b := (abs_nonneg _).trans (he 0)
  have h := dot3_ap c R N hR hN 3
  rw [(dotN_3 _ _).1, (dotN_3 _ _).2] at h
  have hr' : ∀ i, |axisOf R i| ≤ 103/100 := fun i => by have := abs_add_le (axisOf R i - x i) (x i); rw [sub_add_cancel] at this; have := hr i; have := hx i; linarith
  have m : ∀ i, |axisOf R i * axisOf N i| ≤ 103/100 * b := fun i => by rw [abs_mul, hn, abs_neg]; exact mul_le_mul (hr' i) (he i) (abs_nonneg _) (by norm_num)
  have d : ∀ i, |axisOf R i * axisOf N i - -(x i * e i)| ≤ ε * b := fun i => by
    rw [hn, show axisOf R i * -e i - -(x i * e i) = -((axisOf R i - x i) * e i) by ring, abs_neg, abs_mul]
    exact mul_le_mul (hr i) (he i) (abs_nonneg _) ((abs_nonneg _).trans (hr 0))
  have m0 := m 0; have m1 := m 1; have m2 := m 2
  have M : |axisOf R 0 * axisOf N 0| + |axisOf R 1 * axisOf N 1| + |axisOf R 2 * axisOf N 2| + 3 * tiny ≤ 309/100 * b + 3 * tiny := by linarith
  have g := Ap.fclose (e := 6/10^7 * b + tiny) h (by norm_num) (M.trans (by unfold tiny; norm_num at hb ⊢; linarith)) rfl (by
    refine (mul_le_mul_of_nonneg_left M (by unfold gam ulp2; norm_num)).trans ?_
    have : gam 3 ≤ 18/10^8 := by unfold gam ulp2; norm_num
    have := mul_le_mul_of_nonneg_right this (by have := tiny0; positivity : 0 ≤ 309/100 * b + 3 * tiny)
    have := tiny0
    linarith)
  refine ⟨g.1, ?_⟩
  have t : value (XMVector3Dot c R N).w.bits - -(x ⬝ᵥ e) = (value (XMVector3Dot c R N).w.bits - (axisOf R 0 * axisOf N 0 + axisOf R 1 * axisOf N 1 + axisOf R 2 * axisOf N 2))
      + (axisOf R 0 * axisOf N 0 - -(x 0 * e 0)) + (axisOf R 1 * axisOf N 1 - -(x 1 * e 1)) + (axisOf R 2 * axisOf N 2 - -(x 2 * e 2)) := by rw [dot3]; ring
  rw [t]
  have t1 := abs_add_le (value (XMVector3Dot c R N).w.bits - (axisOf R 0 * axisOf N 0 + axisOf R 1 * axisOf N 1 + axisOf R 2 * axisOf N 2)) (axisOf R 0 * axisOf N 0 - -(x 0 * e 0))
  have t2 := abs_add_le ((value (XMVector3Dot c R N).w.bits - (axisOf R 0 * axisOf N 0 + axisOf R 1 * axisOf N 1 + axisOf R 2 * axisOf N 2)) + (axisOf R 0 * axisOf N 0 - -(x 0 * e 0))) (axisOf R 1 * axisOf N 1 - -(x 1 * e 1))
  have t3 := abs_add_le ((value (XMVector3Dot c R N).w.bits - (axisOf R 0 * axisOf N 0 + axisOf R 1 * axisOf N 1 + axisOf R 2 * axisOf N 2)) + (axisOf R 0 * axisOf N 0 - -(x 0 * e 0)) + (axisOf R 1 * axisOf N 1 - -(x 1 * e 1))) (axisOf R 2 * axisOf N 2 - -(x 2 * e 2))
  have d0 := d 0; have d1 := d 1; have d2 := d 2
  have g2 : |value (XMVector3Dot c R N).w.bits - (axisOf R 0 * axisOf N 0 + axisOf R 1 * axisOf N 1 + axisOf R 2 * axisOf N 2)| ≤ 6/10^7 * b + tiny := g.2
  linarith

/-! ### the matrices -/

/-- `V`, `t` is the rigid motion taking the eye `e` to the origin, the direction `d` to the positive (`σ = 1`) or negative (`σ = -1`) z axis and
`u` into the upper half of the yz plane. -/
def IsView (V : Matrix (Fin 3) (Fin 3) ℝ) (t e d u : Fin 3 → ℝ) (σ : ℝ) : Prop :=
  V * Vᵀ = 1 ∧ V.det = 1 ∧ e ᵥ* V + t = 0 ∧ d ᵥ* V = ![0, 0, σ * len d] ∧ (u ᵥ* V) 0 = 0 ∧ 0 < (u ᵥ* V) 1
/-- The computed matrix is that motion: rotation part within `ε`, translation within `η`, last column exactly (0,0,0,1). -/
def MView (M : M4 (F32 P)) (V : Matrix (Fin 3) (Fin 3) ℝ) (t : Fin 3 → ℝ) (ε η : ℝ) : Prop :=
  (∀ i j : Fin 3, FClose ((M.row i.castSucc).lane j.castSucc).bits (V i j) ε) ∧ (∀ j : Fin 3, FClose (M.r3.lane j.castSucc).bits (t j) η) ∧
  M.r0.w = Lane.c0 ∧ M.r1.w = Lane.c0 ∧ M.r2.w = Lane.c0 ∧ M.r3.w = Lane.c1

theorem neg_axis (c : Cfg) (N : V4 (F32 P)) (h : Fins 3 N) : Fins 3 (XMVectorNegate c N) ∧ ∀ i, axisOf (XMVectorNegate c N) i = -axisOf N i := by
  have key : ∀ i : Fin 4, i.val < 3 → Fin' ((XMVectorNegate c N).lane i) ∧ val ((XMVectorNegate c N).lane i) = - val (N.lane i) := fun i hi => by
    by_cases hs : c.sse = true
    · have := exact_sub0 (h i hi)
      rw [show (XMVectorNegate c N).lane i = Lane.sub (Lane.ofBits 0#32) (N.lane i) by unfold XMVectorNegate; rw [if_pos hs]; fin_cases i <;> rfl]
      exact this
    · rw [show (XMVectorNegate c N).lane i = Lane.neg (N.lane i) by unfold XMVectorNegate; rw [if_neg hs]; fin_cases i <;> rfl]
      exact ⟨finite_neg.2 (h i hi), neg_value _⟩
  refine ⟨fun i hi => (key i hi).1, fun i => ?_⟩
  fin_cases i
  · exact (key 0 (by decide)).2
  · exact (key 1 (by decide)).2
  · exact (key 2 (by decide)).2
theorem fin_axis {R : V4 (F32 P)} (h : Fins 3 R) {x : Fin 3 → ℝ} {ε ε' : ℝ} (hr : ∀ i, |axisOf R i - x i| ≤ ε) (he : ε ≤ ε') : FClose R.x.bits (x 0) ε' ∧ FClose R.y.bits (x 1) ε' ∧ FClose R.z.bits (x 2) ε' :=
  ⟨⟨h 0 (by decide), (hr 0).trans he⟩, ⟨h 1 (by decide), (hr 1).trans he⟩, ⟨h 2 (by decide), (hr 2).trans he⟩⟩
theorem lookT (c : Cfg) (D0 D1 D2 R0 R1 R2 : V4 (F32 P)) : XMMatrixTranspose c ⟨XMVectorSelect D0 R0 g_XMSelect1110, XMVectorSelect D1 R1 g_XMSelect1110, XMVectorSelect D2 R2 g_XMSelect1110, g_XMIdentityR3⟩ =
    ⟨⟨R0.x, R1.x, R2.x, Lane.c0⟩, ⟨R0.y, R1.y, R2.y, Lane.c0⟩, ⟨R0.z, R1.z, R2.z, Lane.c0⟩, ⟨D0.w, D1.w, D2.w, Lane.c1⟩⟩ := by
  rw [XMMatrixTranspose_eq, sel1110, sel1110, sel1110]; rfl
theorem lookTo_lanes (c : Cfg) (Eye D U : V4 (F32 P)) : XMMatrixLookToLH c Eye D U =
    let R2 := XMVector3Normalize c D; let R0 := XMVector3Normalize c (XMVector3Cross c U R2); let R1 := XMVector3Cross c R2 R0; let N := XMVectorNegate c Eye
    ⟨⟨R0.x, R1.x, R2.x, Lane.c0⟩, ⟨R0.y, R1.y, R2.y, Lane.c0⟩, ⟨R0.z, R1.z, R2.z, Lane.c0⟩, ⟨(XMVector3Dot c R0 N).w, (XMVector3Dot c R1 N).w, (XMVector3Dot c R2 N).w, Lane.c1⟩⟩ := by
  exact lookT c _ _ _ _ _ _
theorem MView.mk {R0 R1 R2 : V4 (F32 P)} {d0 d1 d2 : F32 P} {u z e : Fin 3 → ℝ} {ε η : ℝ}
    (h0 : FClose R0.x.bits (viewX u z 0) ε ∧ FClose R0.y.bits (viewX u z 1) ε ∧ FClose R0.z.bits (viewX u z 2) ε)
    (h1 : FClose R1.x.bits (viewY u z 0) ε ∧ FClose R1.y.bits (viewY u z 1) ε ∧ FClose R1.z.bits (viewY u z 2) ε)
    (h2 : FClose R2.x.bits (z 0) ε ∧ FClose R2.y.bits (z 1) ε ∧ FClose R2.z.bits (z 2) ε)
    (h3 : FClose d0.bits (-(viewX u z ⬝ᵥ e)) η ∧ FClose d1.bits (-(viewY u z ⬝ᵥ e)) η ∧ FClose d2.bits (-(z ⬝ᵥ e)) η) :
    MView ⟨⟨R0.x, R1.x, R2.x, Lane.c0⟩, ⟨R0.y, R1.y, R2.y, Lane.c0⟩, ⟨R0.z, R1.z, R2.z, Lane.c0⟩, ⟨d0, d1, d2, Lane.c1⟩⟩ (viewR u z) (viewT e u z) ε η := by
  refine ⟨fun i j => ?_, fun j => ?_, rfl, rfl, rfl, rfl⟩
  · fin_cases i
    · fin_cases j
      · exact h0.1
      · exact h1.1
      · exact h2.1
    · fin_cases j
      · exact h0.2.1
      · exact h1.2.1
      · exact h2.2.1
    · fin_cases j
      · exact h0.2.2
      · exact h1.2.2
      · exact h2.2.2
  · fin_cases j
    · exact h3.1
    · exact h3.2.1
    · exact h3.2.2
/-- The matrix from a computed direction near the unit vector `z`. -/
theorem look_core (c : Cfg) (Eye D U : V4 (F32 P)) {z : Fin 3 → ℝ} {b : ℝ} (hE : Fins 3 Eye) (hU : Fins 3 U) (hD : Fins 3 (XMVector3Normalize c D)) (hu : ∀ i, |axisOf U i| ≤ 1) (hz : len z = 1)
    (h2 : ∀ i, |axisOf (XMVector3Normalize c D) i - z i| ≤ 1/10^6) (hs : 1/1000 ≤ len (crossProduct (axisOf U) z)) (he : ∀ i, |axisOf Eye i| ≤ b) (hb : b ≤ 2^100) :
    let s := len (crossProduct (axisOf U) z)
    MView (XMMatrixLookToLH c Eye D U) (viewR (axisOf U) z) (viewT (axisOf Eye) (axisOf U) z) (21/10^6 / s) (65/10^6 / s * b + tiny) := by
  intro s
  have sp : 0 < s := lt_of_lt_of_le (by norm_num) hs
  have su : s ≤ 174/100 := cross_len_le hu hz
  obtain ⟨f0, f1, e0, e1⟩ := axes_close c U _ hU hD hu hz h2 hs
  obtain ⟨fN, eN⟩ := neg_axis c Eye hE
  have hx := view_unit sp hz
  have b0 : 0 ≤ b := (abs_nonneg _).trans (he 0)
  have q0 : (8/10^6 : ℝ) / s ≤ 21/10^6 / s := div_le_div_of_nonneg_right (by norm_num) sp.le
  have q2 : (1/10^6 : ℝ) ≤ 21/10^6 / s := by rw [le_div_iff₀ sp]; linarith
  have q : (21/10^6 : ℝ) / s ≤ 3/100 := by rw [div_le_iff₀ sp]; linarith
  have w : ∀ {ε : ℝ}, ε ≤ 21/10^6 / s → 3 * ε * b + 6/10^7 * b + tiny ≤ 65/10^6 / s * b + tiny := fun {ε} h => by
    have : (6/10^7 : ℝ) ≤ 2/10^6 / s := by rw [le_div_iff₀ sp]; linarith
    have e : (65/10^6 : ℝ) / s = 3 * (21/10^6 / s) + 2/10^6 / s := by ring
    rw [e]
    have := mul_le_mul_of_nonneg_right (show 3 * ε + 6/10^7 ≤ 3 * (21/10^6 / s) + 2/10^6 / s by linarith) b0
    linarith
  have t0 := FClose.le (trans_close c _ _ f0 fN e0 eN (unit_comp hx.1) he (q0.trans q) hb) (w q0)
  have t1 := FClose.le (trans_close c _ _ f1 fN e1 eN hx.2 he q hb) (w le_rfl)
  have t2 := FClose.le (trans_close c _ _ hD fN h2 eN (unit_comp hz) he (by norm_num) hb) (w q2)
  obtain ⟨a0, a1, a2⟩ := fin_axis f0 e0 q0
  obtain ⟨b0, b1, b2⟩ := fin_axis f1 e1 le_rfl
  obtain ⟨c0, c1, c2⟩ := fin_axis hD h2 q2
  rw [lookTo_lanes]
  exact MView.mk ⟨a0, a1, a2⟩ ⟨b0, b1, b2⟩ ⟨c0, c1, c2⟩ ⟨t0, t1, t2⟩
theorem axisOf_ne {D : V4 (F32 P)} (h : Mid (sqs 3 D)) : 0 < len (axisOf D) := by rw [len_axisOf]; exact Real.sqrt_pos.2 h.pos
theorem cross_dir (u d : Fin 3 → ℝ) (hd : 0 < len d) : len (crossProduct u ((len d)⁻¹ • d)) = len (crossProduct u d) / len d := by
  rw [map_smul]
  unfold len at *
  rw [smul_dotProduct, dotProduct_smul, smul_eq_mul, smul_eq_mul, ← mul_assoc, Real.sqrt_mul (mul_self_nonneg _), Real.sqrt_mul_self (by positivity)]
  ring
theorem cross_ne {u d : Fin 3 → ℝ} (hd : 0 < len d) (h : 1/1000 ≤ len (crossProduct u d) / len d) : crossProduct u d ≠ 0 := fun e => by
  rw [e, RG.len_zero, zero_div] at h; norm_num at h
theorem isView_neg {V : Matrix (Fin 3) (Fin 3) ℝ} {t e d u : Fin 3 → ℝ} (h : IsView V t e (-d) u 1) : IsView V t e d u (-1) := by
  obtain ⟨h1, h2, h3, h4, h5, h6⟩ := h
  refine ⟨h1, h2, h3, ?_, h5, h6⟩
  rw [Matrix.neg_vecMul, RG.len_neg] at h4
  rw [← neg_inj, h4]
  ext i; fin_cases i <;> simp
theorem isView (e d u : Fin 3 → ℝ) (h : crossProduct u d ≠ 0) : IsView (viewR u ((len d)⁻¹ • d)) (viewT e u ((len d)⁻¹ • d)) e d u 1 := by
  obtain ⟨h1, h2, h3, h4, h5, h6⟩ := view_exact e d u h
  exact ⟨h1, h2, h3, by rw [one_mul]; exact h4, h5, h6⟩

/-- C122: the left-handed view matrix of a direction.  `s` is the sine of the angle between the direction and the up vector times the length
of the up vector. -/
theorem C122_lookToLH (c : Cfg) (Eye D U : V4 (F32 P)) (b : ℝ) (hE : Fins 3 Eye) (hD : Fins 3 D) (hU : Fins 3 U) (hm : Mid (sqs 3 D)) (hu : ∀ i, |axisOf U i| ≤ 1)
    (he : ∀ i, |axisOf Eye i| ≤ b) (hb : b ≤ 2^100) :
    let s := len (crossProduct (axisOf U) (axisOf D)) / len (axisOf D)
    1/1000 ≤ s → ∃ V t, IsView V t (axisOf Eye) (axisOf D) (axisOf U) 1 ∧ MView (XMMatrixLookToLH c Eye D U) V t (21/10^6 / s) (65/10^6 / s * b + tiny) := by
  intro s hs
  have lp := axisOf_ne hm
  obtain ⟨fR, eR, -⟩ := normalize_dir c D hD hm
  have e := cross_dir (axisOf U) (axisOf D) lp
  refine ⟨_, _, isView _ _ _ (cross_ne lp hs), ?_⟩
  have := look_core c Eye D U hE hU fR hu (len_dir lp) (fun i => (eR i).trans (by norm_num)) (e ▸ hs) he hb
  rwa [e] at this
/-- C122: the right-handed view matrix of a direction. -/
theorem C122_lookToRH (c : Cfg) (Eye D U : V4 (F32 P)) (b : ℝ) (hE : Fins 3 Eye) (hD : Fins 3 D) (hU : Fins 3 U) (hm : Mid (sqs 3 D)) (hu : ∀ i, |axisOf U i| ≤ 1)
    (he : ∀ i, |axisOf Eye i| ≤ b) (hb : b ≤ 2^100) :
    let s := len (crossProduct (axisOf U) (axisOf D)) / len (axisOf D)
    1/1000 ≤ s → ∃ V t, IsView V t (axisOf Eye) (axisOf D) (axisOf U) (-1) ∧ MView (XMMatrixLookToRH c Eye D U) V t (21/10^6 / s) (65/10^6 / s * b + tiny) := by
  intro s hs
  obtain ⟨fN, eN⟩ := neg_axis c D hD
  have eN' : axisOf (XMVectorNegate c D) = -axisOf D := funext eN
  have hm' : Mid (sqs 3 (XMVectorNegate c D)) := by
    have : Real.sqrt (sqs 3 (XMVectorNegate c D)) = Real.sqrt (sqs 3 D) := by rw [← len_axisOf, ← len_axisOf, eN', RG.len_neg]
    have e : sqs 3 (XMVectorNegate c D) = sqs 3 D := (Real.sqrt_inj (by rw [sqs3]; positivity) hm.pos.le).1 this
    rwa [e]
  obtain ⟨V, t, h1, h2⟩ := C122_lookToLH c Eye (XMVectorNegate c D) U b hE fN hU hm' hu he hb (by rw [eN', map_neg, RG.len_neg, RG.len_neg]; exact hs)
  rw [eN'] at h1
  rw [eN', map_neg, RG.len_neg, RG.len_neg] at h2
  exact ⟨V, t, isView_neg h1, h2⟩

theorem mid_of {l L : ℝ} (l0 : 1/2^49 ≤ l) (l1 : l ≤ 2^62) (s1 : l * (1 - 2/10^7) ≤ L) (s2 : L ≤ l * (1 + 2/10^7)) (sp : 0 < L) : Mid (L * L) := by
  have k1 : (1/2^50 : ℝ) ≤ L := by norm_num at l0 ⊢; linarith
  have k2 : L ≤ 2^63 := by norm_num at l1 ⊢; linarith
  exact ⟨le_trans (by norm_num) (mul_le_mul k1 k1 (by norm_num) sp.le), le_trans (mul_le_mul k2 k2 sp.le (by norm_num)) (by norm_num)⟩
/-- The computed difference of two points. -/
theorem diff_dir (c : Cfg) (A B : V4 (F32 P)) (hA : Fins 3 A) (hB : Fins 3 B) {d : Fin 3 → ℝ} (hd : d = axisOf A - axisOf B) (l0 : 1/2^49 ≤ len d) (l1 : len d ≤ 2^62) :
    Fins 3 (XMVector3Normalize c (XMVectorSubtract A B)) ∧ ∀ i, |axisOf (XMVector3Normalize c (XMVectorSubtract A B)) i - ((len d)⁻¹ • d) i| ≤ 1/10^6 := by
  have lp : 0 < len d := lt_of_lt_of_le (by norm_num) l0
  have r : ∀ i : Fin 4, i.val < 3 → |val (A.lane i) - val (B.lane i)| ≤ len d → RelNear ((XMVectorSubtract A B).lane i).bits (val (A.lane i) - val (B.lane i)) 1 := fun i hi hl => by
    rw [show (XMVectorSubtract A B).lane i = Lane.sub (A.lane i) (B.lane i) by fin_cases i <;> rfl]
    exact rel_sub (hA i hi) (hB i hi) (hl.trans (l1.trans (by norm_num)))
  have cl : ∀ i, |axisOf A i - axisOf B i| ≤ len d := fun i => by have := RG.abs_le_len d i; rw [hd, Pi.sub_apply] at this; rw [hd]; exact this
  have r0 := r 0 (by decide) (cl 0)
  have r1 := r 1 (by decide) (cl 1)
  have r2 := r 2 (by decide) (cl 2)
  have fS : Fins 3 (XMVectorSubtract A B) := fun i hi => by
    fin_cases i
    · exact r0.1
    · exact r1.1
    · exact r2.1
    · simp at hi
  have g1 : gam 1 ≤ 6/10^8 := by unfold gam ulp2; norm_num
  have dl : ∀ i, |axisOf (XMVectorSubtract A B) i - d i| ≤ 6/10^8 * len d := fun i => by
    have k : ∀ {x : ℝ}, |x| ≤ len d → gam 1 * |x| ≤ 6/10^8 * len d := fun h => mul_le_mul g1 h (abs_nonneg _) (by norm_num)
    rw [hd] at *
    fin_cases i
    · exact r0.2.trans (k (cl 0))
    · exact r1.2.trans (k (cl 1))
    · exact r2.2.trans (k (cl 2))
  have ls := len_comp_bd (axisOf (XMVectorSubtract A B) - d) dl
  have s1 : len d * (1 - 2/10^7) ≤ len (axisOf (XMVectorSubtract A B)) := by
    have e := RG.len_sub_comm d (axisOf (XMVectorSubtract A B))
    have := RG.len_add_le (d - axisOf (XMVectorSubtract A B)) (axisOf (XMVectorSubtract A B))
    rw [sub_add_cancel] at this
    linarith
  have s2 : len (axisOf (XMVectorSubtract A B)) ≤ len d * (1 + 2/10^7) := by
    have := RG.len_add_le (axisOf (XMVectorSubtract A B) - d) d
    rw [sub_add_cancel] at this
    linarith
  have sp : 0 < len (axisOf (XMVectorSubtract A B)) := lt_of_lt_of_le (by positivity) s1
  have mid : Mid (sqs 3 (XMVectorSubtract A B)) := by
    have e : sqs 3 (XMVectorSubtract A B) = len (axisOf (XMVectorSubtract A B)) * len (axisOf (XMVectorSubtract A B)) := by
      rw [len_axisOf, Real.mul_self_sqrt]
      rw [sqs3]; positivity
    rw [e]
    exact mid_of l0 l1 s1 s2 sp
  obtain ⟨f, e, -⟩ := normalize_dir c _ fS mid
  refine ⟨f, fun i => ?_⟩
  have p := dir_pert lp sp dl i
  have p' : 274/100 * (6/10^8 * len d) / len d = 274/100 * (6/10^8) := by field_simp
  rw [p'] at p
  have t := abs_add_le (axisOf (XMVector3Normalize c (XMVectorSubtract A B)) i - dirOf (XMVectorSubtract A B) i) (dirOf (XMVectorSubtract A B) i - ((len d)⁻¹ • d) i)
  rw [sub_add_sub_cancel] at t
  have p2 : |dirOf (XMVectorSubtract A B) i - ((len d)⁻¹ • d) i| ≤ 274/100 * (6/10^8) := p
  have := e i
  linarith
/-- C122: the left-handed view matrix looking at a point. -/
theorem C122_lookAtLH (c : Cfg) (Eye Focus U : V4 (F32 P)) (b : ℝ) (hE : Fins 3 Eye) (hF : Fins 3 Focus) (hU : Fins 3 U) (hu : ∀ i, |axisOf U i| ≤ 1)
    (he : ∀ i, |axisOf Eye i| ≤ b) (hb : b ≤ 2^100) :
    let d := axisOf Focus - axisOf Eye; let s := len (crossProduct (axisOf U) d) / len d
    1/2^49 ≤ len d → len d ≤ 2^62 → 1/1000 ≤ s →
    ∃ V t, IsView V t (axisOf Eye) d (axisOf U) 1 ∧ MView (XMMatrixLookAtLH c Eye Focus U) V t (21/10^6 / s) (65/10^6 / s * b + tiny) := by
  intro d s l0 l1 hs
  have lp : 0 < len d := lt_of_lt_of_le (by norm_num) l0
  obtain ⟨fR, eR⟩ := diff_dir c Focus Eye hF hE rfl l0 l1
  have e := cross_dir (axisOf U) d lp
  refine ⟨_, _, isView _ _ _ (cross_ne lp hs), ?_⟩
  have := look_core c Eye (XMVectorSubtract Focus Eye) U hE hU fR hu (len_dir lp) eR (e ▸ hs) he hb
  rwa [e] at this
/-- C122: the right-handed view matrix looking at a point. -/
theorem C122_lookAtRH (c : Cfg) (Eye Focus U : V4 (F32 P)) (b : ℝ) (hE : Fins 3 Eye) (hF : Fins 3 Focus) (hU : Fins 3 U) (hu : ∀ i, |axisOf U i| ≤ 1)
    (he : ∀ i, |axisOf Eye i| ≤ b) (hb : b ≤ 2^100) :
    let d := axisOf Focus - axisOf Eye; let s := len (crossProduct (axisOf U) d) / len d
    1/2^49 ≤ len d → len d ≤ 2^62 → 1/1000 ≤ s →
    ∃ V t, IsView V t (axisOf Eye) d (axisOf U) (-1) ∧ MView (XMMatrixLookAtRH c Eye Focus U) V t (21/10^6 / s) (65/10^6 / s * b + tiny) := by
  intro d s l0 l1 hs
  have hd : axisOf Eye - axisOf Focus = -d := by simp [d]
  have ln : len (-d) = len d := RG.len_neg d
  have lp : 0 < len (-d) := ln ▸ lt_of_lt_of_le (by norm_num) l0
  obtain ⟨fR, eR⟩ := diff_dir c Eye Focus hE hF hd.symm (ln.symm ▸ l0) (ln.symm ▸ l1)
  have e := cross_dir (axisOf U) (-d) lp
  have es : len (crossProduct (axisOf U) (-d)) / len (-d) = s := by rw [map_neg, RG.len_neg, RG.len_neg]
  rw [es] at e
  refine ⟨_, _, isView_neg (isView _ _ _ (cross_ne lp (es.symm ▸ hs))), ?_⟩
  have := look_core c Eye (XMVectorSubtract Eye Focus) U hE hU fR hu (len_dir lp) eR (e ▸ hs) he hb
  rwa [e] at this

/-! ### a concrete case: from (3, -2, 1.5) along z, y up -/

theorem r1_axis : Fins 3 (g_XMIdentityR1 : V4 (F32 P)) ∧ axisOf (g_XMIdentityR1 : V4 (F32 P)) = ![0, 1, 0] := by
  constructor
  · intro i hi; fin_cases i
    · exact (by decide : IsFinite 0#32)
    · exact (by decide : IsFinite 0x3F800000#32)
    · exact (by decide : IsFinite 0#32)
    · simp at hi
  · unfold axisOf
    rw [show vals (g_XMIdentityR1 : V4 (F32 P)) 0 = 0 from val_zero, show vals (g_XMIdentityR1 : V4 (F32 P)) 1 = 1 from value_one, show vals (g_XMIdentityR1 : V4 (F32 P)) 2 = 0 from val_zero]
theorem r2_axis : axisOf (g_XMIdentityR2 : V4 (F32 P)) = ![0, 0, 1] := by
  unfold axisOf; rw [r2_vals]; rfl
theorem exV_axis : axisOf (exV : V4 (F32 P)) = ![3, -2, 3/2] := by
  unfold axisOf; rw [exV4]; rfl
theorem ex_len : len (![0, 0, 1] : Fin 3 → ℝ) = 1 ∧ len (crossProduct (![0, 1, 0] : Fin 3 → ℝ) ![0, 0, 1]) = 1 := by
  constructor <;> simp [len, dot3, cross_apply]
theorem r2_mid : Mid (sqs 3 (g_XMIdentityR2 : V4 (F32 P))) := by
  have : Real.sqrt (sqs 3 (g_XMIdentityR2 : V4 (F32 P))) = 1 := by rw [← len_axisOf, r2_axis, ex_len.1]
  rw [Real.sqrt_eq_one.1 this]; norm_num [Mid]
example (c : Cfg) : ∃ V t, IsView V t ![3, -2, 3/2] ![0, 0, 1] ![0, 1, 0] 1 ∧ MView (XMMatrixLookToLH c (exV : V4 (F32 P)) g_XMIdentityR2 g_XMIdentityR1) V t (21/10^6 / (1 / 1)) (65/10^6 / (1 / 1) * 3 + tiny) := by
  have e := ex_len
  have h := C122_lookToLH c (exV : V4 (F32 P)) g_XMIdentityR2 g_XMIdentityR1 3 (exV_fin 3) (fun i hi => r2_fin i i.2) r1_axis.1 r2_mid
    (fun i => by rw [r1_axis.2]; fin_cases i <;> norm_num) (fun i => by rw [exV_axis]; fin_cases i <;> norm_num [abs_of_pos]) (by norm_num)
  rw [r1_axis.2, r2_axis, exV_axis, e.1, e.2] at h
  exact h (by norm_num)
end DXM.Props
