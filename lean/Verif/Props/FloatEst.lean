import Verif.Props.FloatLen
import Verif.Model.Est

/-
C102 (estimates): the functions built on the approximate instructions `rcpps` and `rsqrtps`, on binary32 lanes, given the
relative error bound documented for those instructions.
-/

set_option linter.all false

namespace DXM.Spec

/-- The documented precision of the two approximate instructions: relative error at most 1.5 * 2^-12. -/
noncomputable def approx : ℝ := 3 / 2^13
/-- `f` is an approximate reciprocal square root: within the documented error on normal positive numbers. -/
def RsqrtOk (f : BitVec 32 → BitVec 32) : Prop :=
  ∀ x, IsFinite x → tiny ≤ value x → value x ≤ 2^127 → IsFinite (f x) ∧ |value (f x) * Real.sqrt (value x) - 1| ≤ approx
/-- `f` is an approximate reciprocal: within the documented error on normal numbers whose reciprocal is normal. -/
def RcpOk (f : BitVec 32 → BitVec 32) : Prop :=
  ∀ x, IsFinite x → tiny ≤ |value x| → |value x| ≤ 2^125 → IsFinite (f x) ∧ |value (f x) * value x - 1| ≤ approx
/-- `r` is finite and approximates `x` with relative error at most 2^-11. -/
def EstNear (r : BitVec 32) (x : ℝ) : Prop := IsFinite r ∧ |value r - x| ≤ |x| / 2^11
/-- `r` is finite and approximates `x` with relative error at most 2^-11, up to underflow. -/
def EstNear' (r : BitVec 32) (x : ℝ) : Prop := IsFinite r ∧ |value r - x| ≤ |x| / 2^11 + tiny

end DXM.Spec

namespace DXM.Props
open DXM.IEEE DXM.Spec DXM.FErr
variable {P : Env}

theorem gam_small {k : ℕ} (hk : k ≤ 16) : gam k ≤ 1/2^19 := by
  refine (gam_mono hk (by norm_num)).trans ?_
  unfold gam ulp2; norm_num

/-- The arithmetic of one approximate reciprocal square root of an approximate square. -/
theorem est_real {S x ρ : ℝ} (hS : 0 < S) (hx : |x - S| ≤ 1/2^19 * S) (hρ : |ρ * Real.sqrt x - 1| ≤ approx) :
    |ρ - 1 / Real.sqrt S| ≤ 7/2^14 * (1 / Real.sqrt S) := by
  have hs := Real.sqrt_pos.2 hS
  have hx' := abs_le.1 hx
  have hx0 : 0 < x := by nlinarith
  have hsx := Real.sqrt_pos.2 hx0
  set s := Real.sqrt S
  set y := Real.sqrt x
  have e1 : s * s = S := Real.mul_self_sqrt hS.le
  have e2 : y * y = x := Real.mul_self_sqrt hx0.le
  have hd : |y - s| ≤ 1/2^19 * s := by
    have e3 : (y - s) * (y + s) = x - S := by rw [← e1, ← e2]; ring
    have h4 : |y - s| * s ≤ 1/2^19 * s * s := by
      calc |y - s| * s ≤ |y - s| * (y + s) := mul_le_mul_of_nonneg_left (by linarith) (abs_nonneg _)
        _ = |x - S| := by rw [← e3, abs_mul, abs_of_pos (by linarith : 0 < y + s)]
        _ ≤ 1/2^19 * S := hx
        _ = _ := by rw [← e1]; ring
    exact le_of_mul_le_mul_right h4 hs
  have hd' := abs_le.1 hd
  have hy : (1 - 1/2^19) * s ≤ y := by linarith [hd'.1]
  have e5 : ρ - 1 / s = ((ρ * y - 1) + (s - y) / s) / y := by field_simp; ring
  rw [e5, abs_div, abs_of_pos hsx, div_le_iff₀ hsx]
  have h6 : |(s - y) / s| ≤ 1/2^19 := by
    rw [abs_div, abs_of_pos hs, div_le_iff₀ hs, abs_sub_comm]; exact hd
  have h7 : |(ρ * y - 1) + (s - y) / s| ≤ approx + 1/2^19 := (abs_add_le _ _).trans (add_le_add hρ h6)
  have h8 : (1 - 1/2^19) ≤ 1 / s * y := by rw [show 1 / s * y = y / s by ring, le_div_iff₀ hs]; exact hy
  refine h7.trans ?_
  calc approx + 1/2^19 ≤ 7/2^14 * (1 - 1/2^19) := by unfold approx; norm_num
    _ ≤ 7/2^14 * (1 / s * y) := by apply mul_le_mul_of_nonneg_left h8; norm_num
    _ = _ := by ring

/-- One lane of an approximate reciprocal length. -/
theorem est_lane {n : ℕ} {S : ℝ} {x : F32 P} (h : LSq n S x) (hm : Mid S) (hn : n ≤ 4) (hP : RsqrtOk (fun b => P.libm 1 b 0)) :
    Fin' (Lane.rsqrtE x : F32 P) ∧ |val (Lane.rsqrtE x : F32 P) - 1 / Real.sqrt S| ≤ 7/2^14 * (1 / Real.sqrt S) := by
  obtain ⟨h1, h2⟩ := (h.ap hm hn (by omega)).2.2 (hm.2.trans (by norm_num))
  have h3 : |val x - S| ≤ 1/2^19 * S := h2.trans (mul_le_mul_of_nonneg_right (gam_small (by omega)) hm.pos.le)
  have h4 : tiny ≤ val x := by
    have := (abs_le.1 h3).1
    have h5 : tiny ≤ (1 - 1/2^19) * (1/2^100) := by unfold tiny; norm_num
    have h6 := hm.1
    nlinarith
  have h7 : val x ≤ 2^127 := by
    have := (abs_le.1 h3).2
    have h6 := hm.2
    norm_num at h6 this ⊢; linarith
  obtain ⟨h5, h6⟩ := hP x.bits h1 h4 h7
  exact ⟨h5, est_real hm.pos h3 h6⟩

theorem est_near {n : ℕ} {S : ℝ} {x : F32 P} (h : LSq n S x) (hm : Mid S) (hn : n ≤ 4) (hP : RsqrtOk (fun b => P.libm 1 b 0)) :
    EstNear (Lane.rsqrtE x : F32 P).bits (1 / Real.sqrt S) := by
  obtain ⟨h1, h2⟩ := est_lane h hm hn hP
  have hp : 0 < 1 / Real.sqrt S := one_div_pos.2 (Real.sqrt_pos.2 hm.pos)
  refine ⟨h1, h2.trans ?_⟩
  rw [abs_of_pos hp]; linarith

theorem rel_est {r : BitVec 32} {x : ℝ} {k : ℕ} (h : RelNear r x k) (hk : k ≤ 16) : EstNear r x := by
  refine ⟨h.1, h.2.trans ?_⟩
  have := gam_small hk
  have := abs_nonneg x
  nlinarith

theorem small_quo {n : ℕ} {A : V4 (F32 P)} (hm : Mid (sqs n A)) {i : Fin 4} (hi : i.val < n) : |vals A i / Real.sqrt (sqs n A)| ≤ 1 := by
  have hp := Real.sqrt_pos.2 hm.pos
  rw [abs_div, abs_of_pos hp, div_le_one hp]; exact hm.comp hi

/-- Multiplying by the estimate. -/
theorem est_mul {n : ℕ} {S : ℝ} {x a : F32 P} (h : LSq n S x) (hm : Mid S) (hn : n ≤ 4) (hP : RsqrtOk (fun b => P.libm 1 b 0))
    (ha : Fin' a) (hb : |val a / Real.sqrt S| ≤ 2^100) :
    EstNear' (Lane.mul (Lane.rsqrtE x) a : F32 P).bits (val a / Real.sqrt S) := by
  obtain ⟨h1, h2⟩ := est_lane h hm hn hP
  have hp := Real.sqrt_pos.2 hm.pos
  set ρ := val (Lane.rsqrtE x : F32 P)
  set q := val a / Real.sqrt S
  have h3 : |ρ * val a - q| ≤ 7/2^14 * |q| := by
    have e : ρ * val a - q = (ρ - 1 / Real.sqrt S) * val a := by simp only [q]; ring
    have e' : |q| = 1 / Real.sqrt S * |val a| := by simp only [q]; rw [abs_div, abs_of_pos hp]; ring
    rw [e, abs_mul, e', ← mul_assoc]
    exact mul_le_mul_of_nonneg_right h2 (abs_nonneg _)
  have h4 : |ρ * val a| ≤ 2 * |q| := by
    have := abs_sub_abs_le_abs_sub (ρ * val a) q
    have := abs_nonneg q
    linarith
  have ht : tiny ≤ 1 := by unfold tiny; norm_num
  have ht0 := tiny_pos
  have hb' : |ρ * val a| + tiny ≤ 2^127 := by
    calc |ρ * val a| + tiny ≤ 2 * 2^100 + 1 := by linarith
      _ ≤ _ := by norm_num
  obtain ⟨h5, h6⟩ := Ap.near (mulL h1 ha) (by norm_num) hb'
  refine ⟨h5, ?_⟩
  have h7 := gam_small (k := 1) (by norm_num)
  have h8 : |value (Lane.mul (Lane.rsqrtE x) a : F32 P).bits - ρ * val a| ≤ 1/2^19 * (2 * |q| + tiny) :=
    h6.trans (mul_le_mul h7 (by linarith) (by positivity) (by norm_num))
  have := abs_nonneg q
  have e9 : value (Lane.mul (Lane.rsqrtE x) a : F32 P).bits - q = (value (Lane.mul (Lane.rsqrtE x) a : F32 P).bits - ρ * val a) + (ρ * val a - q) := by ring
  rw [e9]
  refine (abs_add_le _ _).trans ?_
  linarith

theorem near_est {r : BitVec 32} {x : ℝ} {k : ℕ} (h : Near r x (|x| + tiny) k) (hk : k ≤ 16) (hx : |x| ≤ 2^100) : EstNear' r x := by
  have ht : tiny ≤ 1 := by unfold tiny; norm_num
  have ht0 := tiny_pos
  obtain ⟨h1, h2⟩ := h (by norm_num at hx ⊢; linarith)
  refine ⟨h1, h2.trans ?_⟩
  have h3 := gam_small hk
  have := abs_nonneg x
  nlinarith

theorem one_div_sum {k : ℕ} {x : F32 P} {w : ℝ} (hw : tiny ≤ |w|) (hw' : |w| ≤ 2^125)
    (hx : Ap x w |w| k) (hk : k ≤ 4) :
    IsFinite (Lane.div (Lane.ofBits 0x3F800000#32) x : F32 P).bits ∧ |value (Lane.div (Lane.ofBits 0x3F800000#32) x : F32 P).bits - 1 / w| ≤ |1 / w| / 2^18 := by
  have ht := tiny_pos
  have hw0 : 0 < |w| := ht.trans_le hw
  have h3 := Ap.div (leaf (fin_one (P := P))) hx (abs_pos.1 hw0) (by rw [val_one]; norm_num) (hw'.trans (by norm_num))
  rw [val_one, abs_one] at h3
  have e1 : 1 / |w| ≤ 2^126 := by
    rw [div_le_iff₀ hw0]
    calc (1:ℝ) = 2^126 * tiny := by unfold tiny; norm_num
      _ ≤ _ := mul_le_mul_of_nonneg_left hw (by norm_num)
  have e2 : tiny ≤ 1 / |w| := by
    rw [le_div_iff₀ hw0]
    calc tiny * |w| ≤ tiny * 2^125 := mul_le_mul_of_nonneg_left hw' ht.le
      _ ≤ 1 := by unfold tiny; norm_num
  have e3 : tiny ≤ 1 := by unfold tiny; norm_num
  obtain ⟨h4, h5⟩ := Ap.near h3 (by omega) (by norm_num at e1 ⊢; linarith)
  refine ⟨h4, h5.trans ?_⟩
  rw [abs_div, abs_one]
  have := gam_small (k := 0 + 2 * k + 1) (by omega)
  have h6 : 0 < 1 / |w| := one_div_pos.2 hw0
  nlinarith

theorem est18 {r : BitVec 32} {x : ℝ} (h : IsFinite r ∧ |value r - x| ≤ |x| / 2^18) : EstNear r x :=
  ⟨h.1, h.2.trans (by have := abs_nonneg x; rw [div_le_div_iff₀ (by norm_num) (by norm_num)]; nlinarith)⟩

/-- C102: `XMVectorReciprocalEst` and `XMVectorReciprocalSqrtEst`, every lane. -/
theorem C102_reciprocal (c : Cfg) (V : V4 (F32 P)) (i : Fin 4) (hV : IsFinite (V.lane i).bits) :
    (RcpOk (fun b => P.libm 0 b 0) → tiny ≤ |vals V i| → |vals V i| ≤ 2^125 → EstNear ((XMVectorReciprocalEst c V).lane i).bits (1 / vals V i)) ∧
    (RsqrtOk (fun b => P.libm 1 b 0) → tiny ≤ vals V i → vals V i ≤ 2^125 → EstNear ((XMVectorReciprocalSqrtEst c V).lane i).bits (1 / Real.sqrt (vals V i))) := by
  have ht := tiny_pos
  refine ⟨fun hP h1 h2 => ?_, fun hP h1 h2 => ?_⟩
  · unfold XMVectorReciprocalEst
    split_ifs with hc
    · obtain ⟨h3, h4⟩ := hP _ hV h1 h2
      have hv : vals V i ≠ 0 := abs_pos.1 (ht.trans_le h1)
      have h5 : EstNear (P.libm 0 (V.lane i).bits 0) (1 / vals V i) := by
        refine ⟨h3, ?_⟩
        have e : value (P.libm 0 (V.lane i).bits 0) - 1 / vals V i = (value (P.libm 0 (V.lane i).bits 0) * vals V i - 1) * (1 / vals V i) := by field_simp
        rw [e, abs_mul, mul_comm, div_eq_mul_inv |1 / vals V i|]
        refine mul_le_mul_of_nonneg_left (h4.trans ?_) (abs_nonneg _)
        unfold approx; norm_num
      fin_cases i <;> exact h5
    · have h5 := est18 <| one_div_sum h1 h2 (leaf hV) (by norm_num)
      fin_cases i <;> exact h5
  · have hs : tiny ≤ Real.sqrt (vals V i) := by
      apply Real.le_sqrt_of_sq_le
      have : tiny ≤ 1 := by unfold tiny; norm_num
      nlinarith
    have hs2 : Real.sqrt (vals V i) ≤ 2^125 := by
      apply Real.sqrt_le_iff.2
      refine ⟨by norm_num, h2.trans (by norm_num)⟩
    have hsp : 0 < Real.sqrt (vals V i) := ht.trans_le hs
    have ha := abs_of_pos hsp
    unfold XMVectorReciprocalSqrtEst
    split_ifs with hc
    · obtain ⟨h3, h4⟩ := hP _ hV h1 (h2.trans (by norm_num))
      have h5 : EstNear (P.libm 1 (V.lane i).bits 0) (1 / Real.sqrt (vals V i)) := by
        refine ⟨h3, ?_⟩
        have e : value (P.libm 1 (V.lane i).bits 0) - 1 / Real.sqrt (vals V i) = (value (P.libm 1 (V.lane i).bits 0) * Real.sqrt (vals V i) - 1) * (1 / Real.sqrt (vals V i)) := by
          field_simp
        rw [e, abs_mul, mul_comm, div_eq_mul_inv |1 / Real.sqrt (vals V i)|]
        refine mul_le_mul_of_nonneg_left (h4.trans ?_) (abs_nonneg _)
        unfold approx; norm_num
      fin_cases i <;> exact h5
    · have hl := leaf hV
      rw [abs_of_pos (ht.trans_le h1 : 0 < val (V.lane i))] at hl
      have h6 := Ap.sqrt hl (ht.trans_le h1) (h2.trans (by norm_num))
      have h5 := est18 <| one_div_sum (w := Real.sqrt (vals V i)) (by rw [ha]; exact hs) (by rw [ha]; exact hs2)
        (by rw [ha]; exact h6) (by norm_num)
      fin_cases i <;> exact h5

/-- C102: the estimated lengths are the lengths, bit for bit, whatever the lanes; `XMVectorSqrtEst` is the square root. -/
theorem C102_lengthEst {α : Type} [Lane α] (c : Cfg) (V : V4 α) :
    XMVectorSqrtEst V = XMVectorSqrt V ∧ XMVector2LengthEst c V = XMVector2Length c V ∧
    XMVector3LengthEst c V = XMVector3Length c V ∧ XMVector4LengthEst c V = XMVector4Length c V :=
  ⟨rfl, rfl, rfl, rfl⟩

/-- C102: reciprocal lengths. -/
theorem C102_reciprocalLength2 (hP : RsqrtOk (fun b => P.libm 1 b 0)) (c : Cfg) (A : V4 (F32 P)) (h : Fins 2 A) (hm : Mid (sqs 2 A)) (i : Fin 4) :
    EstNear ((XMVector2ReciprocalLengthEst c A).lane i).bits (1 / Real.sqrt (sqs 2 A)) := by
  have hl := lsq2 h
  rw [← sqs2] at hl
  have h1 := est_near hl.1 hm (by norm_num) hP
  have h2 := fun i => est_near (hl.2 i) hm (by norm_num) hP
  have h3 := rel_est (hl.1.rel_rcp hm (by norm_num)) (by norm_num)
  unfold XMVector2ReciprocalLengthEst
  split_ifs with hc
  · have := h2 i; fin_cases i <;> exact this
  · fin_cases i <;> exact h1
  · fin_cases i <;> exact h1
  · simp only [XMVectorReciprocalSqrtEst, XMVector2LengthSq, XMVector2Dot, hc, if_false]
    fin_cases i <;> exact h3

theorem C102_reciprocalLength3 (hP : RsqrtOk (fun b => P.libm 1 b 0)) (c : Cfg) (A : V4 (F32 P)) (h : Fins 3 A) (hm : Mid (sqs 3 A)) (i : Fin 4) :
    EstNear ((XMVector3ReciprocalLengthEst c A).lane i).bits (1 / Real.sqrt (sqs 3 A)) := by
  have hl := lsq3 h c
  rw [← sqs3] at hl
  obtain ⟨l1, l2, l3, l4, l5⟩ := hl
  have key : ∀ L : V4 (F32 P), (∀ i, LSq 3 (sqs 3 A) (L.lane i)) → EstNear ((SSE.rsqrt L).lane i).bits (1 / Real.sqrt (sqs 3 A)) := by
    intro L hL
    have := est_near (hL i) hm (by norm_num) hP
    fin_cases i <;> exact this
  unfold XMVector3ReciprocalLengthEst
  split_ifs with hc
  · exact key _ l1
  · exact key _ l4
  · have := rel_est ((l5 i).rel_rcp hm (by norm_num)) (by norm_num)
    simp only [XMVectorReciprocalSqrtEst, hc, if_false]
    fin_cases i <;> exact this

theorem C102_reciprocalLength4 (hP : RsqrtOk (fun b => P.libm 1 b 0)) (c : Cfg) (A : V4 (F32 P)) (h : Fins 4 A) (hm : Mid (sqs 4 A)) (i : Fin 4) :
    EstNear ((XMVector4ReciprocalLengthEst c A).lane i).bits (1 / Real.sqrt (sqs 4 A)) := by
  have hl := lsq4 h c
  rw [← sqs4] at hl
  obtain ⟨l1, l2⟩ := hl
  unfold XMVector4ReciprocalLengthEst
  split_ifs with hc
  · have := est_near (l1 i) hm (by norm_num) hP
    fin_cases i <;> exact this
  · have := rel_est ((l2 i (by simpa using hc)).rel_rcp hm (by norm_num)) (by norm_num)
    simp only [XMVectorReciprocalSqrtEst, hc, if_false]
    fin_cases i <;> exact this

theorem one100 : (1:ℝ) ≤ 2^100 := by norm_num

/-- C102: normalization estimates. -/
theorem C102_normalize2 (hP : RsqrtOk (fun b => P.libm 1 b 0)) (c : Cfg) (A : V4 (F32 P)) (h : Fins 2 A) (hm : Mid (sqs 2 A)) (i : Fin 4) (hi : i.val < 2) :
    EstNear' ((XMVector2NormalizeEst c A).lane i).bits (vals A i / Real.sqrt (sqs 2 A)) := by
  have hl := lsq2 h
  rw [← sqs2] at hl
  have hf := h i hi; have hb := hm.comp' hi; have hq := (small_quo hm hi).trans one100
  have ep : |vals A i| / Real.sqrt (sqs 2 A) = |vals A i / Real.sqrt (sqs 2 A)| := by rw [abs_div, abs_of_pos (Real.sqrt_pos.2 hm.pos)]
  unfold XMVector2NormalizeEst
  split_ifs with hc
  · have := est_mul (hl.2 i) hm (by norm_num) hP hf hq
    fin_cases i <;> exact this
  · have := est_mul hl.1 hm (by norm_num) hP hf hq
    fin_cases i <;> exact this
  · have := tail_quo (V := A) (L := V4.splat (Lane.add (Lane.mul A.x A.x) (Lane.mul A.y A.y))) (i := i) (by fin_cases i <;> exact hl.1) hm (by norm_num) hf hb
    have h2 := near_est (x := vals A i / Real.sqrt (sqs 2 A)) (by rw [← ep]; exact Ap.near this (by norm_num)) (by norm_num) hq
    exact h2
  · have := (hl.1).quo' hm (by norm_num) hf hb
    have h2 := near_est (x := vals A i / Real.sqrt (sqs 2 A)) (by rw [← ep]; exact Ap.near this (by norm_num)) (by norm_num) hq
    simp only [XMVector2ReciprocalLength, XMVectorReciprocalSqrt, XMVector2LengthSq, XMVector2Dot, hc, if_false]
    fin_cases i <;> exact h2

theorem C102_normalize3 (hP : RsqrtOk (fun b => P.libm 1 b 0)) (c : Cfg) (A : V4 (F32 P)) (h : Fins 3 A) (hm : Mid (sqs 3 A)) (i : Fin 4) (hi : i.val < 3) :
    EstNear' ((XMVector3NormalizeEst c A).lane i).bits (vals A i / Real.sqrt (sqs 3 A)) := by
  have hl := lsq3 h c
  rw [← sqs3] at hl
  obtain ⟨l1, l2, l3, l4, l5⟩ := hl
  have hf := h i hi; have hb := hm.comp' hi; have hq := (small_quo hm hi).trans one100
  have ep : |vals A i| / Real.sqrt (sqs 3 A) = |vals A i / Real.sqrt (sqs 3 A)| := by rw [abs_div, abs_of_pos (Real.sqrt_pos.2 hm.pos)]
  have key : ∀ L : V4 (F32 P), (∀ i, LSq 3 (sqs 3 A) (L.lane i)) → EstNear' ((SSE.mul (SSE.rsqrt L) A).lane i).bits (vals A i / Real.sqrt (sqs 3 A)) := by
    intro L hL
    have := est_mul (hL i) hm (by norm_num) hP hf hq
    fin_cases i <;> exact this
  unfold XMVector3NormalizeEst
  split_ifs with hc
  · exact key _ l1
  · exact key _ l2
  · exact key _ l3
  · have := (l5 i).quo' hm (by norm_num) hf hb
    have h2 := near_est (x := vals A i / Real.sqrt (sqs 3 A)) (by rw [← ep]; exact Ap.near this (by norm_num)) (by norm_num) hq
    simp only [XMVector3ReciprocalLength, XMVectorReciprocalSqrt, hc, if_false]
    fin_cases i <;> exact h2

/-- C102: also `XMQuaternionNormalizeEst`. -/
theorem C102_normalize4 (hP : RsqrtOk (fun b => P.libm 1 b 0)) (c : Cfg) (A : V4 (F32 P)) (h : Fins 4 A) (hm : Mid (sqs 4 A)) (i : Fin 4) :
    EstNear' ((XMVector4NormalizeEst c A).lane i).bits (vals A i / Real.sqrt (sqs 4 A)) ∧
    EstNear' ((XMQuaternionNormalizeEst c A).lane i).bits (vals A i / Real.sqrt (sqs 4 A)) := by
  suffices hh : EstNear' ((XMVector4NormalizeEst c A).lane i).bits (vals A i / Real.sqrt (sqs 4 A)) from ⟨hh, hh⟩
  have hl := lsq4 h c
  rw [← sqs4] at hl
  obtain ⟨l1, l2⟩ := hl
  have hf := h i i.isLt; have hb := hm.comp' i.isLt; have hq := (small_quo hm i.isLt).trans one100
  have ep : |vals A i| / Real.sqrt (sqs 4 A) = |vals A i / Real.sqrt (sqs 4 A)| := by rw [abs_div, abs_of_pos (Real.sqrt_pos.2 hm.pos)]
  unfold XMVector4NormalizeEst
  split_ifs with hc
  · have := est_mul (l1 i) hm (by norm_num) hP hf hq
    fin_cases i <;> exact this
  · have := (l2 i (by simpa using hc)).quo' hm (by norm_num) hf hb
    have h2 := near_est (x := vals A i / Real.sqrt (sqs 4 A)) (by rw [← ep]; exact Ap.near this (by norm_num)) (by norm_num) hq
    simp only [XMVector4ReciprocalLength, XMVectorReciprocalSqrt, hc, if_false]
    fin_cases i <;> exact h2

/-- C102: `XMPlaneNormalizeEst`: all four coefficients are divided by the length of the normal. -/
theorem C102_planeNormalize (hP : RsqrtOk (fun b => P.libm 1 b 0)) (c : Cfg) (A : V4 (F32 P)) (h : Fins 4 A) (hm : Mid (sqs 3 A))
    (hw : |vals A 3| ≤ 2^127) (hw' : |vals A 3 / Real.sqrt (sqs 3 A)| ≤ 2^100) (i : Fin 4) :
    EstNear' ((XMPlaneNormalizeEst c A).lane i).bits (vals A i / Real.sqrt (sqs 3 A)) := by
  have hl := lsq3 (fun j hj => h j (by omega)) c
  rw [← sqs3] at hl
  obtain ⟨l1, l2, l3, l4, l5⟩ := hl
  have hf := h i i.isLt
  have hb : |vals A i| ≤ 2^127 := by
    by_cases hi : i.val < 3
    · exact hm.comp' hi
    · have : i = 3 := by omega
      rw [this]; exact hw
  have hq : |vals A i / Real.sqrt (sqs 3 A)| ≤ 2^100 := by
    by_cases hi : i.val < 3
    · exact (small_quo hm hi).trans one100
    · have : i = 3 := by omega
      rw [this]; exact hw'
  have ep : |vals A i| / Real.sqrt (sqs 3 A) = |vals A i / Real.sqrt (sqs 3 A)| := by rw [abs_div, abs_of_pos (Real.sqrt_pos.2 hm.pos)]
  unfold XMPlaneNormalizeEst
  split_ifs with hc
  · have := est_mul (l3 i) hm (by norm_num) hP hf hq
    fin_cases i <;> exact this
  · have := (l5 i).quo' hm (by norm_num) hf hb
    have h2 := near_est (x := vals A i / Real.sqrt (sqs 3 A)) (by rw [← ep]; exact Ap.near this (by norm_num)) (by norm_num) hq
    have hc4 : ¬ (c.sse4 ∧ c.sse) := by simp [hc]
    simp only [XMVector3ReciprocalLengthEst, XMVectorReciprocalSqrtEst, XMVectorMultiply, hc, if_false]
    fin_cases i <;> exact h2

/-- An environment with one fixed NaN. -/
noncomputable def estEnv0 : Env := ⟨fun _ _ _ _ => 0x7FC00000#32, fun _ _ _ => 0#32⟩

/-- An environment whose two approximate instructions are the rounded reciprocal and the rounded quotient by the rounded root. -/
noncomputable def estEnv : Env where
  nan := estEnv0.nan
  libm := fun n a _ =>
    if n = 0 then (Lane.div (Lane.ofBits 0x3F800000#32) (Lane.ofBits a : F32 estEnv0)).bits
    else (Lane.div (Lane.ofBits 0x3F800000#32) (Lane.sqrt (Lane.ofBits a : F32 estEnv0))).bits

theorem estEnv_rcp (a b : BitVec 32) : estEnv.libm 0 a b = (Lane.div (Lane.ofBits 0x3F800000#32) (Lane.ofBits a : F32 estEnv0)).bits := by
  unfold estEnv; dsimp only; rw [if_pos rfl]
theorem estEnv_rsqrt (a b : BitVec 32) :
    estEnv.libm 1 a b = (Lane.div (Lane.ofBits 0x3F800000#32) (Lane.sqrt (Lane.ofBits a : F32 estEnv0))).bits := by
  unfold estEnv; dsimp only; rw [if_neg (by decide)]

theorem rel_one {r w : ℝ} (hw : w ≠ 0) (h : |r - 1 / w| ≤ |1 / w| / 2^18) : |r * w - 1| ≤ approx := by
  have e : r * w - 1 = (r - 1 / w) * w := by field_simp
  rw [e, abs_mul]
  refine (mul_le_mul_of_nonneg_right h (abs_nonneg _)).trans ?_
  rw [show |1 / w| / 2^18 * |w| = |1 / w * w| / 2^18 by rw [abs_mul]; ring, one_div, inv_mul_cancel₀ hw, abs_one]
  unfold approx; norm_num

/-- The hypotheses on the instructions are satisfiable. -/
theorem estEnv_ok : RcpOk (fun b => estEnv.libm 0 b 0) ∧ RsqrtOk (fun b => estEnv.libm 1 b 0) := by
  have ht := tiny_pos
  refine ⟨fun x hx h1 h2 => ?_, fun x hx h1 h2 => ?_⟩
  · have h3 := one_div_sum (P := estEnv0) h1 h2 (leaf (x := (Lane.ofBits x : F32 estEnv0)) hx) (by norm_num)
    beta_reduce; rw [estEnv_rcp]
    exact ⟨h3.1, rel_one (abs_pos.1 (ht.trans_le h1)) h3.2⟩
  · have hp : 0 < value x := ht.trans_le h1
    have hl := leaf (x := (Lane.ofBits x : F32 estEnv0)) hx
    rw [abs_of_pos (show 0 < val (Lane.ofBits x : F32 estEnv0) from hp)] at hl
    have h6 := Ap.sqrt hl hp h2
    have hsp := Real.sqrt_pos.2 hp
    have ha := abs_of_pos hsp
    have hs : tiny ≤ Real.sqrt (value x) := by
      apply Real.le_sqrt_of_sq_le
      have : tiny ≤ 1 := by unfold tiny; norm_num
      nlinarith
    have hs2 : Real.sqrt (value x) ≤ 2^125 := Real.sqrt_le_iff.2 ⟨by norm_num, h2.trans (by norm_num)⟩
    have h5 := one_div_sum (P := estEnv0) (w := Real.sqrt (value x)) (by rw [ha]; exact hs) (by rw [ha]; exact hs2) (by rw [ha]; exact h6) (by norm_num)
    beta_reduce; rw [estEnv_rsqrt]
    exact ⟨h5.1, rel_one hsp.ne' h5.2⟩

example : RsqrtOk (fun b => estEnv.libm 1 b 0) ∧ Fins 3 (exV : V4 (F32 estEnv)) ∧ Mid (sqs 3 (exV : V4 (F32 estEnv))) := by
  obtain ⟨e0, e1, e2, e3⟩ := exV_vals (P := estEnv)
  have : sqs 3 (exV : V4 (F32 estEnv)) = 61/4 := by
    rw [sqs3, ← vals_0, ← vals_1, ← vals_2, e0, e1, e2]; norm_num
  refine ⟨estEnv_ok.2, exV_fin 3, ?_⟩
  rw [this]; constructor <;> norm_num

end DXM.Props
