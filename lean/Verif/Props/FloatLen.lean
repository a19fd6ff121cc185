import Verif.Props.Float
import Mathlib.Algebra.BigOperators.Fin
import Mathlib.Analysis.InnerProductSpace.PiL2

/-
C95: lengths, reciprocal lengths and normalization on binary32 lanes (interpretation I), in every build: small relative error as long as
the squared length neither overflows nor underflows.
-/

set_option linter.all false

namespace DXM.Props
open DXM.Spec DXM.FErr DXM.IEEE
variable {P : Env}

/-- A magnitude with a few `tiny` added costs one more rounding, if it is not near the underflow threshold. -/
theorem Ap.absorb {x : F32 P} {S T : ℝ} {k : ℕ} (h : Ap x S (S + T) k) (hS : 0 ≤ S) (hT : T ≤ ulp2 * S) (hB : S ≤ 2^126) : Ap x S S (k + 1) := by
  intro hk
  have hu := u_pos
  have h' := h (by omega)
  refine ⟨by rw [abs_of_nonneg hS], hk, fun hM => ?_⟩
  have hu1 : ulp2 ≤ 1 := by unfold ulp2; norm_num
  have h2 := h'.2.2 (by nlinarith)
  refine ⟨h2.1, h2.2.trans ?_⟩
  have h3 := gam_succ hk
  have h4 := gam_nonneg (k := k) (by omega)
  nlinarith

theorem tiny_le {n S : ℝ} (hn : n ≤ 4) (hn0 : 0 ≤ n) (hS : 1 / 2^100 ≤ S) : n * tiny ≤ ulp2 * S := by
  have h1 : 4 * tiny ≤ ulp2 * (1/2^100) := by unfold tiny ulp2; norm_num
  have h2 := mul_le_mul_of_nonneg_left hS u_pos.le
  have := tiny_pos
  nlinarith

/-- What a lane holding a positive number that is known up to a relative error looks like. -/
theorem pos_lane {x : F32 P} {S : ℝ} {k : ℕ} (h : Ap x S S k) (hk : k ≤ 2^20) (hS : 0 < S) (hB : S ≤ 2^127) :
    Fin' x ∧ 0 < val x := by
  obtain ⟨h1, h2⟩ := (h hk).2.2 hB
  refine ⟨h1, ?_⟩
  have := gam_le hk
  have := (abs_le.1 h2).1
  nlinarith

theorem ne_zero_pos {x : F32 P} (h : Fin' x) (hp : 0 < val x) : Lane.ne (Lane.ofBits 0#32 : F32 P) x = true ∧ Lane.gt x (Lane.ofBits 0#32 : F32 P) = true := by
  have z : (Lane.ofBits 0#32 : F32 P).bits = 0#32 := rfl
  have hn : ¬ IsNaN (0#32 : BitVec 32) := by decide
  constructor
  · have : Lane.eq (Lane.ofBits 0#32 : F32 P) x = false := by
      rw [F32.eq_eq, Bool.eq_false_iff, ne_eq, eq_iff, z]
      rintro ⟨-, -, h3⟩
      rw [evalue_zero, evalue_finite h] at h3
      have : value x.bits = 0 := by exact_mod_cast h3.symm
      exact hp.ne' this
    unfold Lane.ne; rw [this]; rfl
  · show Lane.lt (Lane.ofBits 0#32 : F32 P) x = true
    rw [F32.lt_eq, lt_iff, z]
    refine ⟨hn, not_nan_of_finite h, ?_⟩
    rw [evalue_zero, evalue_finite h]; exact_mod_cast hp
theorem ne_inf {x : F32 P} (h : Fin' x) : Lane.ne x (Lane.ofBits 0x7F800000#32 : F32 P) = true := by
  have : Lane.eq x (Lane.ofBits 0x7F800000#32 : F32 P) = false := by
    rw [F32.eq_eq, Bool.eq_false_iff, ne_eq, eq_iff]
    rintro ⟨-, -, h3⟩
    have e : evalue (Lane.ofBits 0x7F800000#32 : F32 P).bits = ⊤ := by
      show evalue 0x7F800000#32 = ⊤
      unfold evalue; rw [if_pos (by decide), if_neg (by decide)]
    rw [e, evalue_finite h] at h3
    exact EReal.coe_ne_top _ h3
  unfold Lane.ne; rw [this]; rfl

/-- The lanes of the SSE tail are quotients. -/
theorem tail_lane (V L : V4 (F32 P)) (i : Fin 4) (hL : Fin' (L.lane i)) (hs : Fin' (Lane.sqrt (L.lane i))) (hp : 0 < val (Lane.sqrt (L.lane i))) :
    (normalizeTail V L).lane i = Lane.div (V.lane i) (Lane.sqrt (L.lane i)) := by
  have h1 := (ne_zero_pos hs hp).1; have h2 := ne_inf hL
  fin_cases i <;>
    · simp only [normalizeTail, SSE.or, SSE.and, SSE.andnot, SSE.cmpneq, SSE.sqrt, SSE.div, SSE.setzero, g_XMInfinity, g_XMQNaN, V4.map2, V4.map, V4.splat, V4.lane, Fin.zero_eta, Fin.mk_one, Fin.reduceFinMk] at h1 h2 ⊢
      rw [h1, h2]
      simp only [Lane.mask_true, LawfulLane.band_ones_right, LawfulLane.bandn_ones_left, LawfulLane.bor_zero_left]

/-- `x` is a squared length `S`, summed in some order. -/
def LSq (n : ℕ) (S : ℝ) (x : F32 P) : Prop := Ap x S (S + n * tiny) n

theorem sqv (x : ℝ) : |x * x| = x ^ 2 := by rw [abs_of_nonneg (mul_self_nonneg x), sq]
/-- One squared length. -/
macro "lsq" : tactic => `(tactic| exact Ap.le (by ap) (by ring) (by simp only [sqv]; push_cast; linarith [tiny_pos]) (by norm_num))

theorem lsq2 {A : V4 (F32 P)} (h : Fins 2 A) :
    LSq 2 (val A.x ^ 2 + val A.y ^ 2) (Lane.add (Lane.mul A.x A.x) (Lane.mul A.y A.y)) ∧
    (∀ i, LSq 2 (val A.x ^ 2 + val A.y ^ 2) ((SSE.dp3f A A).lane i)) := by
  obtain ⟨h1, h2⟩ := fins2 h
  refine ⟨by unfold LSq; lsq, lanes ?_⟩
  have h3 : LSq 2 (val A.x ^ 2 + val A.y ^ 2) (Lane.add (Lane.mul A.x A.x) (Lane.mul A.y A.y)) := by unfold LSq; lsq
  have h4 := Ap.add0 h3 (zeroAp.add0 zeroAp)
  exact ⟨h4, h4, h4, h4⟩
theorem lsq3 {A : V4 (F32 P)} (h : Fins 3 A) (c : Cfg) :
    (∀ i, LSq 3 (val A.x ^ 2 + val A.y ^ 2 + val A.z ^ 2) ((SSE.dp7f A A).lane i)) ∧
    (∀ i, LSq 3 (val A.x ^ 2 + val A.y ^ 2 + val A.z ^ 2) ((sum3h (SSE.mul A A)).lane i)) ∧
    (∀ i, LSq 3 (val A.x ^ 2 + val A.y ^ 2 + val A.z ^ 2) ((sum3ss (SSE.mul A A)).lane i)) ∧
    (∀ i, LSq 3 (val A.x ^ 2 + val A.y ^ 2 + val A.z ^ 2) ((sum3ss' (SSE.mul A A)).lane i)) ∧
    (∀ i, LSq 3 (val A.x ^ 2 + val A.y ^ 2 + val A.z ^ 2) ((XMVector3LengthSq c A).lane i)) := by
  obtain ⟨h1, h2, h3⟩ := fins3 h
  have hss : ∀ i, LSq 3 (val A.x ^ 2 + val A.y ^ 2 + val A.z ^ 2) ((sum3ss (SSE.mul A A)).lane i) := by
    refine lanes ?_
    simp only [sum3ss, SSE.perm, SSE.add_ss, SSE.mul, V4.splat, V4.map2, V4.lane, LSq]
    refine ⟨?_, ?_, ?_, ?_⟩ <;> lsq
  have hdp : ∀ i, LSq 3 (val A.x ^ 2 + val A.y ^ 2 + val A.z ^ 2) ((SSE.dp7f A A).lane i) := by
    refine lanes ?_
    simp only [SSE.dp7f, V4.splat, LSq]
    refine ⟨?_, ?_, ?_, ?_⟩ <;> lsq
  refine ⟨hdp, lanes ?_, hss, lanes ?_, fun i => ?_⟩
  · simp only [sum3h, SSE.and, g_XMMask3, SSE.hadd, SSE.mul, V4.map2, LSq, LawfulLane.band_ones_right, LawfulLane.band_zero_right]
    refine ⟨?_, ?_, ?_, ?_⟩ <;> lsq
  · simp only [sum3ss', SSE.perm, SSE.add_ss, SSE.mul, V4.splat, V4.map2, V4.lane, LSq]
    refine ⟨?_, ?_, ?_, ?_⟩ <;> lsq
  · unfold XMVector3LengthSq XMVector3Dot
    split_ifs
    · exact hdp i
    · exact hss i
    · revert i; refine lanes ?_
      simp only [V4.splat, LSq]
      refine ⟨?_, ?_, ?_, ?_⟩ <;> lsq
theorem lsq4 {A : V4 (F32 P)} (h : Fins 4 A) (c : Cfg) :
    (∀ i, LSq 4 (val A.x ^ 2 + val A.y ^ 2 + val A.z ^ 2 + val A.w ^ 2) ((lengthSq4 c A).lane i)) ∧
    (∀ i, c.sse = false → LSq 4 (val A.x ^ 2 + val A.y ^ 2 + val A.z ^ 2 + val A.w ^ 2) ((XMVector4LengthSq c A).lane i)) := by
  obtain ⟨h1, h2, h3, h4⟩ := fins4 h
  refine ⟨lanes ?_, fun i hc => ?_⟩
  · unfold lengthSq4
    split_ifs
    · simp only [SSE.dpff, V4.splat, LSq]
      refine ⟨?_, ?_, ?_, ?_⟩ <;> lsq
    · simp only [sum4h, SSE.hadd, SSE.mul, V4.map2, LSq]
      refine ⟨?_, ?_, ?_, ?_⟩ <;> lsq
    · simp only [sum4ss, SSE.perm, SSE.shuffle, SSE.add, SSE.mul, V4.map2, V4.lane, LSq]
      refine ⟨?_, ?_, ?_, ?_⟩ <;> lsq
  · unfold XMVector4LengthSq XMVector4Dot
    rw [hc]; simp only [Bool.false_eq_true, if_false]
    revert i; refine lanes ?_
    simp only [V4.splat, LSq]
    refine ⟨?_, ?_, ?_, ?_⟩ <;> lsq

section
variable {n : ℕ} {S : ℝ} {x : F32 P}
/-- The squared length is far from overflow and underflow. -/
def Mid (S : ℝ) : Prop := 1 / 2^100 ≤ S ∧ S ≤ 2^126

theorem Mid.pos (h : Mid S) : 0 < S := lt_of_lt_of_le (by positivity) h.1
theorem Mid.sqrt_le (h : Mid S) : Real.sqrt S ≤ 2^63 := by
  refine (Real.sqrt_le_sqrt h.2).trans (le_of_eq ?_)
  rw [show (2:ℝ)^126 = (2^63)^2 by norm_num]; exact Real.sqrt_sq (by positivity)
theorem Mid.le_sqrt (h : Mid S) : 1/2^50 ≤ Real.sqrt S := by
  apply Real.le_sqrt_of_sq_le; refine le_trans ?_ h.1; norm_num
theorem LSq.ap (h : LSq n S x) (hm : Mid S) (hn : n ≤ 4) : Ap x S S (n + 1) :=
  Ap.absorb h hm.pos.le (tiny_le (by exact_mod_cast hn) (by positivity) hm.1) hm.2
theorem LSq.sqrt (h : LSq n S x) (hm : Mid S) (hn : n ≤ 4) : Ap (Lane.sqrt x) (Real.sqrt S) (Real.sqrt S) (n + 2) :=
  (h.ap hm hn).sqrt hm.pos (hm.2.trans (by norm_num))
theorem LSq.rcp (h : LSq n S x) (hm : Mid S) (hn : n ≤ 4) :
    Ap (Lane.div (Lane.ofBits 0x3F800000#32) (Lane.sqrt x)) (1 / Real.sqrt S) (1 / Real.sqrt S) (2 * n + 6) := by
  have hp := Real.sqrt_pos.2 hm.pos
  have ha := abs_of_pos hp
  have h1 := leaf (P := P) fin_one
  rw [val_one] at h1
  have h2 := h1.div (k := n + 2) (by rw [ha]; exact h.sqrt hm hn) hp.ne' (by norm_num) (by rw [ha]; exact hm.sqrt_le.trans (by norm_num))
  rw [ha, abs_one] at h2
  have h3 := Ap.absorb h2 (by positivity) ?_ ?_
  · exact Ap.le h3 rfl le_rfl (by omega)
  · have h4 : 1 / 2^63 ≤ 1 / Real.sqrt S := by apply one_div_le_one_div_of_le hp hm.sqrt_le
    have h5 : tiny ≤ ulp2 * (1/2^63) := by unfold tiny ulp2; norm_num
    exact h5.trans (mul_le_mul_of_nonneg_left h4 u_pos.le)
  · have : 1 / Real.sqrt S ≤ 1 / (1/2^50) := by apply one_div_le_one_div_of_le (by positivity) hm.le_sqrt
    exact this.trans (by norm_num)
theorem LSq.quo (h : LSq n S x) (hm : Mid S) (hn : n ≤ 4) {a : F32 P} (ha : Fin' a) (hb : |val a| ≤ 2^127) :
    Ap (Lane.div a (Lane.sqrt x)) (val a / Real.sqrt S) (|val a| / Real.sqrt S + tiny) (2 * n + 7) := by
  have hp := Real.sqrt_pos.2 hm.pos
  have hs := abs_of_pos hp
  have h2 := (leaf ha).div (k := n + 2) (by rw [hs]; exact h.sqrt hm hn) hp.ne' hb (by rw [hs]; exact hm.sqrt_le.trans (by norm_num))
  rw [hs] at h2
  exact Ap.le h2 rfl le_rfl (by omega)
theorem LSq.quo' (h : LSq n S x) (hm : Mid S) (hn : n ≤ 4) {a : F32 P} (ha : Fin' a) (hb : |val a| ≤ 2^127) :
    Ap (Lane.mul a (Lane.div (Lane.ofBits 0x3F800000#32) (Lane.sqrt x))) (val a / Real.sqrt S) (|val a| / Real.sqrt S + tiny) (2 * n + 7) := by
  have h2 := (leaf ha).mul (h.rcp hm hn) hb ?_
  · exact Ap.le h2 (by ring) (le_of_eq (by ring)) (by omega)
  · have hp := Real.sqrt_pos.2 hm.pos
    have : 1 / Real.sqrt S ≤ 1 / (1/2^50) := by apply one_div_le_one_div_of_le (by positivity) hm.le_sqrt
    exact this.trans (by norm_num)

theorem tail_quo {V L : V4 (F32 P)} {i : Fin 4} (h : LSq n S (L.lane i)) (hm : Mid S) (hn : n ≤ 4) (ha : Fin' (V.lane i)) (hb : |val (V.lane i)| ≤ 2^127) :
    Ap ((normalizeTail V L).lane i) (val (V.lane i) / Real.sqrt S) (|val (V.lane i)| / Real.sqrt S + tiny) (2 * n + 7) := by
  have h1 := pos_lane (h.ap hm hn) (by omega) hm.pos (hm.2.trans (by norm_num))
  have h2 := pos_lane (h.sqrt hm hn) (by omega) (Real.sqrt_pos.2 hm.pos) (hm.sqrt_le.trans (by norm_num))
  rw [tail_lane V L i h1.1 h2.1 h2.2]
  exact h.quo hm hn ha hb
theorem noi_quo {V L : V4 (F32 P)} {i : Fin 4} (h : LSq n S x) (hL : L.x = Lane.sqrt x) (hm : Mid S) (hn : n ≤ 4) (ha : Fin' (V.lane i)) (hb : |val (V.lane i)| ≤ 2^127) :
    Ap ((normalizeNOI V L).lane i) (val (V.lane i) / Real.sqrt S) (|val (V.lane i)| / Real.sqrt S + tiny) (2 * n + 7) := by
  have h2 := pos_lane (h.sqrt hm hn) (by omega) (Real.sqrt_pos.2 hm.pos) (hm.sqrt_le.trans (by norm_num))
  have h3 := (ne_zero_pos h2.1 h2.2).2
  have e : (normalizeNOI V L).lane i = Lane.mul (V.lane i) (Lane.div (Lane.ofBits 0x3F800000#32) (Lane.sqrt x)) := by
    unfold normalizeNOI
    rw [hL]
    have : (if Lane.gt (Lane.sqrt x) (Lane.ofBits 0#32 : F32 P) then Lane.div (Lane.ofBits 0x3F800000#32) (Lane.sqrt x) else Lane.sqrt x) = Lane.div (Lane.ofBits 0x3F800000#32) (Lane.sqrt x) := by
      rw [if_pos h3]
    fin_cases i <;> exact congrArg (Lane.mul _) this
  rw [e]
  exact h.quo' hm hn ha hb
end

/-- The sum of the squares of the first `n` components. -/
noncomputable def sqs (n : ℕ) (A : V4 (F32 P)) : ℝ := ∑ i : Fin 4, if i.val < n then vals A i ^ 2 else 0

theorem sqs2 (A : V4 (F32 P)) : sqs 2 A = val A.x ^ 2 + val A.y ^ 2 := by simp [sqs, Fin.sum_univ_four, vals_0, vals_1]
theorem sqs3 (A : V4 (F32 P)) : sqs 3 A = val A.x ^ 2 + val A.y ^ 2 + val A.z ^ 2 := by simp [sqs, Fin.sum_univ_four, vals_0, vals_1, vals_2]
theorem sqs4 (A : V4 (F32 P)) : sqs 4 A = val A.x ^ 2 + val A.y ^ 2 + val A.z ^ 2 + val A.w ^ 2 := by
  simp [sqs, Fin.sum_univ_four, vals_0, vals_1, vals_2, vals_3]

theorem Ap.rel {x : F32 P} {v : ℝ} {k : ℕ} (h : Ap x v v k) (hv : 0 ≤ v) (hk : k ≤ 2^20) (hB : v ≤ 2^127) : RelNear x.bits v k := by
  rw [RelNear, abs_of_nonneg hv]; exact (h hk).2.2 hB

section
variable {S : ℝ} (hm : Mid S)
theorem LSq.rel_sqrt {n : ℕ} {x : F32 P} (h : LSq n S x) (hm : Mid S) (hn : n ≤ 4) : RelNear (Lane.sqrt x).bits (Real.sqrt S) (n + 2) :=
  Ap.rel (h.sqrt hm hn) (Real.sqrt_nonneg _) (by omega) (hm.sqrt_le.trans (by norm_num))
theorem LSq.rel_rcp {n : ℕ} {x : F32 P} (h : LSq n S x) (hm : Mid S) (hn : n ≤ 4) :
    RelNear (Lane.div (Lane.ofBits 0x3F800000#32) (Lane.sqrt x)).bits (1 / Real.sqrt S) (2 * n + 6) := by
  refine Ap.rel (h.rcp hm hn) (by positivity) (by omega) ?_
  have : 1 / Real.sqrt S ≤ 1 / (1/2^50) := by apply one_div_le_one_div_of_le (by positivity) hm.le_sqrt
  exact this.trans (by norm_num)
end

/-- C95: `XMVector2Length`: relative error of four roundings. -/
theorem C95_length2 (c : Cfg) (A : V4 (F32 P)) (h : Fins 2 A) (hm : Mid (sqs 2 A)) (i : Fin 4) :
    RelNear ((XMVector2Length c A).lane i).bits (Real.sqrt (sqs 2 A)) 4 := by
  have hl := lsq2 h
  rw [← sqs2] at hl
  have h1 := hl.1.rel_sqrt hm (by norm_num)
  have h2 := fun i => (hl.2 i).rel_sqrt hm (by norm_num)
  unfold XMVector2Length
  split_ifs
  · have := h2 i; fin_cases i <;> exact this
  all_goals fin_cases i <;> first | exact h1 | skip
  all_goals
    simp only [XMVectorSqrt, XMVector2LengthSq, XMVector2Dot, *]
    exact h1
/-- C95: `XMVector3Length`. -/
theorem C95_length3 (c : Cfg) (A : V4 (F32 P)) (h : Fins 3 A) (hm : Mid (sqs 3 A)) (i : Fin 4) :
    RelNear ((XMVector3Length c A).lane i).bits (Real.sqrt (sqs 3 A)) 5 := by
  have hl := lsq3 h c
  rw [← sqs3] at hl
  obtain ⟨l1, l2, l3, l4, l5⟩ := hl
  have key : ∀ L : V4 (F32 P), (∀ i, LSq 3 (sqs 3 A) (L.lane i)) → RelNear ((SSE.sqrt L).lane i).bits (Real.sqrt (sqs 3 A)) 5 := by
    intro L hL
    have := (hL i).rel_sqrt hm (by norm_num)
    fin_cases i <;> exact this
  unfold XMVector3Length XMVectorSqrt
  split_ifs
  · exact key _ l1
  · exact key _ l2
  · exact key _ l4
  · exact key _ l5
/-- C95: `XMVector4Length`. -/
theorem C95_length4 (c : Cfg) (A : V4 (F32 P)) (h : Fins 4 A) (hm : Mid (sqs 4 A)) (i : Fin 4) :
    RelNear ((XMVector4Length c A).lane i).bits (Real.sqrt (sqs 4 A)) 6 := by
  have hl := lsq4 h c
  rw [← sqs4] at hl
  obtain ⟨l1, l2⟩ := hl
  have key : ∀ L : V4 (F32 P), (∀ i, LSq 4 (sqs 4 A) (L.lane i)) → RelNear ((SSE.sqrt L).lane i).bits (Real.sqrt (sqs 4 A)) 6 := by
    intro L hL
    have := (hL i).rel_sqrt hm (by norm_num)
    fin_cases i <;> exact this
  unfold XMVector4Length XMVectorSqrt
  split_ifs with hc
  · exact key _ l1
  · exact key _ fun i => l2 i (by simpa using hc)

/-- C95: `XMVector2ReciprocalLength`. -/
theorem C95_reciprocalLength2 (c : Cfg) (A : V4 (F32 P)) (h : Fins 2 A) (hm : Mid (sqs 2 A)) (i : Fin 4) :
    RelNear ((XMVector2ReciprocalLength c A).lane i).bits (1 / Real.sqrt (sqs 2 A)) 10 := by
  have hl := lsq2 h
  rw [← sqs2] at hl
  have h1 := hl.1.rel_rcp hm (by norm_num)
  have h2 := fun i => (hl.2 i).rel_rcp hm (by norm_num)
  unfold XMVector2ReciprocalLength
  split_ifs
  · have := h2 i; fin_cases i <;> exact this
  all_goals fin_cases i <;> first | exact h1 | skip
  all_goals
    simp only [XMVectorReciprocalSqrt, XMVector2LengthSq, XMVector2Dot, *]
    exact h1
/-- C95: `XMVector3ReciprocalLength`. -/
theorem C95_reciprocalLength3 (c : Cfg) (A : V4 (F32 P)) (h : Fins 3 A) (hm : Mid (sqs 3 A)) (i : Fin 4) :
    RelNear ((XMVector3ReciprocalLength c A).lane i).bits (1 / Real.sqrt (sqs 3 A)) 12 := by
  have hl := lsq3 h c
  rw [← sqs3] at hl
  obtain ⟨l1, l2, l3, l4, l5⟩ := hl
  have key : ∀ L : V4 (F32 P), (∀ i, LSq 3 (sqs 3 A) (L.lane i)) → RelNear ((SSE.div g_XMOne (SSE.sqrt L)).lane i).bits (1 / Real.sqrt (sqs 3 A)) 12 := by
    intro L hL
    have := (hL i).rel_rcp hm (by norm_num)
    fin_cases i <;> exact this
  unfold XMVector3ReciprocalLength XMVectorReciprocalSqrt
  split_ifs
  · exact key _ l1
  · exact key _ l2
  · exact key _ l3
  · exact key _ l5
/-- C95: `XMVector4ReciprocalLength`. -/
theorem C95_reciprocalLength4 (c : Cfg) (A : V4 (F32 P)) (h : Fins 4 A) (hm : Mid (sqs 4 A)) (i : Fin 4) :
    RelNear ((XMVector4ReciprocalLength c A).lane i).bits (1 / Real.sqrt (sqs 4 A)) 14 := by
  have hl := lsq4 h c
  rw [← sqs4] at hl
  obtain ⟨l1, l2⟩ := hl
  have key : ∀ L : V4 (F32 P), (∀ i, LSq 4 (sqs 4 A) (L.lane i)) → RelNear ((SSE.div g_XMOne (SSE.sqrt L)).lane i).bits (1 / Real.sqrt (sqs 4 A)) 14 := by
    intro L hL
    have := (hL i).rel_rcp hm (by norm_num)
    fin_cases i <;> exact this
  unfold XMVector4ReciprocalLength XMVectorReciprocalSqrt
  split_ifs with hc
  · exact key _ l1
  · exact key _ fun i => l2 i (by simpa using hc)

theorem Mid.comp {n : ℕ} {A : V4 (F32 P)} (hm : Mid (sqs n A)) {i : Fin 4} (hi : i.val < n) : |val (A.lane i)| ≤ Real.sqrt (sqs n A) := by
  apply Real.le_sqrt_of_sq_le
  rw [sq_abs]
  have := Finset.single_le_sum (f := fun i : Fin 4 => if i.val < n then vals A i ^ 2 else 0) (fun j _ => by positivity) (Finset.mem_univ i)
  simp only [hi, if_true] at this
  exact this
theorem Mid.comp' {n : ℕ} {A : V4 (F32 P)} (hm : Mid (sqs n A)) {i : Fin 4} (hi : i.val < n) : |val (A.lane i)| ≤ 2^127 :=
  (hm.comp hi).trans (hm.sqrt_le.trans (by norm_num))

theorem fin_of {n : ℕ} {x : F32 P} {v M : ℝ} {k : ℕ} (h : Ap x v M k) (hk : k ≤ 2^20) (hM : M ≤ 2^127) : IsFinite x.bits ∧ |value x.bits - v| ≤ gam k * M :=
  (h hk).2.2 hM

/-- C95: `XMVector2Normalize`: every component is the exact one up to eleven roundings and underflow. -/
theorem C95_normalize2 (c : Cfg) (A : V4 (F32 P)) (h : Fins 2 A) (hm : Mid (sqs 2 A)) (i : Fin 4) (hi : i.val < 2) :
    Near ((XMVector2Normalize c A).lane i).bits (vals A i / Real.sqrt (sqs 2 A)) (|vals A i| / Real.sqrt (sqs 2 A) + tiny) 11 := by
  have hl := lsq2 h
  rw [← sqs2] at hl
  have hf := h i hi; have hb := hm.comp' hi
  have key : ∀ L : V4 (F32 P), LSq 2 (sqs 2 A) (L.lane i) → Near ((normalizeTail A L).lane i).bits (vals A i / Real.sqrt (sqs 2 A)) (|vals A i| / Real.sqrt (sqs 2 A) + tiny) 11 :=
    fun L hL => Ap.near (tail_quo hL hm (by norm_num) hf hb) (by norm_num)
  unfold XMVector2Normalize
  split_ifs
  · exact key _ (hl.2 i)
  · refine key _ ?_
    fin_cases i <;> exact hl.1
  · refine key _ ?_
    fin_cases i <;> exact hl.1
  · refine Ap.near (noi_quo hl.1 ?_ hm (by norm_num) hf hb) (by norm_num)
    simp only [XMVector2Length, XMVectorSqrt, XMVector2LengthSq, XMVector2Dot, *]
    rfl
/-- C95: `XMVector3Normalize`: thirteen roundings. -/
theorem C95_normalize3 (c : Cfg) (A : V4 (F32 P)) (h : Fins 3 A) (hm : Mid (sqs 3 A)) (i : Fin 4) (hi : i.val < 3) :
    Near ((XMVector3Normalize c A).lane i).bits (vals A i / Real.sqrt (sqs 3 A)) (|vals A i| / Real.sqrt (sqs 3 A) + tiny) 13 := by
  have hl := lsq3 h c
  rw [← sqs3] at hl
  obtain ⟨l1, l2, l3, l4, l5⟩ := hl
  have hf := h i hi; have hb := hm.comp' hi
  have key : ∀ L : V4 (F32 P), LSq 3 (sqs 3 A) (L.lane i) → Near ((normalizeTail A L).lane i).bits (vals A i / Real.sqrt (sqs 3 A)) (|vals A i| / Real.sqrt (sqs 3 A) + tiny) 13 :=
    fun L hL => Ap.near (tail_quo hL hm (by norm_num) hf hb) (by norm_num)
  unfold XMVector3Normalize
  split_ifs
  · exact key _ (l1 i)
  · exact key _ (l2 i)
  · exact key _ (l3 i)
  · refine Ap.near (noi_quo (l5 0) ?_ hm (by norm_num) hf hb) (by norm_num)
    simp only [XMVector3Length, XMVectorSqrt, *]
    rfl
/-- C95: `XMVector4Normalize`: fifteen roundings. -/
theorem C95_normalize4 (c : Cfg) (A : V4 (F32 P)) (h : Fins 4 A) (hm : Mid (sqs 4 A)) (i : Fin 4) :
    Near ((XMVector4Normalize c A).lane i).bits (vals A i / Real.sqrt (sqs 4 A)) (|vals A i| / Real.sqrt (sqs 4 A) + tiny) 15 := by
  have hl := lsq4 h c
  rw [← sqs4] at hl
  obtain ⟨l1, l2⟩ := hl
  have hf := h i i.isLt; have hb := hm.comp' i.isLt
  unfold XMVector4Normalize
  split_ifs with hc
  · exact Ap.near (tail_quo (l1 i) hm (by norm_num) hf hb) (by norm_num)
  · refine Ap.near (noi_quo (l2 0 (by simpa using hc)) ?_ hm (by norm_num) hf hb) (by norm_num)
    simp only [XMVector4Length, XMVectorSqrt, *]
    rfl

/-- Componentwise errors bound the error of the length. -/
theorem norm_close {r u : Fin 4 → ℝ} {g t : ℝ} (hg : 0 ≤ g) (ht : 0 ≤ t) (hu : ∑ i, u i ^ 2 = 1) (h : ∀ i, |r i - u i| ≤ g * (|u i| + t)) :
    |Real.sqrt (∑ i, r i ^ 2) - 1| ≤ g * (1 + 2 * t) := by
  let U : EuclideanSpace ℝ (Fin 4) := WithLp.toLp 2 u
  let R : EuclideanSpace ℝ (Fin 4) := WithLp.toLp 2 r
  let W : EuclideanSpace ℝ (Fin 4) := WithLp.toLp 2 (fun i => |u i|)
  let T : EuclideanSpace ℝ (Fin 4) := WithLp.toLp 2 (fun _ => t)
  have nU : ‖U‖ = 1 := by rw [EuclideanSpace.norm_eq]; simp [U, hu]
  have nR : ‖R‖ = Real.sqrt (∑ i, r i ^ 2) := by rw [EuclideanSpace.norm_eq]; simp [R]
  have nW : ‖W‖ = 1 := by rw [EuclideanSpace.norm_eq]; simp [W, hu]
  have nT : ‖T‖ = 2 * t := by
    rw [EuclideanSpace.norm_eq]; simp only [T, Real.norm_eq_abs, sq_abs, Finset.sum_const, Finset.card_univ, Fintype.card_fin]
    rw [show (4:ℕ) • t^2 = (2*t)^2 by simp; ring]; exact Real.sqrt_sq (by positivity)
  have nD : ‖R - U‖ ≤ ‖g • (W + T)‖ := by
    rw [EuclideanSpace.norm_eq, EuclideanSpace.norm_eq]
    apply Real.sqrt_le_sqrt
    apply Finset.sum_le_sum
    intro i _
    have e1 : ‖(R - U).ofLp i‖ = |r i - u i| := by simp [R, U]
    have e2 : ‖(g • (W + T)).ofLp i‖ = g * (|u i| + t) := by
      simp only [W, T, PiLp.smul_apply, PiLp.add_apply, Real.norm_eq_abs, smul_eq_mul]
      exact abs_of_nonneg (by positivity)
    rw [e1, e2]
    exact pow_le_pow_left₀ (abs_nonneg _) (h i) 2
  rw [← nR, ← nU]
  refine (abs_norm_sub_norm_le _ _).trans (nD.trans ?_)
  rw [norm_smul, Real.norm_of_nonneg hg]
  have := norm_add_le W T
  rw [nW, nT] at this
  exact mul_le_mul_of_nonneg_left (by rw [nU]; exact this) hg

theorem unit_of_near {n k : ℕ} (hk : k + 1 ≤ 2^20) {A R : V4 (F32 P)} (hm : Mid (sqs n A))
    (h : ∀ i : Fin 4, i.val < n → Near (R.lane i).bits (vals A i / Real.sqrt (sqs n A)) (|vals A i| / Real.sqrt (sqs n A) + tiny) k) :
    (∀ i : Fin 4, i.val < n → IsFinite (R.lane i).bits) ∧ |Real.sqrt (sqs n R) - 1| ≤ gam (k + 1) := by
  have hp := Real.sqrt_pos.2 hm.pos
  have hM : ∀ i : Fin 4, i.val < n → |vals A i| / Real.sqrt (sqs n A) + tiny ≤ 2^127 := by
    intro i hi
    have h1 : |vals A i| / Real.sqrt (sqs n A) ≤ 1 := by rw [div_le_one hp]; exact hm.comp hi
    have h2 : tiny ≤ 1 := by unfold tiny; norm_num
    norm_num at h1 h2 ⊢; linarith
  refine ⟨fun i hi => (h i hi (hM i hi)).1, ?_⟩
  have hg := gam_nonneg (k := k) (by omega)
  have key := norm_close (r := fun i => if i.val < n then vals R i else 0) (u := fun i => if i.val < n then vals A i / Real.sqrt (sqs n A) else 0)
    (g := gam k) (t := tiny) hg tiny_pos.le ?_ ?_
  · have e : (∑ i : Fin 4, (if i.val < n then vals R i else 0) ^ 2) = sqs n R := by
      unfold sqs; refine Finset.sum_congr rfl fun i _ => ?_; split_ifs <;> simp
    rw [e] at key
    refine key.trans ?_
    have h2 : 2 * tiny ≤ ulp2 := by unfold tiny ulp2; norm_num
    have := gam_succ hk
    have h1 := u_pos
    nlinarith
  · have e : (∑ i : Fin 4, (if i.val < n then vals A i / Real.sqrt (sqs n A) else 0) ^ 2) = (∑ i : Fin 4, if i.val < n then vals A i ^ 2 else 0) / sqs n A := by
      rw [Finset.sum_div]; refine Finset.sum_congr rfl fun i _ => ?_
      split_ifs
      · rw [div_pow, Real.sq_sqrt hm.pos.le]
      · simp
    rw [e]; exact div_self hm.pos.ne'
  · intro i
    split_ifs with hi
    · have := (h i hi (hM i hi)).2
      rw [abs_div, abs_of_pos hp]; exact this
    · simp; exact mul_nonneg hg tiny_pos.le
/-- C95: the normalized vector is finite and has length 1 up to rounding: about twelve, fourteen and sixteen units of 2^-24. -/
theorem C95_normalize_unit (c : Cfg) (A : V4 (F32 P)) :
    (Fins 2 A → Mid (sqs 2 A) → Fins 2 (XMVector2Normalize c A) ∧ |Real.sqrt (sqs 2 (XMVector2Normalize c A)) - 1| ≤ gam 12) ∧
    (Fins 3 A → Mid (sqs 3 A) → Fins 3 (XMVector3Normalize c A) ∧ |Real.sqrt (sqs 3 (XMVector3Normalize c A)) - 1| ≤ gam 14) ∧
    (Fins 4 A → Mid (sqs 4 A) → Fins 4 (XMVector4Normalize c A) ∧ |Real.sqrt (sqs 4 (XMVector4Normalize c A)) - 1| ≤ gam 16) :=
  ⟨fun h hm => unit_of_near (by norm_num) hm (C95_normalize2 c A h hm),
   fun h hm => unit_of_near (by norm_num) hm (C95_normalize3 c A h hm),
   fun h hm => unit_of_near (by norm_num) hm (fun i _ => C95_normalize4 c A h hm i)⟩

/-- C95: quaternions are normalized like four-component vectors. -/
theorem C95_quaternionNormalize (c : Cfg) (Q : V4 (F32 P)) (h : Fins 4 Q) (hm : Mid (sqs 4 Q)) :
    Fins 4 (XMQuaternionNormalize c Q) ∧ |Real.sqrt (sqs 4 (XMQuaternionNormalize c Q)) - 1| ≤ gam 16 :=
  (C95_normalize_unit c Q).2.2 h hm

/-- The hypotheses of C95 on (3, -2, 1.5, 1). -/
example : Fins 3 (exV : V4 (F32 P)) ∧ sqs 3 (exV : V4 (F32 P)) = 61/4 ∧ Mid (sqs 3 (exV : V4 (F32 P))) := by
  obtain ⟨e0, e1, e2, e3⟩ := exV_vals (P := P)
  have : sqs 3 (exV : V4 (F32 P)) = 61/4 := by
    rw [sqs3, ← vals_0, ← vals_1, ← vals_2, e0, e1, e2]; norm_num
  refine ⟨exV_fin 3, this, ?_⟩
  rw [this]; constructor <;> norm_num

end DXM.Props
