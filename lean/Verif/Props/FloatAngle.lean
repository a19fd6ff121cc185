import Verif.Props.FloatArc
import Verif.Props.FloatLen
import Verif.Props.FloatBounds
import Verif.Model.Est

/-
C115: the angle between vectors on binary32 lanes, builds with intrinsics: rounding in the dot product, the lengths and the product cannot
push the arc cosine out of its domain, and the angle returned is that of a cosine within 21e-7 of the exact one.
-/

set_option linter.all false

namespace DXM.Props
open DXM.IEEE DXM.Spec DXM.FErr
variable {P : Env}

/-- The dot product of the first `n` components, and the sum of the magnitudes of its terms. -/
noncomputable def dots (n : ℕ) (A B : V4 (F32 P)) : ℝ := ∑ i : Fin 4, if i.val < n then vals A i * vals B i else 0
noncomputable def absDots (n : ℕ) (A B : V4 (F32 P)) : ℝ := ∑ i : Fin 4, if i.val < n then |vals A i * vals B i| else 0
/-- A squared length far from overflow and underflow. -/
def AngMid (S : ℝ) : Prop := 1 / 2^100 ≤ S ∧ S ≤ 2^100

theorem absDots_nonneg (n : ℕ) (A B : V4 (F32 P)) : 0 ≤ absDots n A B :=
  Finset.sum_nonneg fun i _ => by split_ifs <;> first | positivity | exact le_rfl
theorem dots_le (n : ℕ) (A B : V4 (F32 P)) : |dots n A B| ≤ absDots n A B := by
  refine (Finset.abs_sum_le_sum_abs _ _).trans (Finset.sum_le_sum fun i _ => ?_)
  split_ifs <;> simp
/-- Cauchy and Schwarz. -/
theorem absDots_le (n : ℕ) (A B : V4 (F32 P)) : absDots n A B ≤ Real.sqrt (sqs n A) * Real.sqrt (sqs n B) := by
  have h := Real.sum_mul_le_sqrt_mul_sqrt (Finset.univ : Finset (Fin 4)) (fun i => if i.val < n then |vals A i| else 0) (fun i => if i.val < n then |vals B i| else 0)
  have e1 : ∀ C : V4 (F32 P), ∑ i : Fin 4, (if i.val < n then |vals C i| else 0) ^ 2 = sqs n C := fun C =>
    Finset.sum_congr rfl fun i _ => by split_ifs <;> simp
  rw [e1, e1] at h
  refine le_trans (le_of_eq (Finset.sum_congr rfl fun i _ => ?_)) h
  split_ifs <;> simp [abs_mul]

/-- The arc cosine is Hölder continuous of exponent one half. -/
theorem arccos_holder {s t : ℝ} (hs : |s| ≤ 1) (ht : |t| ≤ 1) : |Real.arccos s - Real.arccos t| ≤ Real.pi * Real.sqrt (|s - t| / 2) := by
  have key : ∀ s t : ℝ, |s| ≤ 1 → |t| ≤ 1 → s ≤ t → Real.arccos s - Real.arccos t ≤ Real.pi * Real.sqrt (|s - t| / 2) := by
    intro s t hs ht hst
    have s1 := abs_le.1 hs; have t1 := abs_le.1 ht
    have hpi := Real.pi_pos
    set α := Real.arccos s with hα
    set β := Real.arccos t with hβ
    have a0 : 0 ≤ β := Real.arccos_nonneg t
    have a1 : α ≤ Real.pi := Real.arccos_le_pi s
    have hab : β ≤ α := Real.arccos_le_arccos hst
    have cs : Real.cos α = s := Real.cos_arccos s1.1 s1.2
    have ct : Real.cos β = t := Real.cos_arccos t1.1 t1.2
    set d := (α - β) / 2 with hd
    have d0 : 0 ≤ d := by rw [hd]; linarith
    have d1 : d ≤ Real.pi / 2 := by rw [hd]; linarith
    have e : t - s = 2 * Real.sin ((α + β) / 2) * Real.sin d := by
      have := Real.cos_sub_cos β α
      rw [← cs, ← ct, this, hd, show (β - α) / 2 = -((α - β) / 2) by ring, Real.sin_neg, show (β + α) / 2 = (α + β) / 2 by ring]; ring
    have hsd : 2 / Real.pi * d ≤ Real.sin d := Real.mul_le_sin d0 d1
    have hm : Real.sin d ≤ Real.sin ((α + β) / 2) := by
      rcases le_total ((α + β) / 2) (Real.pi / 2) with h | h
      · exact Real.sin_le_sin_of_le_of_le_pi_div_two (by linarith) h (by rw [hd]; linarith)
      · rw [← Real.sin_pi_sub ((α + β) / 2)]
        exact Real.sin_le_sin_of_le_of_le_pi_div_two (by linarith) (by linarith) (by rw [hd]; linarith)
    have h0 : 0 ≤ 2 / Real.pi * d := by positivity
    have h2 : (2 / Real.pi * d) ^ 2 ≤ |s - t| / 2 := by
      rw [abs_sub_comm, abs_of_nonneg (by linarith), e]
      nlinarith [mul_le_mul hsd (hsd.trans hm) h0 (h0.trans hsd)]
    have h3 := Real.le_sqrt_of_sq_le h2
    have e2 : α - β = Real.pi * (2 / Real.pi * d) := by rw [hd]; field_simp
    rw [e2]; exact mul_le_mul_of_nonneg_left h3 hpi.le
  rcases le_total s t with h | h
  · rw [abs_of_nonneg (by have := Real.arccos_le_arccos h; linarith)]; exact key s t hs ht h
  · rw [abs_of_nonpos (by have := Real.arccos_le_arccos h; linarith), abs_sub_comm s t]
    have := key t s ht hs h; linarith

/-- Clamping to [-1, 1]. -/
theorem clampOne_lane (A : V4 (F32 P)) (i : Fin 4) : (XMVectorClamp A g_XMNegativeOne g_XMOne).lane i =
    Lane.minps (Lane.ofBits 0x3F800000#32) (Lane.maxps (Lane.ofBits 0xBF800000#32) (A.lane i)) := by fin_cases i <;> rfl
theorem clamp_f {A : V4 (F32 P)} {i : Fin 4} (h : Fin' (A.lane i)) :
    Fin' ((XMVectorClamp A g_XMNegativeOne g_XMOne).lane i) ∧ val ((XMVectorClamp A g_XMNegativeOne g_XMOne).lane i) = min (max (val (A.lane i)) (-1)) 1 := by
  rw [clampOne_lane]
  obtain ⟨h1, h2⟩ := max_val (fin_negOne (P := P)) h
  obtain ⟨h3, h4⟩ := min_val (fin_one (P := P)) h1
  rw [h2, val_one, val_negOne, min_comm, max_comm] at h4
  exact ⟨h3, h4⟩
theorem clamp_abs (x : ℝ) : |min (max x (-1)) 1| ≤ 1 := by
  rw [abs_le]; exact ⟨le_min (le_max_right _ _) (by norm_num), min_le_right _ _⟩
theorem clamp_dist (x y : ℝ) : |min (max x (-1)) 1 - min (max y (-1)) 1| ≤ |x - y| := by
  refine (abs_min_sub_min_le_max _ _ _ _).trans ?_
  rw [sub_self, abs_zero, max_eq_left (abs_nonneg _)]
  refine (abs_max_sub_max_le_max _ _ _ _).trans ?_
  rw [sub_self, abs_zero, max_eq_left (abs_nonneg _)]
theorem clamp_id {y : ℝ} (h : |y| ≤ 1) : min (max y (-1)) 1 = y := by
  have := abs_le.1 h
  rw [max_eq_left this.1, min_eq_left this.2]

/-- The returned angle: the arc cosine, up to `e`, of a cosine within `δ` of `x` in [-1, 1]. -/
def AngleOf (r : BitVec 32) (x δ e : ℝ) : Prop := ∃ t, |t| ≤ 1 ∧ |t - x| ≤ δ ∧ FClose r (Real.arccos t) e

theorem acos_angle {c : Cfg} (hc : c.sse = true) {A : V4 (F32 P)} {i : Fin 4} (h : Fin' (A.lane i)) {x δ : ℝ} (hx : |val (A.lane i) - x| ≤ δ) :
    AngleOf ((XMVectorACos c (XMVectorClamp A g_XMNegativeOne g_XMOne)).lane i).bits (min (max x (-1)) 1) δ (11/10^7) ∧
    AngleOf ((XMVectorACosEst c (XMVectorClamp A g_XMNegativeOne g_XMOne)).lane i).bits (min (max x (-1)) 1) δ (1045/10^7) := by
  obtain ⟨h1, h2⟩ := clamp_f h
  have hb : |val ((XMVectorClamp A g_XMNegativeOne g_XMOne).lane i)| ≤ 1 := by rw [h2]; exact clamp_abs _
  have k := C111_vector c hc _ i h1 hb
  refine ⟨⟨_, hb, ?_, k.1⟩, ⟨_, hb, ?_, k.2.2.1⟩⟩ <;> rw [h2] <;> exact (clamp_dist _ _).trans hx

/-- The cosine as the code computes it from a dot product and two reciprocal lengths. -/
theorem cos_f {D L1 L2 : F32 P} {n : ℕ} {d m s1 s2 : ℝ} (hn : n ≤ 4) (hs1 : 1/2^50 ≤ s1) (hs1' : s1 ≤ 2^50) (hs2 : 1/2^50 ≤ s2) (hs2' : s2 ≤ 2^50)
    (hd : |d| ≤ m) (hm : m ≤ s1 * s2) (hD : Spec.Near D.bits d (m + n * tiny) n) (h1 : RelNear L1.bits (1 / s1) (2 * n + 6)) (h2 : RelNear L2.bits (1 / s2) (2 * n + 6)) :
    Fin' (Lane.mul D (Lane.mul L1 L2)) ∧ |val (Lane.mul D (Lane.mul L1 L2)) - d / (s1 * s2)| ≤ 21/10^7 := by
  have hn' : (n:ℝ) ≤ 4 := by exact_mod_cast hn
  have hn0 : (0:ℝ) ≤ n := by positivity
  have p1 : 0 < s1 := lt_of_lt_of_le (by positivity) hs1
  have p2 : 0 < s2 := lt_of_lt_of_le (by positivity) hs2
  have hm0 : 0 ≤ m := (abs_nonneg _).trans hd
  have q1 : s1 * s2 ≤ 2^100 := by nlinarith
  have q2 : 1/2^100 ≤ s1 * s2 := by
    have := mul_le_mul hs1 hs2 (by positivity) p1.le
    refine le_trans (by norm_num) this
  have q0 : 0 < s1 * s2 := mul_pos p1 p2
  have t0 := tiny_pos
  have apL : ∀ {L : F32 P} {s : ℝ}, 0 < s → 1/2^50 ≤ s → RelNear L.bits (1 / s) (2 * n + 6) → Ap L (1 / s) (1 / s) 14 := by
    intro L s hs hs5 h
    have e : |1 / s| = 1 / s := abs_of_pos (by positivity)
    have : Ap L (1 / s) (1 / s) (2 * n + 6) := fun hk => ⟨e.le, hk, fun _ => by have := h; rw [RelNear, e] at this; exact this⟩
    exact this.le rfl le_rfl (by omega)
  have aL1 := apL p1 hs1 h1
  have aL2 := apL p2 hs2 h2
  have b1 : 1 / s1 ≤ 2^127 := by rw [div_le_iff₀ p1]; nlinarith
  have b2 : 1 / s2 ≤ 2^127 := by rw [div_le_iff₀ p2]; nlinarith
  have aL := aL1.mul aL2 b1 b2
  have aD : Ap D d (m + n * tiny) 4 := by
    have : Ap D d (m + n * tiny) n := fun hk => ⟨hd.trans (by nlinarith), hk, hD⟩
    exact this.le rfl le_rfl hn
  have e12 : 1 / s1 * (1 / s2) = 1 / (s1 * s2) := by field_simp
  rw [e12] at aL
  have tt : tiny ≤ 1/2^26 * (1 / (s1 * s2)) := by
    rw [← one_div_mul_one_div]
    have : 1 / 2^100 ≤ 1 / (s1 * s2) := one_div_le_one_div_of_le q0 q1
    have e : (1:ℝ)/2^26 * (1 / 2^100) = tiny := by unfold tiny; norm_num
    rw [one_div_mul_one_div, ← e]
    exact mul_le_mul_of_nonneg_left this (by positivity)
  have tn : n * tiny ≤ 1/2^24 * (s1 * s2) := by
    have e : (4:ℝ) * tiny = 1/2^24 * (1 / 2^100) := by unfold tiny; norm_num
    calc n * tiny ≤ 4 * tiny := mul_le_mul_of_nonneg_right hn' t0.le
      _ = 1/2^24 * (1 / 2^100) := e
      _ ≤ _ := mul_le_mul_of_nonneg_left q2 (by positivity)
  have i0 : 0 < 1 / (s1 * s2) := by positivity
  have M1 : 1 / (s1 * s2) + tiny ≤ (1 + 1/2^26) * (1 / (s1 * s2)) := by linarith
  have M2 : m + n * tiny ≤ (1 + 1/2^24) * (s1 * s2) := by linarith
  have M1' : 1 / (s1 * s2) + tiny ≤ 2^127 := by
    have : 1 / (s1 * s2) ≤ 1 / (1/2^100) := one_div_le_one_div_of_le (by positivity) q2
    refine M1.trans ((mul_le_mul_of_nonneg_left this (by positivity)).trans (by norm_num))
  have M2' : m + n * tiny ≤ 2^127 := M2.trans ((mul_le_mul_of_nonneg_left q1 (by positivity)).trans (by norm_num))
  have aR := aD.mul aL M2' M1'
  have M3 : (m + n * tiny) * (1 / (s1 * s2) + tiny) + tiny ≤ 1 + 1/2^20 := by
    have h := mul_le_mul M2 M1 (by positivity) (by positivity)
    have e : (1 + 1/2^24) * (s1 * s2) * ((1 + 1/2^26) * (1 / (s1 * s2))) = (1 + 1/2^24) * (1 + 1/2^26) := by field_simp
    rw [e] at h
    have : tiny ≤ 1/2^26 := by unfold tiny; norm_num
    norm_num at h this ⊢; linarith
  obtain ⟨r1, r2⟩ := (aR (by norm_num)).2.2 (M3.trans (by norm_num))
  refine ⟨r1, ?_⟩
  have e3 : d * (1 / (s1 * s2)) = d / (s1 * s2) := by ring
  rw [e3] at r2
  refine r2.trans ((mul_le_mul_of_nonneg_left M3 (gam_nonneg (by norm_num))).trans ?_)
  unfold gam ulp2; norm_num

theorem AngMid.mid {S : ℝ} (h : AngMid S) : Mid S := ⟨h.1, h.2.trans (by norm_num)⟩
theorem AngMid.sqrt_le {S : ℝ} (h : AngMid S) : Real.sqrt S ≤ 2^50 := by
  rw [Real.sqrt_le_left (by norm_num)]; exact h.2.trans (by norm_num)
theorem dots2 (A B : V4 (F32 P)) : dots 2 A B = vals A 0 * vals B 0 + vals A 1 * vals B 1 := by simp [dots, Fin.sum_univ_four]
theorem dots3 (A B : V4 (F32 P)) : dots 3 A B = vals A 0 * vals B 0 + vals A 1 * vals B 1 + vals A 2 * vals B 2 := by simp [dots, Fin.sum_univ_four]
theorem dots4 (A B : V4 (F32 P)) : dots 4 A B = vals A 0 * vals B 0 + vals A 1 * vals B 1 + vals A 2 * vals B 2 + vals A 3 * vals B 3 := by simp [dots, Fin.sum_univ_four]
theorem absDots2 (A B : V4 (F32 P)) : absDots 2 A B = |vals A 0 * vals B 0| + |vals A 1 * vals B 1| := by simp [absDots, Fin.sum_univ_four]
theorem absDots3 (A B : V4 (F32 P)) : absDots 3 A B = |vals A 0 * vals B 0| + |vals A 1 * vals B 1| + |vals A 2 * vals B 2| := by simp [absDots, Fin.sum_univ_four]
theorem absDots4 (A B : V4 (F32 P)) : absDots 4 A B = |vals A 0 * vals B 0| + |vals A 1 * vals B 1| + |vals A 2 * vals B 2| + |vals A 3 * vals B 3| := by simp [absDots, Fin.sum_univ_four]
theorem vmul_lane (A B : V4 (F32 P)) (i : Fin 4) : (XMVectorMultiply A B).lane i = Lane.mul (A.lane i) (B.lane i) := by fin_cases i <;> rfl

/-- The exact angle between the first `n` components. -/
noncomputable def angleN (n : ℕ) (A B : V4 (F32 P)) : ℝ := Real.arccos (dots n A B / (Real.sqrt (sqs n A) * Real.sqrt (sqs n B)))

/-- From a perturbed cosine to the angle. -/
theorem AngleOf.angle {r : BitVec 32} {x e : ℝ} (hx : |x| ≤ 1) (h : AngleOf r x (21/10^7) e) (he : e ≤ 2/10^6) : FClose r (Real.arccos x) (33/10^4) := by
  obtain ⟨t, t1, t2, h1, h2⟩ := h
  refine ⟨h1, ?_⟩
  have h3 := arccos_holder t1 hx
  have h4 : Real.sqrt (|t - x| / 2) ≤ 1025/10^6 := by
    rw [Real.sqrt_le_left (by norm_num)]; norm_num at t2 ⊢; linarith
  have hpi := Real.pi_lt_d2
  have h5 : Real.pi * Real.sqrt (|t - x| / 2) ≤ 3.15 * (1025/10^6) := mul_le_mul hpi.le h4 (Real.sqrt_nonneg _) (by norm_num)
  have e1 : value r - Real.arccos x = (value r - Real.arccos t) + (Real.arccos t - Real.arccos x) := by ring
  rw [e1]
  refine (abs_add_le _ _).trans ?_
  have h6 := h3.trans h5
  norm_num at h6 he ⊢; linarith

theorem cos_le_one {n : ℕ} {A B : V4 (F32 P)} (hA : AngMid (sqs n A)) (hB : AngMid (sqs n B)) :
    |dots n A B / (Real.sqrt (sqs n A) * Real.sqrt (sqs n B))| ≤ 1 := by
  have p1 := Real.sqrt_pos.2 hA.mid.pos; have p2 := Real.sqrt_pos.2 hB.mid.pos
  rw [abs_div, abs_of_pos (mul_pos p1 p2), div_le_one (mul_pos p1 p2)]
  exact (dots_le n A B).trans (absDots_le n A B)

theorem vectors_f {n : ℕ} (hn : n ≤ 4) {c : Cfg} (hc : c.sse = true) {A B D L1 L2 : V4 (F32 P)} {i : Fin 4} (hA : AngMid (sqs n A)) (hB : AngMid (sqs n B))
    (hD : Spec.Near (D.lane i).bits (dots n A B) (absDots n A B + n * tiny) n) (h1 : RelNear (L1.lane i).bits (1 / Real.sqrt (sqs n A)) (2 * n + 6))
    (h2 : RelNear (L2.lane i).bits (1 / Real.sqrt (sqs n B)) (2 * n + 6)) :
    let r := ((XMVectorACos c (XMVectorClamp (XMVectorMultiply D (XMVectorMultiply L1 L2)) g_XMNegativeOne g_XMOne)).lane i).bits
    AngleOf r (dots n A B / (Real.sqrt (sqs n A) * Real.sqrt (sqs n B))) (21/10^7) (11/10^7) ∧ FClose r (angleN n A B) (33/10^4) := by
  have k := cos_f hn hA.mid.le_sqrt hA.sqrt_le hB.mid.le_sqrt hB.sqrt_le (dots_le n A B) (absDots_le n A B) hD h1 h2
  rw [← vmul_lane, ← vmul_lane] at k
  have g := (acos_angle hc k.1 k.2).1
  rw [clamp_id (cos_le_one hA hB)] at g
  exact ⟨g, g.angle (cos_le_one hA hB) (by norm_num)⟩

/-- C115: the angle between two vectors, of two, three and four components. -/
theorem C115_vectors2 (c : Cfg) (hc : c.sse = true) (A B : V4 (F32 P)) (fA : Fins 2 A) (fB : Fins 2 B) (hA : AngMid (sqs 2 A)) (hB : AngMid (sqs 2 B)) (i : Fin 4) :
    let r := ((XMVector2AngleBetweenVectors c A B).lane i).bits
    AngleOf r (dots 2 A B / (Real.sqrt (sqs 2 A) * Real.sqrt (sqs 2 B))) (21/10^7) (11/10^7) ∧ FClose r (angleN 2 A B) (33/10^4) := by
  have hD := C93_dot2 c A B fA fB i
  rw [← dots2, ← absDots2] at hD
  exact vectors_f (by norm_num) hc hA hB hD (C95_reciprocalLength2 c A fA hA.mid i) (C95_reciprocalLength2 c B fB hB.mid i)
theorem C115_vectors3 (c : Cfg) (hc : c.sse = true) (A B : V4 (F32 P)) (fA : Fins 3 A) (fB : Fins 3 B) (hA : AngMid (sqs 3 A)) (hB : AngMid (sqs 3 B)) (i : Fin 4) :
    let r := ((XMVector3AngleBetweenVectors c A B).lane i).bits
    AngleOf r (dots 3 A B / (Real.sqrt (sqs 3 A) * Real.sqrt (sqs 3 B))) (21/10^7) (11/10^7) ∧ FClose r (angleN 3 A B) (33/10^4) := by
  have hD := C93_dot3 c A B fA fB i
  rw [← dots3, ← absDots3] at hD
  exact vectors_f (by norm_num) hc hA hB hD (C95_reciprocalLength3 c A fA hA.mid i) (C95_reciprocalLength3 c B fB hB.mid i)
theorem C115_vectors4 (c : Cfg) (hc : c.sse = true) (A B : V4 (F32 P)) (fA : Fins 4 A) (fB : Fins 4 B) (hA : AngMid (sqs 4 A)) (hB : AngMid (sqs 4 B)) (i : Fin 4) :
    let r := ((XMVector4AngleBetweenVectors c A B).lane i).bits
    AngleOf r (dots 4 A B / (Real.sqrt (sqs 4 A) * Real.sqrt (sqs 4 B))) (21/10^7) (11/10^7) ∧ FClose r (angleN 4 A B) (33/10^4) := by
  have hD := C93_dot4 c A B fA fB i
  rw [← dots4, ← absDots4] at hD
  exact vectors_f (by norm_num) hc hA hB hD (C95_reciprocalLength4 c A fA hA.mid i) (C95_reciprocalLength4 c B fB hB.mid i)
-- unit vectors and the vector (1, 2, 3, 4) are in range
example : Fins 4 (exV : V4 (F32 P)) ∧ AngMid (sqs 4 (exV : V4 (F32 P))) := by
  obtain ⟨e0, e1, e2, e3⟩ := exV_vals (P := P)
  refine ⟨exV_fin 4, ?_⟩
  have : sqs 4 (exV : V4 (F32 P)) = 65/4 := by
    unfold sqs; rw [Fin.sum_univ_four, e0, e1, e2, e3]; norm_num
  rw [this]; constructor <;> norm_num

/-- C115: the angle between two normals, whatever the vectors: that of the exact dot product up to the rounding of the dot product, clamped
to [-1, 1]. -/
theorem C115_normals (c : Cfg) (hc : c.sse = true) (A B : V4 (F32 P)) (i : Fin 4) :
    (Fins 2 A → Fins 2 B → absDots 2 A B + 2 * tiny ≤ 2^127 →
      AngleOf ((XMVector2AngleBetweenNormals c A B).lane i).bits (min (max (dots 2 A B) (-1)) 1) (gam 2 * (absDots 2 A B + 2 * tiny)) (11/10^7) ∧
      AngleOf ((XMVector2AngleBetweenNormalsEst c A B).lane i).bits (min (max (dots 2 A B) (-1)) 1) (gam 2 * (absDots 2 A B + 2 * tiny)) (1045/10^7)) ∧
    (Fins 3 A → Fins 3 B → absDots 3 A B + 3 * tiny ≤ 2^127 →
      AngleOf ((XMVector3AngleBetweenNormals c A B).lane i).bits (min (max (dots 3 A B) (-1)) 1) (gam 3 * (absDots 3 A B + 3 * tiny)) (11/10^7) ∧
      AngleOf ((XMVector3AngleBetweenNormalsEst c A B).lane i).bits (min (max (dots 3 A B) (-1)) 1) (gam 3 * (absDots 3 A B + 3 * tiny)) (1045/10^7)) ∧
    (Fins 4 A → Fins 4 B → absDots 4 A B + 4 * tiny ≤ 2^127 →
      AngleOf ((XMVector4AngleBetweenNormals c A B).lane i).bits (min (max (dots 4 A B) (-1)) 1) (gam 4 * (absDots 4 A B + 4 * tiny)) (11/10^7) ∧
      AngleOf ((XMVector4AngleBetweenNormalsEst c A B).lane i).bits (min (max (dots 4 A B) (-1)) 1) (gam 4 * (absDots 4 A B + 4 * tiny)) (1045/10^7)) := by
  refine ⟨fun fA fB hM => ?_, fun fA fB hM => ?_, fun fA fB hM => ?_⟩
  · have hD := C93_dot2 c A B fA fB i
    rw [← dots2, ← absDots2] at hD
    exact acos_angle hc (hD hM).1 (hD hM).2
  · have hD := C93_dot3 c A B fA fB i
    rw [← dots3, ← absDots3] at hD
    exact acos_angle hc (hD hM).1 (hD hM).2
  · have hD := C93_dot4 c A B fA fB i
    rw [← dots4, ← absDots4] at hD
    exact acos_angle hc (hD hM).1 (hD hM).2

end DXM.Props
