import Verif.Props.FloatEnds
import Verif.Props.FloatLen
import Verif.Props.FloatAgree

/-
C130: vectors along a coordinate axis on binary32 lanes: lengths are exact, and which builds normalize them exactly.
-/

set_option linter.all false

namespace DXM.Props
open DXM.FEx DXM.Spec DXM.FErr DXM.IEEE
variable {P : Env}

namespace Axis
/-- The shape of a normal number. -/
theorem normal_shape {y : BitVec 32} (hy : IsFinite y) (h : tiny ≤ |value y|) :
    ∃ m k : ℕ, 2^23 ≤ m ∧ m < 2^24 ∧ mag y = m * 2^k ∧ |value y| = m * 2^k * 2^(-149:ℤ) := by
  have h1 : 2^23 ≤ am y := by
    by_contra g
    have e : mag y = am y := by unfold mag magN; rw [if_pos (by omega)]
    rw [value_abs, e] at h
    have : (am y : ℝ) < 2^23 := by exact_mod_cast (not_le.1 g)
    have h2 : (am y : ℝ) * 2^(-149:ℤ) < 2^23 * 2^(-149:ℤ) := mul_lt_mul_of_pos_right this (by positivity)
    have h3 : (2:ℝ)^23 * 2^(-149:ℤ) = tiny := by unfold tiny; norm_num
    linarith
  refine ⟨2^23 + am y % 2^23, am y / 2^23 - 1, by omega, by omega, ?_, ?_⟩
  · unfold mag magN; rw [if_neg (by omega)]
  · rw [value_abs]; unfold mag magN; rw [if_neg (by omega)]; push_cast; ring
/-- Distinct non-negative floats near a normal number that is not a power of two are a unit of its last place apart. -/
theorem spacing {x y : BitVec 32} {m k : ℕ} (h1 : 2^23 < m) (h2 : m < 2^24) (hx : mag x = m * 2^k) (hne : mag y ≠ mag x) : (2:ℝ)^k ≤ |(mag y : ℝ) - mag x| := by
  rcases Nat.lt_or_ge (mag y) (2^(23+k)) with g | g
  · have : mag y + 2^k ≤ mag x := by
      rw [hx]
      have : (2^23 + 1) * 2^k ≤ m * 2^k := Nat.mul_le_mul_right _ h1
      rw [add_mul, one_mul, ← pow_add] at this; omega
    have h : ((mag y + 2^k : ℕ) : ℝ) ≤ mag x := Nat.cast_le.2 this
    push_cast at h
    rw [abs_sub_comm]; exact le_trans (by linarith) (le_abs_self _)
  · obtain ⟨z, hz, -⟩ := magN_grid (am y) k g
    have e : mag y = z * 2^k := hz
    rw [e, hx] at hne ⊢
    have : z ≠ m := fun h => hne (by rw [h])
    have h3 : (1:ℝ) ≤ |(z:ℝ) - m| := by
      rcases lt_or_gt_of_ne this with h | h
      · have : ((z + 1 : ℕ) : ℝ) ≤ m := Nat.cast_le.2 h
        push_cast at this; rw [abs_sub_comm]; exact le_trans (by linarith) (le_abs_self _)
      · have : ((m + 1 : ℕ) : ℝ) ≤ z := Nat.cast_le.2 h
        push_cast at this; exact le_trans (by linarith) (le_abs_self _)
    push_cast
    rw [← sub_mul, abs_mul, abs_of_pos (by positivity : (0:ℝ) < 2^k)]
    nlinarith [pow_pos (two_pos : (0:ℝ) < 2) k]
theorem overflow_big : (2:ℝ)^120 < overflow := by unfold overflow; norm_num
/-- The square root of a rounded square is the number itself. -/
theorem sqrt_sq {a q : F32 P} {v : ℝ} (ha : Ex a v) (h1 : 1 / 2^60 ≤ |v|) (h2 : |v| ≤ 2^60) (hq : Ro q (v * v)) : Ex q (val q) ∧ 0 < val q ∧ Ex (Lane.sqrt q) |v| := by
  obtain ⟨y, hy, hyv⟩ : IsF |v| := by
    rcases abs_choice v with e | e <;> rw [e]
    · exact ha.isF
    · exact isF_neg ha.isF
  set X := |v| with hX
  have X0 : 0 < X := lt_of_lt_of_le (by norm_num) h1
  have vv : v * v = X * X := (abs_mul_abs_self v).symm
  rw [vv] at hq
  have lo : 1 / 2^120 ≤ X * X := by
    have := mul_le_mul h1 h1 (by norm_num) X0.le
    norm_num at this ⊢; linarith
  have hi : X * X ≤ 2^120 := by
    have := mul_le_mul h2 h2 X0.le (by norm_num)
    norm_num at this ⊢; linarith
  have aXX : |X * X| = X * X := abs_of_pos (by positivity)
  obtain ⟨qf, qe⟩ := rounds_err'' hq (by rw [aXX]; exact lt_of_le_of_lt hi overflow_big) (by rw [aXX]; exact le_trans (by unfold tiny; norm_num) lo)
  rw [aXX] at qe
  have qe' := abs_le.1 qe
  have u : ulp2 = 1 / 2^24 := rfl
  have XX : 0 < X * X := by positivity
  have qp : (1 - ulp2) * (X * X) ≤ val q := by have : value q.bits = val q := rfl; linarith [qe'.1]
  have qu : val q ≤ (1 + ulp2) * (X * X) := by have : value q.bits = val q := rfl; linarith [qe'.2]
  have q0 : 0 < val q := lt_of_lt_of_le (by rw [u]; nlinarith) qp
  refine ⟨ex_leaf qf, q0, ?_⟩
  have rs : Rounds (Real.sqrt (val q)) (Lane.sqrt q).bits := sqrt_rounds P qf q0.le
  obtain ⟨m, k, m1, m2, hm, hv⟩ := normal_shape hy (by rw [hyv, abs_of_pos X0]; exact le_trans (by unfold tiny; norm_num) h1)
  rw [hyv, abs_of_pos X0] at hv
  rcases eq_or_lt_of_le m1 with e | e
  · -- a power of two: the square is a float
    have U : (2:ℝ)^(-149:ℤ) = 1 / 2^149 := by norm_num
    have hv' : X = 2^(23 + k) / 2^149 := by rw [hv, ← e, U, pow_add]; push_cast; ring
    have k1 : 66 ≤ k := by
      by_contra g
      have : (2:ℝ)^(23+k) ≤ 2^88 := pow_le_pow_right₀ (by norm_num) (by omega)
      have : X ≤ 2^88 / 2^149 := by rw [hv']; gcongr
      norm_num at this h1; linarith
    have k2 : k ≤ 186 := by
      by_contra g
      have : (2:ℝ)^210 ≤ 2^(23+k) := pow_le_pow_right₀ (by norm_num) (by omega)
      have : 2^210 / 2^149 ≤ X := by rw [hv']; gcongr
      norm_num at this h2; linarith
    have isf : IsF (X * X) := by
      obtain ⟨r, hr, er⟩ := rep_of (2^(2 * k - 103)) (2 * k - 126) (by omega) (pow_dvd_pow _ (by omega)) (by rw [Int.natAbs_pow]; exact Nat.pow_le_pow_right (by norm_num) (by omega))
      refine ⟨r, hr, ?_⟩
      obtain ⟨j, rfl⟩ : ∃ j, k = j + 66 := ⟨k - 66, by omega⟩
      rw [er, hv', U, show 2 * (j + 66) - 103 = 2 * j + 29 by omega]
      rw [Int.cast_pow, Int.cast_ofNat, show (2:ℝ)^(23 + (j + 66)) = 2^j * 2^89 by rw [← pow_add]; congr 1; omega, show (2:ℝ)^(2*j+29) = 2^j * 2^j * 2^29 by rw [← pow_add, ← pow_add]; congr 1; omega]
      field_simp
    have eq := ro_ex hq isf
    rw [show val q = X * X from eq.2, Real.sqrt_mul_self X0.le] at rs
    exact ro_ex rs ⟨y, hy, hyv⟩
  -- otherwise another float would be a whole unit away
  set s := Real.sqrt (val q) with hs
  have s0 : 0 < s := Real.sqrt_pos.2 q0
  have ss : s * s = val q := Real.mul_self_sqrt q0.le
  have sl : (1 - ulp2) * X ≤ s := by
    apply Real.le_sqrt_of_sq_le
    have : ((1 - ulp2) * X)^2 = (1 - ulp2) * ((1 - ulp2) * (X * X)) := by ring
    rw [this]
    refine le_trans ?_ qp
    rw [u]; nlinarith
  have sb : s < overflow := by
    have : s ≤ 2^61 := by
      apply Real.sqrt_le_iff.2 ⟨by norm_num, ?_⟩
      refine qu.trans ?_
      rw [u]; norm_num at hi ⊢; linarith
    exact lt_of_le_of_lt this (lt_of_le_of_lt (by norm_num) overflow_big)
  have sb' : |s| < overflow := by rwa [abs_of_pos s0]
  have rf : Fin' (Lane.sqrt q) := rs.finite sb'
  have rn := rs.nearest sb' y hy
  have r0 : 0 ≤ val (Lane.sqrt q) := by
    have := (rounds_nonNeg rs s0.le).2
    rw [evalue_finite rf] at this; exact_mod_cast this
  refine ⟨rf, ?_⟩
  by_contra hne
  have vr : val (Lane.sqrt q) = mag (Lane.sqrt q).bits * 2^(-149:ℤ) := by rw [← value_abs]; exact (abs_of_nonneg r0).symm
  have vx : X = mag y * 2^(-149:ℤ) := by rw [← value_abs, hyv, abs_of_pos X0]
  have sp := spacing e m2 hm (y := (Lane.sqrt q).bits) (fun h => hne (by rw [vr, h, ← vx]))
  have gap : (2:ℝ)^k * 2^(-149:ℤ) ≤ |val (Lane.sqrt q) - X| := by
    rw [vr, vx, ← sub_mul, abs_mul, abs_of_pos (by positivity : (0:ℝ) < 2^(-149:ℤ))]
    exact mul_le_mul_of_nonneg_right sp (by positivity)
  have near : |val (Lane.sqrt q) - X| ≤ 2 * |X - s| := by
    have t : |val (Lane.sqrt q) - X| ≤ |val (Lane.sqrt q) - s| + |s - X| := abs_sub_le _ _ _
    rw [hyv] at rn
    have rn' : |val (Lane.sqrt q) - s| ≤ |X - s| := rn
    rw [abs_sub_comm s X] at t; linarith
  have d : |X - s| * (X + s) ≤ ulp2 * (X * X) := by
    rw [show |X - s| * (X + s) = |X * X - val q| by
      rw [← ss, show X * X - s * s = (X - s) * (X + s) by ring, abs_mul, abs_of_pos (by linarith : 0 < X + s)], abs_sub_comm]
    exact qe
  have D : 0 ≤ |X - s| := abs_nonneg _
  have W : (0:ℝ) < 2^k * 2^(-149:ℤ) := by positivity
  set w : ℝ := 2^k * 2^(-149:ℤ) with hw
  have hv2 : X = m * w := by rw [hv, hw, mul_assoc]
  have mm : (m:ℝ) ≤ 2^24 - 1 := by
    have : ((m + 1 : ℕ) : ℝ) ≤ (2^24 : ℕ) := Nat.cast_le.2 m2
    push_cast at this; linarith
  have c1 : w / 2 ≤ |X - s| := by linarith
  have c2 : w / 2 * ((2 - ulp2) * X) ≤ ulp2 * (X * X) := by
    refine le_trans ?_ d
    exact mul_le_mul c1 (by linarith) (by rw [u]; nlinarith) D
  have c3 : w / 2 * (2 - ulp2) ≤ ulp2 * X := by
    by_contra g
    have := mul_lt_mul_of_pos_right (not_le.1 g) X0
    linarith
  rw [hv2, u] at c3
  nlinarith
theorem ex_add0 {a b : F32 P} (ha : Ex a 0) (hb : Ex b 0) : Ex (Lane.add a b) 0 := (ex_add ha hb (by rw [add_zero]; exact isF_zero)).eq (by norm_num)
theorem ex_sq0 {a : F32 P} (ha : Ex a 0) : Ex (Lane.mul a a) 0 := (ex_mul ha ha (by rw [mul_zero]; exact isF_zero)).eq (by norm_num)
/-- A sum of zeros. -/
macro "exz" : tactic => `(tactic| (repeat' with_reducible first | assumption | exact ex_zero | apply ex_add0) <;> done)
/-- A sum of zeros and one rounded number. -/
macro "rsum" : tactic => `(tactic| (repeat with_reducible first | assumption | (apply Ro.add0; rotate_left; (focus exz)) | (apply Ro.zero_add; rotate_left; (focus exz))))
macro "lanesq" : tactic => `(tactic| (
  simp only [XMVector2Length, XMVector3Length, XMVector4Length, XMVectorSqrt, XMVector2LengthSq, XMVector3LengthSq, XMVector4LengthSq, XMVector2Dot, XMVector3Dot, XMVector4Dot, lengthSq4]
  split_ifs <;>
  simp only [sum3ss, sum3ss', sum3h, sum4ss, sum4h, SSE.dp3f, SSE.dp7f, SSE.dpff, SSE.hadd, SSE.moveldup, SSE.add_ss, SSE.sqrt, SSE.sqrt_ss, SSE.mul, SSE.add, SSE.perm, SSE.shuffle, SSE.and, g_XMMask3,
    V4.map, V4.map2, V4.splat, V4.lane, LawfulLane.band_ones_right, LawfulLane.band_zero_right, Lane.c0]))
macro "lane2" : tactic => `(tactic| (
  simp only [sum3ss, sum3ss', sum3h, sum4ss, sum4h, SSE.dp3f, SSE.dp7f, SSE.dpff, SSE.hadd, SSE.moveldup, SSE.add_ss, SSE.sqrt, SSE.sqrt_ss, SSE.mul, SSE.add, SSE.perm, SSE.shuffle, SSE.and, g_XMMask3,
    V4.map, V4.map2, V4.splat, V4.lane, LawfulLane.band_ones_right, LawfulLane.band_zero_right, Lane.c0]))
variable {V : V4 (F32 P)} {v : ℝ}
theorem length2 (c : Cfg) (h1 : 1 / 2^60 ≤ |v|) (h2 : |v| ≤ 2^60) (h : (Ex V.x v ∧ Ex V.y 0) ∨ (Ex V.x 0 ∧ Ex V.y v)) (j : Fin 4) :
    Ex ((XMVector2Length c V).lane j) |v| := by
  rcases h with ⟨a1, a2⟩ | ⟨a1, a2⟩
  · have q := ro_mul a1 a1; have z2 := ex_sq0 a2
    lanesq
    all_goals (fin_cases j <;> (refine (sqrt_sq a1 h1 h2 ?_).2.2; rsum))
  · have q := ro_mul a2 a2; have z1 := ex_sq0 a1
    lanesq
    all_goals (fin_cases j <;> (refine (sqrt_sq a2 h1 h2 ?_).2.2; rsum))
theorem length3 (c : Cfg) (h1 : 1 / 2^60 ≤ |v|) (h2 : |v| ≤ 2^60) (h : (Ex V.x v ∧ Ex V.y 0 ∧ Ex V.z 0) ∨ (Ex V.x 0 ∧ Ex V.y v ∧ Ex V.z 0) ∨ (Ex V.x 0 ∧ Ex V.y 0 ∧ Ex V.z v)) (j : Fin 4) :
    Ex ((XMVector3Length c V).lane j) |v| := by
  rcases h with ⟨a1, a2, a3⟩ | ⟨a1, a2, a3⟩ | ⟨a1, a2, a3⟩
  · have q := ro_mul a1 a1; have z2 := ex_sq0 a2; have z3 := ex_sq0 a3
    lanesq
    all_goals (fin_cases j <;> (refine (sqrt_sq a1 h1 h2 ?_).2.2; rsum))
  · have q := ro_mul a2 a2; have z1 := ex_sq0 a1; have z3 := ex_sq0 a3
    lanesq
    all_goals (fin_cases j <;> (refine (sqrt_sq a2 h1 h2 ?_).2.2; rsum))
  · have q := ro_mul a3 a3; have z1 := ex_sq0 a1; have z2 := ex_sq0 a2
    lanesq
    all_goals (fin_cases j <;> (refine (sqrt_sq a3 h1 h2 ?_).2.2; rsum))
theorem length4 (c : Cfg) (h1 : 1 / 2^60 ≤ |v|) (h2 : |v| ≤ 2^60) (h : (Ex V.x v ∧ Ex V.y 0 ∧ Ex V.z 0 ∧ Ex V.w 0) ∨ (Ex V.x 0 ∧ Ex V.y v ∧ Ex V.z 0 ∧ Ex V.w 0) ∨ (Ex V.x 0 ∧ Ex V.y 0 ∧ Ex V.z v ∧ Ex V.w 0) ∨ (Ex V.x 0 ∧ Ex V.y 0 ∧ Ex V.z 0 ∧ Ex V.w v)) (j : Fin 4) :
    Ex ((XMVector4Length c V).lane j) |v| := by
  rcases h with ⟨a1, a2, a3, a4⟩ | ⟨a1, a2, a3, a4⟩ | ⟨a1, a2, a3, a4⟩ | ⟨a1, a2, a3, a4⟩
  · have q := ro_mul a1 a1; have z2 := ex_sq0 a2; have z3 := ex_sq0 a3; have z4 := ex_sq0 a4
    lanesq
    all_goals (fin_cases j <;> (refine (sqrt_sq a1 h1 h2 ?_).2.2; rsum))
  · have q := ro_mul a2 a2; have z1 := ex_sq0 a1; have z3 := ex_sq0 a3; have z4 := ex_sq0 a4
    lanesq
    all_goals (fin_cases j <;> (refine (sqrt_sq a2 h1 h2 ?_).2.2; rsum))
  · have q := ro_mul a3 a3; have z1 := ex_sq0 a1; have z2 := ex_sq0 a2; have z4 := ex_sq0 a4
    lanesq
    all_goals (fin_cases j <;> (refine (sqrt_sq a3 h1 h2 ?_).2.2; rsum))
  · have q := ro_mul a4 a4; have z1 := ex_sq0 a1; have z2 := ex_sq0 a2; have z3 := ex_sq0 a3
    lanesq
    all_goals (fin_cases j <;> (refine (sqrt_sq a4 h1 h2 ?_).2.2; rsum))
/-- A lane of the normalized vector is the exact quotient. -/
theorem tail_ex {L a : F32 P} {W : V4 (F32 P)} (ha : Ex a v) (h1 : 1 / 2^60 ≤ |v|) (h2 : |v| ≤ 2^60) (j : Fin 4) (hL : Ro (W.lane j) (v * v)) :
    (Ex (V.lane j) v → Ex ((normalizeTail V W).lane j) (v / |v|)) ∧ (Ex (V.lane j) 0 → Ex ((normalizeTail V W).lane j) 0) := by
  obtain ⟨e1, e2, e3⟩ := sqrt_sq ha h1 h2 hL
  have v0 : 0 < |v| := lt_of_lt_of_le (by norm_num) h1
  rw [tail_lane V W j e1.1 e3.1 (by rw [e3.2]; exact v0)]
  refine ⟨fun h => ex_div h e3 v0.ne' ?_, fun h => (ex_div h e3 v0.ne' ?_).eq (by simp)⟩
  · rcases abs_choice v with e | e <;> rw [e]
    · rw [div_self (by rintro rfl; simp at v0)]; exact isF_one
    · rw [div_neg, div_self (by rintro rfl; simp at v0)]; exact isF_neg isF_one
  · rw [zero_div]; exact isF_zero
theorem normalize2 (c : Cfg) (hs : c.sse = true) (h1 : 1 / 2^60 ≤ |v|) (h2 : |v| ≤ 2^60) (h : (Ex V.x v ∧ Ex V.y 0) ∨ (Ex V.x 0 ∧ Ex V.y v)) (j : Fin 4) :
    (Ex (V.lane j) v → Ex ((XMVector2Normalize c V).lane j) (v / |v|)) ∧ (Ex (V.lane j) 0 → Ex ((XMVector2Normalize c V).lane j) 0) := by
  simp only [XMVector2Normalize, if_pos hs, lengthSq4]
  rcases h with ⟨a1, a2⟩ | ⟨a1, a2⟩
  · have q := ro_mul a1 a1; have z2 := ex_sq0 a2
    split_ifs <;> (refine tail_ex (L := Lane.c0) a1 h1 h2 j ?_; lane2; fin_cases j <;> rsum)
  · have q := ro_mul a2 a2; have z1 := ex_sq0 a1
    split_ifs <;> (refine tail_ex (L := Lane.c0) a2 h1 h2 j ?_; lane2; fin_cases j <;> rsum)
theorem normalize3 (c : Cfg) (hs : c.sse = true) (h1 : 1 / 2^60 ≤ |v|) (h2 : |v| ≤ 2^60) (h : (Ex V.x v ∧ Ex V.y 0 ∧ Ex V.z 0) ∨ (Ex V.x 0 ∧ Ex V.y v ∧ Ex V.z 0) ∨ (Ex V.x 0 ∧ Ex V.y 0 ∧ Ex V.z v)) (j : Fin 4) :
    (Ex (V.lane j) v → Ex ((XMVector3Normalize c V).lane j) (v / |v|)) ∧ (Ex (V.lane j) 0 → Ex ((XMVector3Normalize c V).lane j) 0) := by
  simp only [XMVector3Normalize, if_pos hs, lengthSq4]
  rcases h with ⟨a1, a2, a3⟩ | ⟨a1, a2, a3⟩ | ⟨a1, a2, a3⟩
  · have q := ro_mul a1 a1; have z2 := ex_sq0 a2; have z3 := ex_sq0 a3
    split_ifs <;> (refine tail_ex (L := Lane.c0) a1 h1 h2 j ?_; lane2; fin_cases j <;> rsum)
  · have q := ro_mul a2 a2; have z1 := ex_sq0 a1; have z3 := ex_sq0 a3
    split_ifs <;> (refine tail_ex (L := Lane.c0) a2 h1 h2 j ?_; lane2; fin_cases j <;> rsum)
  · have q := ro_mul a3 a3; have z1 := ex_sq0 a1; have z2 := ex_sq0 a2
    split_ifs <;> (refine tail_ex (L := Lane.c0) a3 h1 h2 j ?_; lane2; fin_cases j <;> rsum)
theorem normalize4 (c : Cfg) (hs : c.sse = true) (h1 : 1 / 2^60 ≤ |v|) (h2 : |v| ≤ 2^60) (h : (Ex V.x v ∧ Ex V.y 0 ∧ Ex V.z 0 ∧ Ex V.w 0) ∨ (Ex V.x 0 ∧ Ex V.y v ∧ Ex V.z 0 ∧ Ex V.w 0) ∨ (Ex V.x 0 ∧ Ex V.y 0 ∧ Ex V.z v ∧ Ex V.w 0) ∨ (Ex V.x 0 ∧ Ex V.y 0 ∧ Ex V.z 0 ∧ Ex V.w v)) (j : Fin 4) :
    (Ex (V.lane j) v → Ex ((XMVector4Normalize c V).lane j) (v / |v|)) ∧ (Ex (V.lane j) 0 → Ex ((XMVector4Normalize c V).lane j) 0) := by
  simp only [XMVector4Normalize, if_pos hs, lengthSq4]
  rcases h with ⟨a1, a2, a3, a4⟩ | ⟨a1, a2, a3, a4⟩ | ⟨a1, a2, a3, a4⟩ | ⟨a1, a2, a3, a4⟩
  · have q := ro_mul a1 a1; have z2 := ex_sq0 a2; have z3 := ex_sq0 a3; have z4 := ex_sq0 a4
    split_ifs <;> (refine tail_ex (L := Lane.c0) a1 h1 h2 j ?_; lane2; fin_cases j <;> rsum)
  · have q := ro_mul a2 a2; have z1 := ex_sq0 a1; have z3 := ex_sq0 a3; have z4 := ex_sq0 a4
    split_ifs <;> (refine tail_ex (L := Lane.c0) a2 h1 h2 j ?_; lane2; fin_cases j <;> rsum)
  · have q := ro_mul a3 a3; have z1 := ex_sq0 a1; have z2 := ex_sq0 a2; have z4 := ex_sq0 a4
    split_ifs <;> (refine tail_ex (L := Lane.c0) a3 h1 h2 j ?_; lane2; fin_cases j <;> rsum)
  · have q := ro_mul a4 a4; have z1 := ex_sq0 a1; have z2 := ex_sq0 a2; have z3 := ex_sq0 a3
    split_ifs <;> (refine tail_ex (L := Lane.c0) a4 h1 h2 j ?_; lane2; fin_cases j <;> rsum)
/-- A lane of a vector normalized without intrinsics. -/
theorem noi_lane {W L : V4 (F32 P)} (i : Fin 4) {l : F32 P} (hL : L.x = l) (h : Lane.gt l (Lane.ofBits 0#32 : F32 P) = true) :
    (normalizeNOI W L).lane i = Lane.mul (W.lane i) (Lane.div (Lane.ofBits 0x3F800000#32) l) := by
  unfold normalizeNOI
  rw [hL]
  have : (if Lane.gt l (Lane.ofBits 0#32 : F32 P) then Lane.div (Lane.ofBits 0x3F800000#32) l else l) = Lane.div (Lane.ofBits 0x3F800000#32) l := by
    rw [if_pos h]
  fin_cases i <;> exact congrArg (Lane.mul _) this
end Axis
open Axis

/-- The first `n` lanes are finite, only lane `i` of them is not zero, and its magnitude is between 2^-60 and 2^60. -/
def OnAxis (n : ℕ) (V : V4 (F32 P)) (i : Fin 4) : Prop :=
  i.1 < n ∧ Fins n V ∧ (∀ j : Fin 4, j.1 < n → j ≠ i → vals V j = 0) ∧ 1 / 2^60 ≤ |vals V i| ∧ |vals V i| ≤ 2^60

theorem Axis.split2 {V : V4 (F32 P)} {i : Fin 4} (h : OnAxis 2 V i) : (Ex V.x (vals V i) ∧ Ex V.y 0) ∨ (Ex V.x 0 ∧ Ex V.y (vals V i)) := by
  obtain ⟨h0, h1, h2, -⟩ := h
  have f0 := h1 0 (by decide); have z0 := h2 0 (by decide)
  have f1 := h1 1 (by decide); have z1 := h2 1 (by decide)
  fin_cases i
  · exact Or.inl ⟨⟨f0, rfl⟩, ⟨f1, z1 (by decide)⟩⟩
  · exact Or.inr (⟨⟨f0, z0 (by decide)⟩, ⟨f1, rfl⟩⟩)
  · exact absurd h0 (by decide)
  · exact absurd h0 (by decide)
theorem Axis.split3 {V : V4 (F32 P)} {i : Fin 4} (h : OnAxis 3 V i) : (Ex V.x (vals V i) ∧ Ex V.y 0 ∧ Ex V.z 0) ∨ (Ex V.x 0 ∧ Ex V.y (vals V i) ∧ Ex V.z 0) ∨ (Ex V.x 0 ∧ Ex V.y 0 ∧ Ex V.z (vals V i)) := by
  obtain ⟨h0, h1, h2, -⟩ := h
  have f0 := h1 0 (by decide); have z0 := h2 0 (by decide)
  have f1 := h1 1 (by decide); have z1 := h2 1 (by decide)
  have f2 := h1 2 (by decide); have z2 := h2 2 (by decide)
  fin_cases i
  · exact Or.inl ⟨⟨f0, rfl⟩, ⟨f1, z1 (by decide)⟩, ⟨f2, z2 (by decide)⟩⟩
  · exact Or.inr (Or.inl ⟨⟨f0, z0 (by decide)⟩, ⟨f1, rfl⟩, ⟨f2, z2 (by decide)⟩⟩)
  · exact Or.inr (Or.inr (⟨⟨f0, z0 (by decide)⟩, ⟨f1, z1 (by decide)⟩, ⟨f2, rfl⟩⟩))
  · exact absurd h0 (by decide)
theorem Axis.split4 {V : V4 (F32 P)} {i : Fin 4} (h : OnAxis 4 V i) : (Ex V.x (vals V i) ∧ Ex V.y 0 ∧ Ex V.z 0 ∧ Ex V.w 0) ∨ (Ex V.x 0 ∧ Ex V.y (vals V i) ∧ Ex V.z 0 ∧ Ex V.w 0) ∨ (Ex V.x 0 ∧ Ex V.y 0 ∧ Ex V.z (vals V i) ∧ Ex V.w 0) ∨ (Ex V.x 0 ∧ Ex V.y 0 ∧ Ex V.z 0 ∧ Ex V.w (vals V i)) := by
  obtain ⟨h0, h1, h2, -⟩ := h
  have f0 := h1 0 (by decide); have z0 := h2 0 (by decide)
  have f1 := h1 1 (by decide); have z1 := h2 1 (by decide)
  have f2 := h1 2 (by decide); have z2 := h2 2 (by decide)
  have f3 := h1 3 (by decide); have z3 := h2 3 (by decide)
  fin_cases i
  · exact Or.inl ⟨⟨f0, rfl⟩, ⟨f1, z1 (by decide)⟩, ⟨f2, z2 (by decide)⟩, ⟨f3, z3 (by decide)⟩⟩
  · exact Or.inr (Or.inl ⟨⟨f0, z0 (by decide)⟩, ⟨f1, rfl⟩, ⟨f2, z2 (by decide)⟩, ⟨f3, z3 (by decide)⟩⟩)
  · exact Or.inr (Or.inr (Or.inl ⟨⟨f0, z0 (by decide)⟩, ⟨f1, z1 (by decide)⟩, ⟨f2, rfl⟩, ⟨f3, z3 (by decide)⟩⟩))
  · exact Or.inr (Or.inr (Or.inr (⟨⟨f0, z0 (by decide)⟩, ⟨f1, z1 (by decide)⟩, ⟨f2, z2 (by decide)⟩, ⟨f3, rfl⟩⟩)))
/-- The length of a two-dimensional vector along a coordinate axis is exactly the magnitude of its coordinate, in every lane and every build. -/
theorem C130_length2 (c : Cfg) {V : V4 (F32 P)} {i : Fin 4} (h : OnAxis 2 V i) (j : Fin 4) :
    IsFinite ((XMVector2Length c V).lane j).bits ∧ vals (XMVector2Length c V) j = |vals V i| :=
  Axis.length2 c h.2.2.2.1 h.2.2.2.2 (split2 h) j
/-- Builds with intrinsics normalize it to exactly the unit vector of that axis. -/
theorem C130_normalize2_partial (c : Cfg) (hs : c.sse = true) {V : V4 (F32 P)} {i : Fin 4} (h : OnAxis 2 V i) :
    Fins 2 (XMVector2Normalize c V) ∧ (0 < vals V i → vals (XMVector2Normalize c V) i = 1) ∧ (vals V i < 0 → vals (XMVector2Normalize c V) i = -1) ∧
      ∀ j : Fin 4, j.1 < 2 → j ≠ i → vals (XMVector2Normalize c V) j = 0 := by
  have g := Axis.normalize2 c hs h.2.2.2.1 h.2.2.2.2 (split2 h)
  have gi := (g i).1 ⟨h.2.1 i h.1, rfl⟩
  have gj : ∀ j : Fin 4, j.1 < 2 → j ≠ i → Ex ((XMVector2Normalize c V).lane j) 0 := fun j h1 h2 => (g j).2 ⟨h.2.1 j h1, h.2.2.1 j h1 h2⟩
  refine ⟨fun j hj => ?_, fun p => ?_, fun p => ?_, fun j h1 h2 => (gj j h1 h2).2⟩
  · by_cases e : j = i
    · subst e; exact gi.1
    · exact (gj j hj e).1
  · exact gi.2.trans (by rw [abs_of_pos p, div_self p.ne'])
  · exact gi.2.trans (by rw [abs_of_neg p, div_neg, div_self p.ne])
/-- The length of a three-dimensional vector along a coordinate axis is exactly the magnitude of its coordinate, in every lane and every build. -/
theorem C130_length3 (c : Cfg) {V : V4 (F32 P)} {i : Fin 4} (h : OnAxis 3 V i) (j : Fin 4) :
    IsFinite ((XMVector3Length c V).lane j).bits ∧ vals (XMVector3Length c V) j = |vals V i| :=
  Axis.length3 c h.2.2.2.1 h.2.2.2.2 (split3 h) j
/-- Builds with intrinsics normalize it to exactly the unit vector of that axis. -/
theorem C130_normalize3_partial (c : Cfg) (hs : c.sse = true) {V : V4 (F32 P)} {i : Fin 4} (h : OnAxis 3 V i) :
    Fins 3 (XMVector3Normalize c V) ∧ (0 < vals V i → vals (XMVector3Normalize c V) i = 1) ∧ (vals V i < 0 → vals (XMVector3Normalize c V) i = -1) ∧
      ∀ j : Fin 4, j.1 < 3 → j ≠ i → vals (XMVector3Normalize c V) j = 0 := by
  have g := Axis.normalize3 c hs h.2.2.2.1 h.2.2.2.2 (split3 h)
  have gi := (g i).1 ⟨h.2.1 i h.1, rfl⟩
  have gj : ∀ j : Fin 4, j.1 < 3 → j ≠ i → Ex ((XMVector3Normalize c V).lane j) 0 := fun j h1 h2 => (g j).2 ⟨h.2.1 j h1, h.2.2.1 j h1 h2⟩
  refine ⟨fun j hj => ?_, fun p => ?_, fun p => ?_, fun j h1 h2 => (gj j h1 h2).2⟩
  · by_cases e : j = i
    · subst e; exact gi.1
    · exact (gj j hj e).1
  · exact gi.2.trans (by rw [abs_of_pos p, div_self p.ne'])
  · exact gi.2.trans (by rw [abs_of_neg p, div_neg, div_self p.ne])
/-- The length of a four-dimensional vector along a coordinate axis is exactly the magnitude of its coordinate, in every lane and every build. -/
theorem C130_length4 (c : Cfg) {V : V4 (F32 P)} {i : Fin 4} (h : OnAxis 4 V i) (j : Fin 4) :
    IsFinite ((XMVector4Length c V).lane j).bits ∧ vals (XMVector4Length c V) j = |vals V i| :=
  Axis.length4 c h.2.2.2.1 h.2.2.2.2 (split4 h) j
/-- Builds with intrinsics normalize it to exactly the unit vector of that axis. -/
theorem C130_normalize4_partial (c : Cfg) (hs : c.sse = true) {V : V4 (F32 P)} {i : Fin 4} (h : OnAxis 4 V i) :
    Fins 4 (XMVector4Normalize c V) ∧ (0 < vals V i → vals (XMVector4Normalize c V) i = 1) ∧ (vals V i < 0 → vals (XMVector4Normalize c V) i = -1) ∧
      ∀ j : Fin 4, j.1 < 4 → j ≠ i → vals (XMVector4Normalize c V) j = 0 := by
  have g := Axis.normalize4 c hs h.2.2.2.1 h.2.2.2.2 (split4 h)
  have gi := (g i).1 ⟨h.2.1 i h.1, rfl⟩
  have gj : ∀ j : Fin 4, j.1 < 4 → j ≠ i → Ex ((XMVector4Normalize c V).lane j) 0 := fun j h1 h2 => (g j).2 ⟨h.2.1 j h1, h.2.2.1 j h1 h2⟩
  refine ⟨fun j hj => ?_, fun p => ?_, fun p => ?_, fun j h1 h2 => (gj j h1 h2).2⟩
  · by_cases e : j = i
    · subst e; exact gi.1
    · exact (gj j hj e).1
  · exact gi.2.trans (by rw [abs_of_pos p, div_self p.ne'])
  · exact gi.2.trans (by rw [abs_of_neg p, div_neg, div_self p.ne])

/-- The vector (41, 0, 0, 0). -/
def ax41 : V4 (F32 P) := ⟨Lane.ofBits 0x42240000#32, Lane.ofBits 0#32, Lane.ofBits 0#32, Lane.ofBits 0#32⟩
theorem Axis.ex41 : Ex (Lane.ofBits 0x42240000#32 : F32 P) 41 := Ends.ex_lit (41 * 2^149) 41 (by decide) (by decide +kernel) (by
    rw [Int.cast_mul, Int.cast_pow, Int.cast_ofNat, Int.cast_ofNat, mul_assoc, ← zpow_natCast, ← zpow_add₀ (by norm_num)]; norm_num)
/-- It is along the first axis. -/
theorem Axis.on41 (n : ℕ) (hn : 0 < n) : OnAxis n (ax41 : V4 (F32 P)) 0 := by
  refine ⟨hn, fun j _ => ?_, fun j _ hj => ?_, ?_, ?_⟩
  · fin_cases j
    · exact ex41.1
    all_goals exact ex_zero.1
  · fin_cases j
    · exact absurd rfl hj
    all_goals exact ex_zero.2
  · rw [show vals (ax41 : V4 (F32 P)) 0 = 41 from ex41.2]; norm_num
  · rw [show vals (ax41 : V4 (F32 P)) 0 = 41 from ex41.2]; norm_num
theorem Axis.bits41 {a : F32 P} (h : Ex a 41) : a = Lane.ofBits 0x42240000#32 := by
  rcases value_inj (h.2.trans ex41.2.symm) with e | e
  · exact e
  · exact absurd (h.2.symm.trans e.1) (by norm_num)
theorem Axis.noi41 {L : V4 (F32 P)} (h : Ex L.x 41) : ((normalizeNOI ax41 L).lane 0).bits = 0x3F7FFFFF#32 := by
  have g : Lane.gt (Lane.ofBits 0x42240000#32 : F32 P) (Lane.ofBits 0#32) = true := by
    have := (ne_zero_pos (x := (Lane.ofBits 0x42240000#32 : F32 P)) ex41.1 (by rw [ex41.2]; norm_num)).2; exact this
  rw [noi_lane 0 (bits41 h) g, ev_div _ _ 0x3CC7CE0C#32 (by decide +kernel) (by decide +kernel)]
  exact congrArg F32.bits (ev_mul 0x42240000#32 0x3CC7CE0C#32 0x3F7FFFFF#32 (by decide +kernel) (by decide +kernel))
/-- Builds without intrinsics multiply by the rounded reciprocal of the length: (41, 0, 0, 0) does not become a unit vector. -/
theorem C130_normalize_noi (c : Cfg) (hs : c.sse = false) :
    ((XMVector2Normalize c (ax41 : V4 (F32 P))).x).bits = 0x3F7FFFFF#32 ∧ ((XMVector3Normalize c (ax41 : V4 (F32 P))).x).bits = 0x3F7FFFFF#32 ∧
      ((XMVector4Normalize c (ax41 : V4 (F32 P))).x).bits = 0x3F7FFFFF#32 ∧ value 0x3F7FFFFF#32 < 1 := by
  have e : |vals (ax41 : V4 (F32 P)) 0| = 41 := by rw [show vals (ax41 : V4 (F32 P)) 0 = 41 from ex41.2]; norm_num
  refine ⟨?_, ?_, ?_, ?_⟩
  · have h := C130_length2 c (on41 (P := P) 2 (by norm_num)) 0
    rw [XMVector2Normalize, if_neg (by rw [hs]; decide)]; exact noi41 ⟨h.1, h.2.trans e⟩
  · have h := C130_length3 c (on41 (P := P) 3 (by norm_num)) 0
    rw [XMVector3Normalize, if_neg (by rw [hs]; decide)]; exact noi41 ⟨h.1, h.2.trans e⟩
  · have h := C130_length4 c (on41 (P := P) 4 (by norm_num)) 0
    rw [XMVector4Normalize, if_neg (by rw [hs]; decide)]; exact noi41 ⟨h.1, h.2.trans e⟩
  · rw [value_eq]; rw [show ival 0x3F7FFFFF#32 = 16777215 * 2^125 by decide +kernel, Int.cast_mul, Int.cast_pow, mul_assoc, ← zpow_natCast]
    push_cast; rw [← zpow_add₀ (by norm_num)]; norm_num

example : OnAxis 2 (ax41 : V4 (F32 P)) 0 ∧ OnAxis 3 (ax41 : V4 (F32 P)) 0 ∧ OnAxis 4 (ax41 : V4 (F32 P)) 0 := ⟨on41 2 (by norm_num), on41 3 (by norm_num), on41 4 (by norm_num)⟩
end DXM.Props
