import Verif.Lemmas.F32Val
import Verif.Spec.Rounding
import Mathlib.Tactic.Linarith
import Mathlib.Tactic.Positivity
import Mathlib.Tactic.FieldSimp
import Mathlib.Tactic.NormNum

/-
Forward error analysis of binary32 expressions: `Ap x v M k` says that the computed lane `x` is finite and differs from the exact value `v`
by at most `gam k * M`, unless the magnitude bound `M` is so large that an overflow is possible.
-/

set_option linter.all false

namespace DXM.FErr
open DXM.Spec DXM.IEEE

theorem u_pos : (0:ℝ) < ulp2 := by unfold ulp2; positivity
theorem tiny_pos : (0:ℝ) < tiny := by unfold tiny; positivity
theorem u_tiny : ulp2 * tiny = (1/2) * (2:ℝ)^(-149:ℤ) := by unfold ulp2 tiny; norm_num

/-- Every real number in range has a finite neighbour within half a unit in the last place. -/
theorem near_exists (x : ℝ) (h : |x| < overflow) :
    ∃ y, IsFinite y ∧ |value y - x| ≤ ulp2 * (|x| + tiny) ∧ (∀ n : ℤ, x = n * (2:ℝ)^(-149:ℤ) → |value y - x| ≤ ulp2 * |x|) ∧
      (tiny ≤ |x| → |value y - x| ≤ ulp2 * |x|) := by
  have hu := u149
  set w : ℝ := (2:ℝ)^(-149:ℤ) with hw
  have hut := u_tiny
  rw [← hw] at hut
  have hoe := overflow_eq
  rw [← hw] at hoe
  have hvm := value_mk
  rw [← hw] at hvm
  clear_value w
  obtain ⟨t, ht⟩ : ∃ t, t = |x| / w := ⟨_, rfl⟩
  have hx : |x| = t * w := by rw [ht]; field_simp
  have ht0 : 0 ≤ t := by rw [ht]; positivity
  have htl : t < 33554431 * 2^252 := by
    rw [hx, hoe] at h; exact lt_of_mul_lt_mul_right h hu.le
  set N := ⌊t⌋₊ with hN
  have hN1 : (N:ℝ) ≤ t := Nat.floor_le ht0
  have hN2 : t < N + 1 := Nat.lt_floor_add_one t
  set k := Nat.log2 N - 23 with hk
  have hup : N < 2^(24+k) := lt_of_lt_of_le (Nat.lt_log2_self) (Nat.pow_le_pow_right (by norm_num) (by omega))
  have htup : t < 2^(24+k) := by
    have : (N:ℝ) + 1 ≤ 2^(24+k) := by exact_mod_cast hup
    linarith
  have hlo : k ≠ 0 → (2:ℝ)^(23+k) ≤ t := by
    intro h0
    have hne : N ≠ 0 := by intro h; rw [h] at hk; simp at hk; omega
    have h1 := Nat.log2_self_le hne
    have h2 : 23 + k = Nat.log2 N := by omega
    rw [← h2] at h1
    exact le_trans (by exact_mod_cast h1) hN1
  have hp : (0:ℝ) < 2^k := by positivity
  set r := ⌊t / 2^k + 1/2⌋₊ with hr
  have hr1 : (r:ℝ) ≤ t / 2^k + 1/2 := Nat.floor_le (by positivity)
  have hr2 : t / 2^k + 1/2 < r + 1 := Nat.lt_floor_add_one _
  have e1 : |(r:ℝ) * 2^k - t| ≤ 2^k / 2 := by
    have e : t = t / 2^k * 2^k := by field_simp
    rw [abs_le]; constructor <;> nlinarith
  have hr24 : r ≤ 2^24 := by
    have : t / 2^k < 2^24 := by rw [div_lt_iff₀ hp, ← pow_add]; exact htup
    have : (r:ℝ) < 2^24 + 1 := by linarith
    have : r < 2^24 + 1 := by exact_mod_cast this
    omega
  have hr23 : k = 0 ∨ 2^23 ≤ r := by
    by_cases h0 : k = 0
    · exact Or.inl h0
    · right
      have : (2:ℝ)^23 ≤ t / 2^k := by rw [le_div_iff₀ hp, ← pow_add]; exact hlo h0
      have : (2:ℝ)^23 < r + 1 := by linarith
      have : 2^23 < r + 1 := by exact_mod_cast this
      omega
  have hk253 : k ≤ 253 := by
    by_contra hc
    have h1 := hlo (by omega)
    have h2 : (2:ℝ)^(23 + 254) ≤ 2^(23+k) := pow_le_pow_right₀ (by norm_num) (by omega)
    have h3 : (33554431:ℝ) * 2^252 ≤ 2^(23+254) := by
      rw [show 23 + 254 = 25 + 252 by norm_num, pow_add]; exact mul_le_mul_of_nonneg_right (by norm_num) (by positivity)
    linarith
  have hlt : k * 2^23 + r < 0x7F800000 := by
    by_cases h253 : k = 253
    · have : t / 2^k < 33554431 / 2 := by
        rw [div_lt_iff₀ hp, h253]; refine lt_of_lt_of_le htl (by norm_num)
      have : (r:ℝ) < 2^24 := by
        have : (33554431:ℝ)/2 + 1/2 = 2^24 := by norm_num
        linarith
      have : r < 2^24 := by exact_mod_cast this
      omega
    · have : k ≤ 252 := by omega
      have : k * 2^23 ≤ 252 * 2^23 := Nat.mul_le_mul_right _ this
      omega
  set m := k * 2^23 + r with hm
  have hmag : magN m = r * 2^k := magN_kq k r hr24 hr23
  refine ⟨mk (decide (x < 0)) m, ?_, ?_⟩
  · rw [finite_iff, am_mk _ _ (by omega)]; exact hlt
  have hval : |value (mk (decide (x < 0)) m) - x| = |(r:ℝ) * 2^k - t| * w := by
    rw [hvm _ _ (by omega), hmag]
    push_cast
    by_cases hx0 : x < 0
    · have : x = - (t * w) := by rw [← hx, abs_of_neg hx0]; ring
      rw [if_pos (by simpa using hx0), this]
      rw [show -1 * ((r:ℝ) * 2^k * w) - -(t * w) = -(((r:ℝ) * 2^k - t) * w) by ring, abs_neg, abs_mul, abs_of_pos hu]
    · have : x = t * w := by rw [← hx, abs_of_nonneg (not_lt.1 hx0)]
      rw [if_neg (by simpa using hx0), this]
      rw [show 1 * ((r:ℝ) * 2^k * w) - t * w = ((r:ℝ) * 2^k - t) * w by ring, abs_mul, abs_of_pos hu]
  have hrel : k ≠ 0 → |(r:ℝ) * 2^k - t| * w ≤ ulp2 * (t * w) := by
    intro h0
    have h1 := hlo h0
    have : (2:ℝ)^k / 2 ≤ ulp2 * t := by
      unfold ulp2; rw [pow_add] at h1; norm_num at h1 ⊢; linarith
    nlinarith
  refine ⟨?_, ?_, ?_⟩
  · rw [hval, hx]
    by_cases h0 : k = 0
    · have : |(r:ℝ) * 2^k - t| ≤ 1/2 := by have := e1; rw [h0] at this ⊢; simpa using this
      have h2 := hut
      have h3 : 0 ≤ ulp2 * (t * w) := by have := u_pos; positivity
      have h4 := mul_le_mul_of_nonneg_right this hu.le
      rw [mul_add, h2]; linarith
    · have h1 := hrel h0
      have := mul_pos u_pos tiny_pos
      nlinarith
  · intro n hn
    rw [hval, hx]
    by_cases h0 : k = 0
    · have htn : t = (n.natAbs : ℝ) := by
        rw [ht, hn, abs_mul, abs_of_pos hu, Nat.cast_natAbs]; push_cast; field_simp
      have : r = n.natAbs := by
        rw [hr, htn, h0, pow_zero, div_one]
        rw [Nat.floor_eq_iff (by positivity)]; constructor <;> linarith
      rw [this, htn, h0]; have := u_pos; simp; positivity
    · exact hrel h0
  · intro ht1
    rw [hval, hx] at *
    by_cases h0 : k = 0
    · have h1 : |(r:ℝ) * 2^k - t| ≤ 1/2 := by have := e1; rw [h0] at this ⊢; simpa using this
      have h2 := hut
      have h4 := mul_le_mul_of_nonneg_right h1 hu.le
      have h5 := mul_le_mul_of_nonneg_left ht1 u_pos.le
      linarith
    · exact hrel h0

theorem rounds_err {x : ℝ} {r : BitVec 32} (h : Rounds x r) (hx : |x| < overflow) :
    IsFinite r ∧ |value r - x| ≤ ulp2 * (|x| + tiny) := by
  obtain ⟨y, hy, h1, -, -⟩ := near_exists x hx
  exact ⟨h.finite hx, (h.nearest hx y hy).trans h1⟩
theorem rounds_err' {x : ℝ} {r : BitVec 32} (h : Rounds x r) (hx : |x| < overflow) (n : ℤ) (hn : x = n * (2:ℝ)^(-149:ℤ)) :
    IsFinite r ∧ |value r - x| ≤ ulp2 * |x| := by
  obtain ⟨y, hy, -, h1, -⟩ := near_exists x hx
  exact ⟨h.finite hx, (h.nearest hx y hy).trans (h1 n hn)⟩

theorem rounds_err'' {x : ℝ} {r : BitVec 32} (h : Rounds x r) (hx : |x| < overflow) (ht : tiny ≤ |x|) :
    IsFinite r ∧ |value r - x| ≤ ulp2 * |x| := by
  obtain ⟨y, hy, -, -, h1⟩ := near_exists x hx
  exact ⟨h.finite hx, (h.nearest hx y hy).trans (h1 ht)⟩

/-! ### the constants -/

/-- `1 + gam k`. -/
noncomputable def gg (k : ℕ) : ℝ := 1 / (1 - k * ulp2)
theorem den_pos {k : ℕ} (hk : k ≤ 2^20) : (0:ℝ) < 1 - k * ulp2 := by
  have : (k:ℝ) ≤ 2^20 := by exact_mod_cast hk
  unfold ulp2; nlinarith
theorem gam_eq {k : ℕ} (hk : k ≤ 2^20) : gam k = gg k - 1 := by
  have := den_pos hk; unfold gam gg; field_simp; ring
theorem gam_nonneg {k : ℕ} (hk : k ≤ 2^20) : 0 ≤ gam k := by
  have := den_pos hk; have := u_pos; unfold gam; positivity
theorem gg_one_le {k : ℕ} (hk : k ≤ 2^20) : 1 ≤ gg k := by have := gam_nonneg hk; rw [gam_eq hk] at this; linarith
theorem gg_mono {j k : ℕ} (h : j ≤ k) (hk : k ≤ 2^20) : gg j ≤ gg k := by
  unfold gg
  have : (j:ℝ) ≤ k := by exact_mod_cast h
  have := u_pos
  exact one_div_le_one_div_of_le (den_pos hk) (by nlinarith)
theorem gam_mono {j k : ℕ} (h : j ≤ k) (hk : k ≤ 2^20) : gam j ≤ gam k := by
  rw [gam_eq hk, gam_eq (h.trans hk)]; linarith [gg_mono h hk]
theorem gg_mul {a b : ℕ} (h : a + b ≤ 2^20) : gg a * gg b ≤ gg (a + b) := by
  have ha := den_pos (k := a) (by omega); have hb := den_pos (k := b) (by omega); have hab := den_pos h
  unfold gg; rw [one_div_mul_one_div]
  apply one_div_le_one_div_of_le hab
  push_cast
  have := u_pos
  have : 0 ≤ (a:ℝ) * ulp2 * (b * ulp2) := by positivity
  nlinarith
theorem gg_succ {k : ℕ} (h : k + 1 ≤ 2^20) : gg k * (1 + ulp2) ≤ gg (k + 1) := by
  refine le_trans ?_ (gg_mul h)
  apply mul_le_mul_of_nonneg_left _ (by linarith [gg_one_le (k := k) (by omega)])
  have := den_pos (k := 1) (by norm_num); unfold gg
  rw [le_div_iff₀ this]; have := u_pos; push_cast; nlinarith
theorem gam_zero : gam 0 = 0 := by simp [gam]
theorem gam_succ {k : ℕ} (h : k + 1 ≤ 2^20) : gam k + ulp2 * (1 + gam k) ≤ gam (k + 1) := by
  have := gg_succ h
  rw [gam_eq h, gam_eq (by omega : k ≤ 2^20)]; nlinarith
theorem gam_le {k : ℕ} (hk : k ≤ 2^20) : gam k ≤ 1/8 := by
  refine (gam_mono hk le_rfl).trans ?_
  unfold gam ulp2; norm_num

/-! ### expressions -/

variable {P : Env}

/-- The value of a finite lane. -/
noncomputable abbrev val (x : F32 P) : ℝ := value x.bits
abbrev Fin' (x : F32 P) : Prop := IsFinite x.bits

/-- `x` approximates `v`, whose terms have total magnitude at most `M`, after at most `k` roundings in a row. -/
def ApO (x : F32 P) (v M : ℝ) (k : ℕ) : Prop :=
  |v| ≤ M ∧ k ≤ 2^20 ∧ (M ≤ 2^127 → Fin' x ∧ |val x - v| ≤ gam k * M)

theorem big_lt : (2:ℝ)^127 * (1 + 1/8) < overflow := by unfold overflow; norm_num

theorem leafO {x : F32 P} (h : Fin' x) : ApO x (val x) |val x| 0 := by
  refine ⟨le_rfl, by norm_num, fun _ => ⟨h, ?_⟩⟩
  rw [sub_self, abs_zero, gam_zero, zero_mul]

theorem ApO.nonneg {x : F32 P} {v M : ℝ} {k : ℕ} (h : ApO x v M k) : 0 ≤ M := (abs_nonneg v).trans h.1
theorem ApO.le {x : F32 P} {v v' M M' : ℝ} {k k' : ℕ} (h : ApO x v M k) (hv : v = v') (hM : M ≤ M') (hk : k ≤ k') (hk' : k' ≤ 2^20) : ApO x v' M' k' := by
  subst hv
  refine ⟨h.1.trans hM, hk', fun g => ?_⟩
  obtain ⟨h1, h2⟩ := h.2.2 (hM.trans g)
  refine ⟨h1, h2.trans (mul_le_mul (gam_mono hk hk') hM h.nonneg (gam_nonneg hk'))⟩
theorem ApO.val_le {x : F32 P} {v M : ℝ} {k : ℕ} (h : ApO x v M k) (hM : M ≤ 2^127) : |val x| ≤ M * (1 + gam k) := by
  have h2 := (h.2.2 hM).2
  have : |val x| ≤ |v| + |val x - v| := by
    have := abs_add_le v (val x - v); simpa using this
  nlinarith [h.1]

theorem int_val (a : F32 P) : ∃ n : ℤ, val a = n * (2:ℝ)^(-149:ℤ) := ⟨_, value_eq _⟩

/-- The common step: `y` is `x` rounded, `x` approximates `v`. -/
theorem step {y : F32 P} {x v M : ℝ} {k : ℕ} (hv : |v| ≤ M) (hk : k + 1 ≤ 2^20) (h : M ≤ 2^127 → |x - v| ≤ gam k * M)
    (hy : M ≤ 2^127 → |x| < overflow → Fin' y ∧ |val y - x| ≤ ulp2 * |x|) : ApO y v M (k + 1) := by
  refine ⟨hv, hk, fun hM => ?_⟩
  have h1 := h hM
  have hM0 : 0 ≤ M := (abs_nonneg v).trans hv
  have hx : |x| ≤ M * (1 + gam k) := by
    have : |x| ≤ |v| + |x - v| := by have := abs_add_le v (x - v); simpa using this
    nlinarith
  have hg := gam_le (k := k) (by omega)
  have hlt : |x| < overflow := by
    have : M * (1 + gam k) ≤ 2^127 * (1 + 1/8) := mul_le_mul hM (by linarith) (by linarith [gam_nonneg (k := k) (by omega)]) (by norm_num)
    linarith [big_lt]
  obtain ⟨h2, h3⟩ := hy hM hlt
  refine ⟨h2, ?_⟩
  have h4 := gam_succ hk
  have h5 : |val y - v| ≤ |val y - x| + |x - v| := abs_sub_le _ _ _
  have := u_pos
  nlinarith

theorem ApO.add {a b : F32 P} {v w M N : ℝ} {j k : ℕ} (ha : ApO a v M j) (hb : ApO b w N k) (hk : max j k + 1 ≤ 2^20 ) :
    ApO (Lane.add a b) (v + w) (M + N) (max j k + 1) := by
  have hM := ha.nonneg; have hN := hb.nonneg
  refine step (x := val a + val b) ((abs_add_le _ _).trans (add_le_add ha.1 hb.1)) hk (fun h => ?_) (fun h hx => ?_)
  · have h1 := ha.2.2 (by linarith); have h2 := hb.2.2 (by linarith)
    have e : val a + val b - (v + w) = (val a - v) + (val b - w) := by ring
    rw [e]
    refine (abs_add_le _ _).trans ?_
    have g1 := gam_mono (le_max_left j k) (by omega); have g2 := gam_mono (le_max_right j k) (by omega)
    nlinarith [h1.2, h2.2]
  · have h1 := ha.2.2 (by linarith); have h2 := hb.2.2 (by linarith)
    obtain ⟨m, hm⟩ := int_val a; obtain ⟨n, hn⟩ := int_val b
    exact rounds_err' (add_rounds P h1.1 h2.1) hx (m + n) (by push_cast; rw [add_mul, ← hm, ← hn])

theorem ApO.sub {a b : F32 P} {v w M N : ℝ} {j k : ℕ} (ha : ApO a v M j) (hb : ApO b w N k) (hk : max j k + 1 ≤ 2^20 ) :
    ApO (Lane.sub a b) (v - w) (M + N) (max j k + 1) := by
  have hM := ha.nonneg; have hN := hb.nonneg
  refine step (x := val a - val b) ((abs_sub _ _).trans (add_le_add ha.1 hb.1)) hk (fun h => ?_) (fun h hx => ?_)
  · have h1 := ha.2.2 (by linarith); have h2 := hb.2.2 (by linarith)
    have e : val a - val b - (v - w) = (val a - v) - (val b - w) := by ring
    rw [e]
    refine (abs_sub _ _).trans ?_
    have g1 := gam_mono (le_max_left j k) (by omega); have g2 := gam_mono (le_max_right j k) (by omega)
    nlinarith [h1.2, h2.2]
  · have h1 := ha.2.2 (by linarith); have h2 := hb.2.2 (by linarith)
    obtain ⟨m, hm⟩ := int_val a; obtain ⟨n, hn⟩ := int_val b
    exact rounds_err' (sub_rounds P h1.1 h2.1) hx (m - n) (by push_cast; rw [sub_mul, ← hm, ← hn])


/-- The common step with a possible underflow. -/
theorem step' {y : F32 P} {x v M : ℝ} {k : ℕ} (hv : |v| ≤ M) (hk : k + 1 ≤ 2^20) (h : M + tiny ≤ 2^127 → |x - v| ≤ gam k * M)
    (hy : M + tiny ≤ 2^127 → |x| < overflow → Fin' y ∧ |val y - x| ≤ ulp2 * (|x| + tiny)) : ApO y v (M + tiny) (k + 1) := by
  have ht := tiny_pos
  refine ⟨hv.trans (by linarith), hk, fun hM => ?_⟩
  have h1 := h hM
  have hM0 : 0 ≤ M := (abs_nonneg v).trans hv
  have hx : |x| ≤ M * (1 + gam k) := by
    have : |x| ≤ |v| + |x - v| := by have := abs_add_le v (x - v); simpa using this
    nlinarith
  have hg := gam_le (k := k) (by omega)
  have hg0 := gam_nonneg (k := k) (by omega)
  have hlt : |x| < overflow := by
    have : M * (1 + gam k) ≤ 2^127 * (1 + 1/8) := mul_le_mul (by linarith) (by linarith) (by linarith) (by norm_num)
    linarith [big_lt]
  obtain ⟨h2, h3⟩ := hy hM hlt
  refine ⟨h2, ?_⟩
  have h4 := gam_succ hk
  have h5 : |val y - v| ≤ |val y - x| + |x - v| := abs_sub_le _ _ _
  have hu := u_pos
  have h6 : ulp2 ≤ gam (k+1) := by nlinarith
  nlinarith [mul_le_mul_of_nonneg_right h6 ht.le, mul_le_mul_of_nonneg_right h4 hM0, mul_le_mul_of_nonneg_left hx hu.le]

theorem prod_err {a b v w M N : ℝ} {j k : ℕ} (hjk : j + k ≤ 2^20) (hv : |v| ≤ M) (hw : |w| ≤ N) (ha : |a - v| ≤ gam j * M) (hb : |b - w| ≤ gam k * N) :
    |a * b - v * w| ≤ gam (j + k) * (M * N) := by
  have hM := (abs_nonneg v).trans hv; have hN := (abs_nonneg w).trans hw
  have hb' : |b| ≤ (1 + gam k) * N := by
    have : |b| ≤ |w| + |b - w| := by have := abs_add_le w (b - w); simpa using this
    linarith
  have e : a * b - v * w = (a - v) * b + v * (b - w) := by ring
  rw [e]
  have h1 : |(a - v) * b| ≤ gam j * M * ((1 + gam k) * N) := by rw [abs_mul]; exact mul_le_mul ha hb' (abs_nonneg _) (mul_nonneg (gam_nonneg (by omega)) hM)
  have h2 : |v * (b - w)| ≤ M * (gam k * N) := by rw [abs_mul]; exact mul_le_mul hv hb (abs_nonneg _) hM
  have h3 := gg_mul hjk
  have h4 : gam j * M * ((1 + gam k) * N) + M * (gam k * N) = (gg j * gg k - 1) * (M * N) := by
    rw [gam_eq (by omega : j ≤ 2^20), gam_eq (by omega : k ≤ 2^20)]; ring
  refine (abs_add_le _ _).trans ((add_le_add h1 h2).trans ?_)
  rw [h4, gam_eq hjk]
  exact mul_le_mul_of_nonneg_right (by linarith) (mul_nonneg hM hN)

theorem ApO.mul {a b : F32 P} {v w M N : ℝ} {j k : ℕ} (ha : ApO a v M j) (hb : ApO b w N k) (hM : M ≤ 2^127) (hN : N ≤ 2^127)
    (hk : j + k + 1 ≤ 2^20 ) : ApO (Lane.mul a b) (v * w) (M * N + tiny) (j + k + 1) := by
  have h1 := ha.2.2 hM; have h2 := hb.2.2 hN
  refine step' (x := val a * val b) ?_ hk (fun _ => prod_err (by omega) ha.1 hb.1 h1.2 h2.2) (fun _ hx => rounds_err (mul_rounds P h1.1 h2.1) hx)
  rw [abs_mul]; exact mul_le_mul ha.1 hb.1 (abs_nonneg _) ha.nonneg
theorem mulLO {a b : F32 P} (ha : Fin' a) (hb : Fin' b) : ApO (Lane.mul a b) (val a * val b) (|val a * val b| + tiny) 1 := by
  refine step' (k := 0) (x := val a * val b) le_rfl (by norm_num) (fun _ => ?_) (fun _ hx => rounds_err (mul_rounds P ha hb) hx)
  rw [sub_self, abs_zero, gam_zero, zero_mul]

theorem ApO.fma {a b c : F32 P} {v w z M N K : ℝ} {j k l : ℕ} (ha : ApO a v M j) (hb : ApO b w N k) (hc : ApO c z K l) (hM : M ≤ 2^127) (hN : N ≤ 2^127)
    (hk : max (j + k) l + 1 ≤ 2^20 ) : ApO (Lane.fma a b c) (v * w + z) (M * N + K + tiny) (max (j + k) l + 1) := by
  have h1 := ha.2.2 hM; have h2 := hb.2.2 hN
  have hK := hc.nonneg; have hMN := mul_nonneg ha.nonneg hb.nonneg; have ht := tiny_pos
  refine step' (x := val a * val b + val c) ?_ hk (fun h => ?_) (fun h hx => ?_)
  · refine (abs_add_le _ _).trans (add_le_add ?_ hc.1)
    rw [abs_mul]; exact mul_le_mul ha.1 hb.1 (abs_nonneg _) ha.nonneg
  · have h3 := hc.2.2 (by linarith)
    have h4 := prod_err (by omega) ha.1 hb.1 h1.2 h2.2
    rw [show val a * val b + val c - (v * w + z) = (val a * val b - v * w) + (val c - z) by ring]
    refine (abs_add_le _ _).trans ?_
    have g1 := gam_mono (le_max_left (j + k) l) (by omega); have g2 := gam_mono (le_max_right (j + k) l) (by omega)
    nlinarith [h3.2]
  · exact rounds_err (fma_rounds P h1.1 h2.1 (hc.2.2 (by linarith)).1) hx
theorem fmaLO {a b c : F32 P} {z K : ℝ} {l : ℕ} (ha : Fin' a) (hb : Fin' b) (hc : ApO c z K l) (hk : l + 1 ≤ 2^20 ) :
    ApO (Lane.fma a b c) (val a * val b + z) (|val a * val b| + tiny + K) (l + 1) := by
  have hK := hc.nonneg; have ht := tiny_pos
  have := step' (y := Lane.fma a b c) (x := val a * val b + val c) (v := val a * val b + z) (M := |val a * val b| + K) (k := l) ?_ hk (fun h => ?_) (fun h hx => ?_)
  · exact this.le rfl (by linarith) le_rfl hk
  · exact (abs_add_le _ _).trans (add_le_add le_rfl hc.1)
  · have h3 := hc.2.2 (by linarith [abs_nonneg (val a * val b)])
    rw [show val a * val b + val c - (val a * val b + z) = (val c - z) by ring]
    have := gam_nonneg (k := l) (by omega)
    nlinarith [h3.2, abs_nonneg (val a * val b)]
  · exact rounds_err (fma_rounds P ha hb (hc.2.2 (by linarith [abs_nonneg (val a * val b)])).1) hx
theorem ApO.fnma {a b c : F32 P} {v w z M N K : ℝ} {j k l : ℕ} (ha : ApO a v M j) (hb : ApO b w N k) (hc : ApO c z K l) (hM : M ≤ 2^127) (hN : N ≤ 2^127)
    (hk : max (j + k) l + 1 ≤ 2^20 ) : ApO (Lane.fnma a b c) (z - v * w) (M * N + K + tiny) (max (j + k) l + 1) := by
  have h1 := ha.2.2 hM; have h2 := hb.2.2 hN
  have hK := hc.nonneg; have hMN := mul_nonneg ha.nonneg hb.nonneg; have ht := tiny_pos
  refine step' (x := val c - val a * val b) ?_ hk (fun h => ?_) (fun h hx => ?_)
  · rw [add_comm]
    refine (abs_sub _ _).trans (add_le_add hc.1 ?_)
    rw [abs_mul]; exact mul_le_mul ha.1 hb.1 (abs_nonneg _) ha.nonneg
  · have h3 := hc.2.2 (by linarith)
    have h4 := prod_err (by omega) ha.1 hb.1 h1.2 h2.2
    rw [show val c - val a * val b - (z - v * w) = (val c - z) - (val a * val b - v * w) by ring]
    refine (abs_sub _ _).trans ?_
    have g1 := gam_mono (le_max_left (j + k) l) (by omega); have g2 := gam_mono (le_max_right (j + k) l) (by omega)
    nlinarith [h3.2]
  · exact rounds_err (fnma_rounds P h1.1 h2.1 (hc.2.2 (by linarith)).1) hx
theorem fnmaLO {a b c : F32 P} {z K : ℝ} {l : ℕ} (ha : Fin' a) (hb : Fin' b) (hc : ApO c z K l) (hk : l + 1 ≤ 2^20 ) :
    ApO (Lane.fnma a b c) (z - val a * val b) (|val a * val b| + tiny + K) (l + 1) := by
  have hK := hc.nonneg; have ht := tiny_pos
  have := step' (y := Lane.fnma a b c) (x := val c - val a * val b) (v := z - val a * val b) (M := |val a * val b| + K) (k := l) ?_ hk (fun h => ?_) (fun h hx => ?_)
  · exact this.le rfl (by linarith) le_rfl hk
  · rw [add_comm]; exact (abs_sub _ _).trans (add_le_add hc.1 le_rfl)
  · have h3 := hc.2.2 (by linarith [abs_nonneg (val a * val b)])
    rw [show val c - val a * val b - (z - val a * val b) = (val c - z) by ring]
    have := gam_nonneg (k := l) (by omega)
    nlinarith [h3.2, abs_nonneg (val a * val b)]
  · exact rounds_err (fnma_rounds P ha hb (hc.2.2 (by linarith [abs_nonneg (val a * val b)])).1) hx

theorem ApO.neg {a : F32 P} {v M : ℝ} {k : ℕ} (h : ApO a v M k) : ApO (Lane.neg a) (-v) M k := by
  refine ⟨by rw [abs_neg]; exact h.1, h.2.1, fun g => ?_⟩
  obtain ⟨h1, h2⟩ := h.2.2 g
  refine ⟨finite_neg.2 h1, ?_⟩
  have : val (Lane.neg a) = - val a := neg_value _
  rw [this, show -val a - -v = -(val a - v) by ring, abs_neg]; exact h2

theorem zeroO : ApO (Lane.ofBits 0#32 : F32 P) 0 0 0 := by
  have h : Fin' (Lane.ofBits 0#32 : F32 P) := by show IsFinite 0#32; decide
  have e : val (Lane.ofBits 0#32 : F32 P) = 0 := by
    show value 0#32 = 0
    rw [value_eq]; simp [ival, mag, magN, am, sg]
  have := leafO h; rw [e, abs_zero] at this; exact this

theorem div_key {j k : ℕ} (h : j + 2 * k ≤ 2^20) : gam j + gam k ≤ gam (j + 2 * k) * (1 - gam k) := by
  have dj := den_pos (k := j) (by omega); have dk := den_pos (k := k) (by omega); have d2 := den_pos (k := 2*k) (by omega)
  have djk := den_pos (k := j + 2 * k) (by omega)
  have hu := u_pos
  have hj : 0 ≤ (j:ℝ) * ulp2 := by positivity
  have hkk : 0 ≤ (k:ℝ) * ulp2 := by positivity
  have ek : ((j + 2 * k : ℕ) : ℝ) * ulp2 = j * ulp2 + 2 * (k * ulp2) := by push_cast; ring
  unfold gam
  rw [ek] at djk ⊢
  generalize (j:ℝ) * ulp2 = J at *
  generalize (k:ℝ) * ulp2 = K at *
  rw [show 1 - K / (1 - K) = (1 - 2 * K) / (1 - K) by field_simp; ring]
  rw [div_add_div _ _ dj.ne' dk.ne', div_mul_div_comm, div_le_div_iff₀ (mul_pos dj dk) (mul_pos djk dk)]
  have h1 : (J * (1 - K) + (1 - J) * K) * (1 - (J + 2 * K)) ≤ (J + 2 * K) * (1 - 2 * K) * (1 - J) := by
    have t1 : 0 ≤ (K + 2 * (J * K)) * (1 - (J + 2 * K)) := by positivity
    have t2 : 0 ≤ 2 * (J * K) * (J + 2 * K) := by positivity
    nlinarith
  have := mul_le_mul_of_nonneg_right h1 dk.le
  nlinarith

/-- Division by a denominator known with a small relative error. -/
theorem ApO.div {a b : F32 P} {v w M : ℝ} {j k : ℕ} (ha : ApO a v M j) (hb : ApO b w |w| k) (hw : w ≠ 0) (hM : M ≤ 2^127) (hN : |w| ≤ 2^127)
    (hk : j + 2 * k + 1 ≤ 2^20 ) : ApO (Lane.div a b) (v / w) (M / |w| + tiny) (j + 2 * k + 1) := by
  have h1 := ha.2.2 hM; have h2 := hb.2.2 hN
  have hw0 : 0 < |w| := abs_pos.2 hw
  have hM0 := ha.nonneg
  have gk := gam_le (k := k) (by omega)
  have hb1 : |w| * (1 - gam k) ≤ |val b| := by
    have : |w| ≤ |val b| + |val b - w| := by have := abs_sub_le w (val b) 0; rw [sub_zero, sub_zero, abs_sub_comm w] at this; linarith
    nlinarith [h2.2]
  have hb0 : 0 < |val b| := lt_of_lt_of_le (mul_pos hw0 (by linarith)) hb1
  have hbne : val b ≠ 0 := abs_pos.1 hb0
  refine step' (x := val a / val b) ?_ hk (fun _ => ?_) (fun _ hx => rounds_err (div_rounds P h1.1 h2.1 hbne) hx)
  · rw [abs_div]; exact div_le_div_of_nonneg_right ha.1 hw0.le
  · have e : val a / val b - v / w = ((val a - v) * w - v * (val b - w)) / (val b * w) := by field_simp; ring
    rw [e, abs_div, abs_mul]
    have hn : |(val a - v) * w - v * (val b - w)| ≤ (gam j + gam k) * M * |w| := by
      refine (abs_sub _ _).trans ?_
      rw [abs_mul, abs_mul]
      have t1 := mul_le_mul_of_nonneg_right h1.2 hw0.le
      have t2 := mul_le_mul ha.1 h2.2 (abs_nonneg _) hM0
      nlinarith
    rw [div_le_iff₀ (mul_pos hb0 hw0)]
    refine hn.trans ?_
    have key := div_key (j := j) (k := k) (by omega)
    have e2 : gam (j + 2 * k) * (M / |w|) * (|val b| * |w|) = gam (j + 2 * k) * |val b| * M := by field_simp
    rw [e2]
    have t1 : (gam j + gam k) * |w| ≤ gam (j + 2 * k) * |val b| := by
      have := mul_le_mul_of_nonneg_right key hw0.le
      have := mul_le_mul_of_nonneg_left hb1 (gam_nonneg (k := j + 2 * k) (by omega))
      nlinarith
    nlinarith [mul_le_mul_of_nonneg_right t1 hM0]

/-- The square root of a number known with a small relative error. -/
theorem ApO.sqrt {a : F32 P} {v : ℝ} {k : ℕ} (ha : ApO a v v k) (hv : 0 < v) (hM : v ≤ 2^127) (hk : k + 1 ≤ 2^20 ) :
    ApO (Lane.sqrt a) (Real.sqrt v) (Real.sqrt v) (k + 1) := by
  have h1 := ha.2.2 hM
  have gk := gam_le (k := k) (by omega)
  have g0 := gam_nonneg (k := k) (by omega)
  have hs := Real.sqrt_pos.2 hv
  have hvs := Real.mul_self_sqrt hv.le
  have hpos : 0 < val a := by
    have := (abs_le.1 h1.2).1; nlinarith
  have hsa := Real.sqrt_pos.2 hpos
  have has := Real.mul_self_sqrt hpos.le
  have hlow : tiny ≤ Real.sqrt (val a) := by
    obtain ⟨n, hn⟩ := int_val a
    have hn1 : 1 ≤ n := by
      have : (0:ℝ) < n := by rw [hn] at hpos; exact pos_of_mul_pos_left hpos u149.le
      exact_mod_cast this
    have : (2:ℝ)^(-149:ℤ) ≤ val a := by
      rw [hn]; have : (1:ℝ) ≤ n := by exact_mod_cast hn1
      have := u149; nlinarith
    rw [Real.le_sqrt tiny_pos.le hpos.le]
    refine le_trans ?_ this
    unfold tiny; norm_num
  refine step (x := Real.sqrt (val a)) (by rw [abs_of_pos hs]) hk (fun _ => ?_) (fun _ hx => rounds_err'' (sqrt_rounds P h1.1 hpos.le) hx (by rw [abs_of_pos hsa]; exact hlow))
  have e : (Real.sqrt (val a) - Real.sqrt v) * (Real.sqrt (val a) + Real.sqrt v) = val a - v := by ring_nf; rw [sq, sq, has, hvs]
  have e' : |Real.sqrt (val a) - Real.sqrt v| * (Real.sqrt (val a) + Real.sqrt v) ≤ gam k * v := by
    rw [← abs_of_pos (add_pos hsa hs), ← abs_mul, e]; exact h1.2
  have e3 : |Real.sqrt (val a) - Real.sqrt v| * Real.sqrt v ≤ gam k * Real.sqrt v * Real.sqrt v := by
    rw [mul_assoc, hvs]; refine le_trans ?_ e'
    exact mul_le_mul_of_nonneg_left (by linarith) (abs_nonneg _)
  exact le_of_mul_le_mul_right e3 hs

/-! ### the same without the bound on the number of roundings -/

/-- `x` approximates `v`, whose terms have total magnitude at most `M`, after at most `k` roundings in a row. -/
def Ap (x : F32 P) (v M : ℝ) (k : ℕ) : Prop := k ≤ 2^20 → ApO x v M k

theorem leaf {x : F32 P} (h : Fin' x) : Ap x (val x) |val x| 0 := fun _ => leafO h
theorem zeroAp : Ap (Lane.ofBits 0#32 : F32 P) 0 0 0 := fun _ => zeroO
variable {a b c : F32 P} {v w z M N K : ℝ} {j k l : ℕ}
theorem Ap.le {v' M' : ℝ} {k' : ℕ} (h : Ap a v M k) (hv : v = v') (hM : M ≤ M') (hk : k ≤ k') : Ap a v' M' k' :=
  fun h' => (h (by omega)).le hv hM hk h'
theorem Ap.add (ha : Ap a v M j) (hb : Ap b w N k) : Ap (Lane.add a b) (v + w) (M + N) (max j k + 1) :=
  fun h => (ha (by omega)).add (hb (by omega)) h
theorem Ap.sub (ha : Ap a v M j) (hb : Ap b w N k) : Ap (Lane.sub a b) (v - w) (M + N) (max j k + 1) :=
  fun h => (ha (by omega)).sub (hb (by omega)) h
theorem mulL (ha : Fin' a) (hb : Fin' b) : Ap (Lane.mul a b) (val a * val b) (|val a * val b| + tiny) 1 := fun _ => mulLO ha hb
theorem fmaL (ha : Fin' a) (hb : Fin' b) (hc : Ap c z K l) : Ap (Lane.fma a b c) (val a * val b + z) (|val a * val b| + tiny + K) (l + 1) :=
  fun h => fmaLO ha hb (hc (by omega)) h
theorem fnmaL (ha : Fin' a) (hb : Fin' b) (hc : Ap c z K l) : Ap (Lane.fnma a b c) (z - val a * val b) (|val a * val b| + tiny + K) (l + 1) :=
  fun h => fnmaLO ha hb (hc (by omega)) h
theorem Ap.mul (ha : Ap a v M j) (hb : Ap b w N k) (hM : M ≤ 2^127) (hN : N ≤ 2^127) : Ap (Lane.mul a b) (v * w) (M * N + tiny) (j + k + 1) :=
  fun h => (ha (by omega)).mul (hb (by omega)) hM hN h
theorem Ap.fma (ha : Ap a v M j) (hb : Ap b w N k) (hc : Ap c z K l) (hM : M ≤ 2^127) (hN : N ≤ 2^127) :
    Ap (Lane.fma a b c) (v * w + z) (M * N + K + tiny) (max (j + k) l + 1) :=
  fun h => (ha (by omega)).fma (hb (by omega)) (hc (by omega)) hM hN h
theorem Ap.fnma (ha : Ap a v M j) (hb : Ap b w N k) (hc : Ap c z K l) (hM : M ≤ 2^127) (hN : N ≤ 2^127) :
    Ap (Lane.fnma a b c) (z - v * w) (M * N + K + tiny) (max (j + k) l + 1) :=
  fun h => (ha (by omega)).fnma (hb (by omega)) (hc (by omega)) hM hN h
theorem Ap.neg (h : Ap a v M k) : Ap (Lane.neg a) (-v) M k := fun hk => (h hk).neg
theorem Ap.div (ha : Ap a v M j) (hb : Ap b w |w| k) (hw : w ≠ 0) (hM : M ≤ 2^127) (hN : |w| ≤ 2^127) :
    Ap (Lane.div a b) (v / w) (M / |w| + tiny) (j + 2 * k + 1) := fun h => (ha (by omega)).div (hb (by omega)) hw hM hN h
theorem Ap.sqrt (ha : Ap a v v k) (hv : 0 < v) (hM : v ≤ 2^127) : Ap (Lane.sqrt a) (Real.sqrt v) (Real.sqrt v) (k + 1) :=
  fun h => (ha (by omega)).sqrt hv hM h
theorem Ap.near (h : Ap a v M k) (hk : k ≤ 2^20) : Near a.bits v M k := fun hM => (h hk).2.2 hM

theorem val_one : val (Lane.ofBits 0x3F800000#32 : F32 P) = 1 := value_one
theorem fin_one : Fin' (Lane.ofBits 0x3F800000#32 : F32 P) := by show IsFinite 0x3F800000#32; decide
theorem val_negOne : val (Lane.ofBits 0xBF800000#32 : F32 P) = -1 := by
  have := neg_value 0x3F800000#32
  rw [value_one] at this; rw [← this]; rfl
theorem fin_negOne : Fin' (Lane.ofBits 0xBF800000#32 : F32 P) := by show IsFinite 0xBF800000#32; decide
theorem Ap.mul1 (h : Ap a v M k) : Ap (Lane.mul a (Lane.ofBits 0x3F800000#32)) v M k := by
  refine fun hk => ⟨(h hk).1, hk, fun hM => ?_⟩
  obtain ⟨h1, h2⟩ := (h hk).2.2 hM
  have h3 := mul_rounds P h1 (fin_one (P := P))
  rw [show value (Lane.ofBits 0x3F800000#32 : F32 P).bits = 1 from val_one, mul_one] at h3
  have h4 := rounds_exact h1 h3
  refine ⟨h4.1, ?_⟩
  rw [show val (Lane.mul a (Lane.ofBits 0x3F800000#32)) = val a from h4.2]; exact h2
/-- Adding an exact zero is exact. -/
theorem Ap.add0 (h : Ap a v M k) (h0 : Ap b 0 0 0) : Ap (Lane.add a b) v M k := by
  refine fun hk => ⟨(h hk).1, hk, fun hM => ?_⟩
  obtain ⟨h1, h2⟩ := (h hk).2.2 hM
  obtain ⟨g1, g2⟩ := (h0 (by norm_num)).2.2 (by norm_num)
  have g3 : value b.bits = 0 := by
    rw [mul_zero, sub_zero] at g2; exact abs_nonpos_iff.1 g2
  have h3 := add_rounds P h1 g1
  rw [g3, add_zero] at h3
  have h4 := rounds_exact h1 h3
  refine ⟨h4.1, ?_⟩
  rw [show val (Lane.add a b) = val a from h4.2]; exact h2
theorem Ap.mulN1 (h : Ap a v M k) : Ap (Lane.mul a (Lane.ofBits 0xBF800000#32)) (-v) M k := by
  refine fun hk => ⟨by rw [abs_neg]; exact (h hk).1, hk, fun hM => ?_⟩
  obtain ⟨h1, h2⟩ := (h hk).2.2 hM
  have h3 := mul_rounds P h1 (fin_negOne (P := P))
  rw [show value (Lane.ofBits 0xBF800000#32 : F32 P).bits = -1 from val_negOne, mul_neg, mul_one, ← neg_value] at h3
  have h4 := rounds_exact (finite_neg.2 h1) h3
  refine ⟨h4.1, ?_⟩
  rw [show val (Lane.mul a (Lane.ofBits 0xBF800000#32)) = - val a by rw [← neg_value]; exact h4.2, show -val a - -v = -(val a - v) by ring, abs_neg]
  exact h2
theorem Ap.fma1 (ha : Ap a v M j) (hb : Ap b w N k) : Ap (Lane.fma a (Lane.ofBits 0x3F800000#32) b) (v + w) (M + N) (max j k + 1) := by
  intro hk
  have ha := ha (by omega); have hb := hb (by omega)
  have hM := ha.nonneg; have hN := hb.nonneg
  refine step (x := val a + val b) ((abs_add_le _ _).trans (add_le_add ha.1 hb.1)) hk (fun h => ?_) (fun h hx => ?_)
  · have h1 := ha.2.2 (by linarith); have h2 := hb.2.2 (by linarith)
    have e : val a + val b - (v + w) = (val a - v) + (val b - w) := by ring
    rw [e]
    refine (abs_add_le _ _).trans ?_
    have g1 := gam_mono (le_max_left j k) (by omega); have g2 := gam_mono (le_max_right j k) (by omega)
    nlinarith [h1.2, h2.2]
  · have h1 := ha.2.2 (by linarith); have h2 := hb.2.2 (by linarith)
    obtain ⟨m, hm⟩ := int_val a; obtain ⟨n, hn⟩ := int_val b
    have h3 := fma_rounds P h1.1 (fin_one (P := P)) h2.1
    rw [show value (Lane.ofBits 0x3F800000#32 : F32 P).bits = 1 from val_one, mul_one] at h3
    exact rounds_err' h3 hx (m + n) (by push_cast; rw [add_mul, ← hm, ← hn])
theorem Ap.fmaN1 (ha : Ap a v M j) (hb : Ap b w N k) : Ap (Lane.fma a (Lane.ofBits 0xBF800000#32) b) (w - v) (M + N) (max j k + 1) := by
  intro hk
  have ha := ha (by omega); have hb := hb (by omega)
  have hM := ha.nonneg; have hN := hb.nonneg
  refine step (x := val b - val a) (by rw [add_comm]; exact (abs_sub _ _).trans (add_le_add hb.1 ha.1)) hk (fun h => ?_) (fun h hx => ?_)
  · have h1 := ha.2.2 (by linarith); have h2 := hb.2.2 (by linarith)
    have e : val b - val a - (w - v) = (val b - w) - (val a - v) := by ring
    rw [e]
    refine (abs_sub _ _).trans ?_
    have g1 := gam_mono (le_max_left j k) (by omega); have g2 := gam_mono (le_max_right j k) (by omega)
    nlinarith [h1.2, h2.2]
  · have h1 := ha.2.2 (by linarith); have h2 := hb.2.2 (by linarith)
    obtain ⟨m, hm⟩ := int_val a; obtain ⟨n, hn⟩ := int_val b
    have h3 := fma_rounds P h1.1 (fin_negOne (P := P)) h2.1
    rw [show value (Lane.ofBits 0xBF800000#32 : F32 P).bits = -1 from val_negOne, mul_neg, mul_one,
      show -value a.bits + value b.bits = val b - val a by ring] at h3
    exact rounds_err' h3 hx (n - m) (by push_cast; rw [sub_mul, ← hm, ← hn])

theorem lanes {p : F32 P → Prop} {A : V4 (F32 P)} (h : p A.x ∧ p A.y ∧ p A.z ∧ p A.w) : ∀ i, p (A.lane i) := by
  intro i; fin_cases i
  · exact h.1
  · exact h.2.1
  · exact h.2.2.1
  · exact h.2.2.2

theorem nearLanes {A : V4 (F32 P)} {v M : Fin 4 → ℝ} {k : ℕ} (hk : k ≤ 2^20)
    (h : Ap A.x (v 0) (M 0) k ∧ Ap A.y (v 1) (M 1) k ∧ Ap A.z (v 2) (M 2) k ∧ Ap A.w (v 3) (M 3) k) (i : Fin 4) :
    Near (A.lane i).bits (v i) (M i) k := by
  fin_cases i
  · exact Ap.near h.1 hk
  · exact Ap.near h.2.1 hk
  · exact Ap.near h.2.2.1 hk
  · exact Ap.near h.2.2.2 hk

/-- Apply the rules. -/
macro "ap" : tactic => `(tactic| repeat' with_reducible first
  | assumption | exact zeroAp | apply Ap.mul1 | apply Ap.mulN1 | apply Ap.fma1 | apply Ap.fmaN1
  | apply fmaL | apply fnmaL | apply mulL | apply Ap.add | apply Ap.sub | apply Ap.neg | apply leaf)

end DXM.FErr
