import Verif.Lemmas.ExpLane
import Verif.Lemmas.ExpPoly

/-
Rounding error of the polynomial and of the scaling in XMVectorExp2.
-/

set_option linter.all false

namespace DXM
open DXM.Spec DXM.IEEE DXM.FErr DXM.Trig
variable {P : Env}

theorem lit_val {b : BitVec 32} {n : ℤ} (h : ival b = n) : val (lit b : F32 P) = n * (2:ℝ)^(-149:ℤ) := by
  show value b = _; rw [value_eq, h]
theorem lit_fin {b : BitVec 32} (h : IsFinite b) : Fin' (lit b : F32 P) := h

theorem horner (c : Cfg) {a y d : F32 P} {v B K e : ℝ} (ha : Fin' a) (hy : Fin' y) (hd : Fin' d) (he : |val a - v| ≤ e) (hv : |v| ≤ B) (h1 : |val y| ≤ 1) (hK : |val d| ≤ K)
    (hs : B + e + K ≤ 4) :
    Fin' (fm c a y d) ∧ |val (fm c a y d) - (v * val y + val d)| ≤ e + ulp2 * (B + e + tiny) + ulp2 * (B + K + e + ulp2 * (B + e + tiny)) ∧ |v * val y + val d| ≤ B + K := by
  have hu := u_pos; have ht := tiny_pos
  have hu1 : ulp2 ≤ 1/8 := by unfold ulp2; norm_num
  have ht1 : tiny ≤ 1/8 := by unfold tiny; norm_num
  have hB : 0 ≤ B := (abs_nonneg _).trans hv
  have hK0 : 0 ≤ K := (abs_nonneg _).trans hK
  have he0 : 0 ≤ e := (abs_nonneg _).trans he
  have hov : (8:ℝ) < overflow := by unfold overflow; norm_num
  have hva : |val a| ≤ B + e := by
    have := abs_add_le (val a - v) v
    rw [sub_add_cancel] at this; linarith
  have hp : |val a * val y| ≤ B + e := by
    rw [abs_mul]; calc _ ≤ (B + e) * 1 := mul_le_mul hva h1 (abs_nonneg _) (by linarith)
      _ = _ := mul_one _
  have hq : |v * val y| ≤ B := by
    rw [abs_mul]; calc _ ≤ B * 1 := mul_le_mul hv h1 (abs_nonneg _) hB
      _ = _ := mul_one _
  have hd1 : |val a * val y - v * val y| ≤ e := by
    rw [← sub_mul, abs_mul]; calc _ ≤ e * 1 := mul_le_mul he h1 (abs_nonneg _) he0
      _ = _ := mul_one _
  refine ⟨?_, ?_, (abs_add_le _ _).trans (by linarith)⟩ <;> unfold fm <;> by_cases hf : c.fma = true
  · rw [if_pos hf]
    exact (rounds_err (fma_rounds P ha hy hd) (lt_of_le_of_lt ((abs_add_le _ _).trans (add_le_add hp hK)) (by linarith))).1
  · rw [if_neg hf]
    have m := rounds_err (mul_rounds P ha hy) (lt_of_le_of_lt hp (by linarith))
    have hm : |val (Lane.mul a y)| ≤ 6 := by
      have h2 := m.2
      have h3 := abs_add_le (val (Lane.mul a y) - val a * val y) (val a * val y)
      rw [sub_add_cancel] at h3
      have h4 : |val (Lane.mul a y) - val a * val y| ≤ ulp2 * (|val a * val y| + tiny) := h2
      nlinarith
    exact (rounds_err (add_rounds P m.1 hd) (lt_of_le_of_lt ((abs_add_le _ _).trans (add_le_add hm hK)) (by
      have : (16:ℝ) < overflow := by unfold overflow; norm_num
      linarith))).1
  · rw [if_pos hf]
    have m := (rounds_err (fma_rounds P ha hy hd) (lt_of_le_of_lt ((abs_add_le _ _).trans (add_le_add hp hK)) (by linarith))).2
    have m' : |val (Lane.fma a y d) - (val a * val y + val d)| ≤ ulp2 * (|val a * val y + val d| + tiny) := m
    have h3 : |val a * val y + val d| ≤ B + e + K := (abs_add_le _ _).trans (add_le_add hp hK)
    have h5 : ulp2 * (|val a * val y + val d| + tiny) ≤ ulp2 * (B + e + K + tiny) := mul_le_mul_of_nonneg_left (by linarith) hu.le
    have h6 : 0 ≤ ulp2 * (ulp2 * (B + e + tiny)) := by positivity
    have h7 : 0 ≤ ulp2 * B := by positivity
    have h8 : 0 ≤ ulp2 * e := by positivity
    have e1 : val (Lane.fma a y d) - (v * val y + val d) = (val (Lane.fma a y d) - (val a * val y + val d)) + (val a * val y - v * val y) := by ring
    rw [e1]
    refine (abs_add_le _ _).trans ?_
    nlinarith
  · rw [if_neg hf]
    have m := rounds_err (mul_rounds P ha hy) (lt_of_le_of_lt hp (by linarith))
    have h4 : |val (Lane.mul a y) - val a * val y| ≤ ulp2 * (|val a * val y| + tiny) := m.2
    have h4' : |val (Lane.mul a y) - val a * val y| ≤ ulp2 * (B + e + tiny) := h4.trans (mul_le_mul_of_nonneg_left (by linarith) hu.le)
    have hm : |val (Lane.mul a y)| ≤ B + e + ulp2 * (B + e + tiny) := by
      have h3 := abs_add_le (val (Lane.mul a y) - val a * val y) (val a * val y)
      rw [sub_add_cancel] at h3
      linarith
    obtain ⟨n, hn⟩ := int_val (Lane.mul a y); obtain ⟨k, hk⟩ := int_val d
    have hb : |val (Lane.mul a y) + val d| ≤ B + e + ulp2 * (B + e + tiny) + K := (abs_add_le _ _).trans (add_le_add hm hK)
    have r := (rounds_err' (add_rounds P m.1 hd) (lt_of_le_of_lt hb (by nlinarith)) (n + k) (by
      push_cast; rw [add_mul]; exact congrArg₂ (· + ·) hn hk)).2
    have r' : |val (Lane.add (Lane.mul a y) d) - (val (Lane.mul a y) + val d)| ≤ ulp2 * |val (Lane.mul a y) + val d| := r
    have r'' := r'.trans (mul_le_mul_of_nonneg_left hb hu.le)
    have e1 : val (Lane.add (Lane.mul a y) d) - (v * val y + val d) = (val (Lane.add (Lane.mul a y) d) - (val (Lane.mul a y) + val d)) + (val (Lane.mul a y) - val a * val y) + (val a * val y - v * val y) := by ring
    rw [e1]
    refine (abs_add_le _ _).trans ((add_le_add (abs_add_le _ _) le_rfl).trans ?_)
    linarith

/-- The polynomial on lanes is within 5 units `2^-24` of its exact value. -/
theorem poly_err (c : Cfg) {y : F32 P} (hy : Fin' y) (h1 : |val y| ≤ 1) : Fin' (polyL c y) ∧ |val (polyL c y) - expP (val y)| ≤ 5 * ulp2 := by
  have v7 : val (lit 0xB7364261#32 : F32 P) = -11944545/1099511627776 := by
    rw [lit_val (n := ival 0xB7364261#32) rfl, show ival 0xB7364261#32 = -(11944545 * 2^109) by decide +kernel]; push_cast; norm_num
  have f7 : Fin' (lit 0xB7364261#32 : F32 P) := lit_fin (by decide)
  have v6 : val (lit 0x391AA7D7#32 : F32 P) = 10135511/68719476736 := by
    rw [lit_val (n := ival 0x391AA7D7#32) rfl, show ival 0x391AA7D7#32 = (10135511 * 2^113) by decide +kernel]; push_cast; norm_num
  have f6 : Fin' (lit 0x391AA7D7#32 : F32 P) := lit_fin (by decide)
  have v5 : val (lit 0xBAAE1854#32 : F32 P) = -2852373/2147483648 := by
    rw [lit_val (n := ival 0xBAAE1854#32) rfl, show ival 0xBAAE1854#32 = -(2852373 * 2^118) by decide +kernel]; push_cast; norm_num
  have f5 : Fin' (lit 0xBAAE1854#32 : F32 P) := lit_fin (by decide)
  have v4 : val (lit 0x3C1D8C54#32 : F32 P) = 2581269/268435456 := by
    rw [lit_val (n := ival 0x3C1D8C54#32) rfl, show ival 0x3C1D8C54#32 = (2581269 * 2^121) by decide +kernel]; push_cast; norm_num
  have f4 : Fin' (lit 0x3C1D8C54#32 : F32 P) := lit_fin (by decide)
  have v3 : val (lit 0xBD6357CA#32 : F32 P) = -7449573/134217728 := by
    rw [lit_val (n := ival 0xBD6357CA#32) rfl, show ival 0xBD6357CA#32 = -(7449573 * 2^122) by decide +kernel]; push_cast; norm_num
  have f3 : Fin' (lit 0xBD6357CA#32 : F32 P) := lit_fin (by decide)
  have v2 : val (lit 0x3E75FDED#32 : F32 P) = 16121325/67108864 := by
    rw [lit_val (n := ival 0x3E75FDED#32) rfl, show ival 0x3E75FDED#32 = (16121325 * 2^123) by decide +kernel]; push_cast; norm_num
  have f2 : Fin' (lit 0x3E75FDED#32 : F32 P) := lit_fin (by decide)
  have v1 : val (lit 0xBF317218#32 : F32 P) = -1453635/2097152 := by
    rw [lit_val (n := ival 0xBF317218#32) rfl, show ival 0xBF317218#32 = -(1453635 * 2^128) by decide +kernel]; push_cast; norm_num
  have f1 : Fin' (lit 0xBF317218#32 : F32 P) := lit_fin (by decide)
  have v0 : val (lit 0x3F800000#32 : F32 P) = 1/1 := by
    rw [lit_val (n := ival 0x3F800000#32) rfl, show ival 0x3F800000#32 = (1 * 2^149) by decide +kernel]; push_cast; norm_num
  have f0 : Fin' (lit 0x3F800000#32 : F32 P) := lit_fin (by decide)
  have e7 : |val (lit 0xB7364261#32 : F32 P) - (-11944545/1099511627776)| ≤ 0 := by rw [v7]; norm_num
  have b7 : |(-11944545/1099511627776:ℝ)| ≤ 11/1000000 := by rw [abs_of_neg] <;> norm_num
  have k6 : |val (lit 0x391AA7D7#32 : F32 P)| ≤ 37/250000 := by rw [v6, abs_le]; constructor <;> norm_num
  obtain ⟨g6, e6, b6⟩ := horner c f7 hy f6 e7 b7 h1 k6 (by norm_num)
  replace e6 := e6.trans (show _ ≤ (1/1000:ℝ)/16777216 by norm_num [ulp2, tiny])
  replace b6 := b6.trans (show _ ≤ (159/1000000:ℝ) by norm_num)
  rw [v6] at e6 b6
  have k5 : |val (lit 0xBAAE1854#32 : F32 P)| ≤ 1329/1000000 := by rw [v5, abs_le]; constructor <;> norm_num
  obtain ⟨g5, e5, b5⟩ := horner c g6 hy f5 e6 b6 h1 k5 (by norm_num)
  replace e5 := e5.trans (show _ ≤ (3/1000:ℝ)/16777216 by norm_num [ulp2, tiny])
  replace b5 := b5.trans (show _ ≤ (93/62500:ℝ) by norm_num)
  rw [v5] at e5 b5
  have k4 : |val (lit 0x3C1D8C54#32 : F32 P)| ≤ 601/62500 := by rw [v4, abs_le]; constructor <;> norm_num
  obtain ⟨g4, e4, b4⟩ := horner c g5 hy f4 e5 b5 h1 k4 (by norm_num)
  replace e4 := e4.trans (show _ ≤ (2/125:ℝ)/16777216 by norm_num [ulp2, tiny])
  replace b4 := b4.trans (show _ ≤ (347/31250:ℝ) by norm_num)
  rw [v4] at e4 b4
  have k3 : |val (lit 0xBD6357CA#32 : F32 P)| ≤ 3469/62500 := by rw [v3, abs_le]; constructor <;> norm_num
  obtain ⟨g3, e3, b3⟩ := horner c g4 hy f3 e4 b4 h1 k3 (by norm_num)
  replace e3 := e3.trans (show _ ≤ (47/500:ℝ)/16777216 by norm_num [ulp2, tiny])
  replace b3 := b3.trans (show _ ≤ (4163/62500:ℝ) by norm_num)
  rw [v3] at e3 b3
  have k2 : |val (lit 0x3E75FDED#32 : F32 P)| ≤ 240227/1000000 := by rw [v2, abs_le]; constructor <;> norm_num
  obtain ⟨g2, e2, b2⟩ := horner c g3 hy f2 e3 b3 h1 k2 (by norm_num)
  replace e2 := e2.trans (show _ ≤ (117/250:ℝ)/16777216 by norm_num [ulp2, tiny])
  replace b2 := b2.trans (show _ ≤ (61367/200000:ℝ) by norm_num)
  rw [v2] at e2 b2
  have k1 : |val (lit 0xBF317218#32 : F32 P)| ≤ 173287/250000 := by rw [v1, abs_le]; constructor <;> norm_num
  obtain ⟨g1, e1, b1⟩ := horner c g2 hy f1 e2 b2 h1 k1 (by norm_num)
  replace e1 := e1.trans (show _ ≤ (71/40:ℝ)/16777216 by norm_num [ulp2, tiny])
  replace b1 := b1.trans (show _ ≤ (999983/1000000:ℝ) by norm_num)
  rw [v1] at e1 b1
  have k0 : |val (lit 0x3F800000#32 : F32 P)| ≤ 1 := by rw [v0, abs_le]; constructor <;> norm_num
  obtain ⟨g0, e0, b0⟩ := horner c g1 hy f0 e1 b1 h1 k0 (by norm_num)
  replace e0 := e0.trans (show _ ≤ (191/40:ℝ)/16777216 by norm_num [ulp2, tiny])
  replace b0 := b0.trans (show _ ≤ (1999983/1000000:ℝ) by norm_num)
  rw [v0] at e0 b0
  refine ⟨g0, ?_⟩
  have : expP (val y) = _ := rfl
  unfold expP
  rw [zero_mul, zero_add]
  refine (le_of_eq ?_).trans (e0.trans (by norm_num [ulp2]))
  unfold polyL; norm_num

/-! ### the pieces -/
theorem lit_value128 : value 0x43000000#32 = 128 := by
  rw [value_eq, show ival 0x43000000#32 = 128 * 2^149 by decide +kernel]; push_cast; norm_num
theorem lit_valueM150 : value 0xC3160000#32 = -150 := by
  rw [value_eq, show ival 0xC3160000#32 = -150 * 2^149 by decide +kernel]; push_cast; norm_num
theorem lit_value128p : value 0x42FFFFFF#32 = 128 - 1/131072 := by
  rw [value_eq, show ival 0x42FFFFFF#32 = 16777215 * 2^132 by decide +kernel]; push_cast; norm_num

theorem toInt_am (x : BitVec 32) : x.toInt = if sg x then (am x : ℤ) - 2^31 else (am x : ℤ) := by
  have h := toNat_eq x; have h2 := am_lt x
  rw [BitVec.toInt_eq_toNat_cond]
  split_ifs at * <;> omega
theorem slt128 {x : BitVec 32} (hs : sg x = false) : BitVec.slt x 0x43000000#32 = true ↔ value x < 128 := by
  rw [← lit_value128, value_key, BitVec.slt_iff_toInt_lt, toInt_am x]
  unfold key; rw [hs]
  have : (0x43000000#32 : BitVec 32).toInt = 0x43000000 := by decide
  have : (am 0x43000000#32 : ℤ) = 0x43000000 := by decide
  have : sg 0x43000000#32 = false := by decide
  simp_all
theorem slt150 {x : BitVec 32} (hs : sg x = true) : BitVec.slt x 0xC3160000#32 = true ↔ -150 < value x := by
  rw [← lit_valueM150, value_key, BitVec.slt_iff_toInt_lt, toInt_am x]
  unfold key; rw [hs]
  have h1 : (0xC3160000#32 : BitVec 32).toInt = 0x43160000 - 2^31 := by decide
  have h2 : (am 0xC3160000#32 : ℤ) = 0x43160000 := by decide
  have h3 : sg 0xC3160000#32 = true := by decide
  rw [h3, h1, h2]; simp only [if_true]; constructor <;> intro h <;> omega
theorem value_nonneg_of {x : BitVec 32} (h : sg x = false) : 0 ≤ value x := by rw [value_sign, h]; simp
theorem value_nonpos_of {x : BitVec 32} (h : sg x = true) : value x ≤ 0 := by rw [value_sign, h]; simp
theorem small_am {x : BitVec 32} (h : |value x| ≤ 150) : am x < 0x4B000000 := by
  by_contra hc
  have h1 : magN 0x4B000000 ≤ magN (am x) := magN_strictMono.monotone (not_lt.1 hc)
  have e : magN 0x4B000000 = 2^172 := by decide +kernel
  rw [value_abs] at h
  have h2 : ((2:ℝ)^172) ≤ (mag x : ℝ) := by rw [e] at h1; exact_mod_cast h1
  have h3 : (2:ℝ)^172 * 2^(-149:ℤ) ≤ 150 := le_trans (mul_le_mul_of_nonneg_right h2 (by positivity)) h
  norm_num at h3
theorem rep_neg {x : ℝ} (h : Rep x) : Rep (-x) := by
  obtain ⟨y, hy, rfl⟩ := h
  refine ⟨mk (!sg y) (am y), ?_, ?_⟩
  · rw [finite_iff, am_mk _ _ (am_lt y)]; rwa [finite_iff] at hy
  · rw [value_mk _ _ (am_lt y), value_sign]; unfold mag; cases sg y <;> simp
theorem rep_trunc {a : BitVec 32} (h : am a < 0x4B000000) : Rep (value a - truncZ (value a)) := by
  unfold truncZ
  split_ifs with h0
  · exact rep_fract h (Or.inl h0)
  · have e : value (mk (!sg a) (am a)) = - value a := by
      rw [value_mk _ _ (am_lt a), value_sign]; unfold mag; cases sg a <;> simp
    have := rep_neg (rep_fract (a := mk (!sg a) (am a)) (by rwa [am_mk _ _ (am_lt a)]) (Or.inl (by rw [e]; linarith)))
    rw [e, Int.floor_neg] at this
    have e2 : -(-value a - ((-⌈value a⌉ : ℤ):ℝ)) = value a - ⌈value a⌉ := by push_cast; ring
    rwa [e2] at this
theorem yL_exact {x : F32 P} (h : |val x| ≤ 150) : (kL x).toInt = truncZ (val x) ∧ Fin' (yL x) ∧ val (yL x) = val x - truncZ (val x) := by
  have ha := small_am h
  have hk := cvttI_value ha
  refine ⟨cvtt_toInt ha, ?_⟩
  have r := sub_rounds P (finite_of_small ha) hk.1
  rw [hk.2] at r
  exact exact_of r (rep_trunc ha)
theorem shl_val {b : BitVec 32} {t : ℕ} (hb : b.toNat = t) (h1 : 1 ≤ t) (h2 : t ≤ 254) : IsFinite (BitVec.shiftLeft b 23) ∧ value (BitVec.shiftLeft b 23) = (2:ℝ)^((t:ℤ) - 127) := by
  have e : BitVec.shiftLeft b 23 = mk false (t * 2^23 + 0) := by
    apply BitVec.eq_of_toNat_eq
    show (b <<< 23).toNat = _
    rw [BitVec.toNat_shiftLeft, hb, Nat.shiftLeft_eq]; unfold mk; simp
  rw [e, finite_iff, am_mk _ _ (by omega), value_mk _ _ (by omega), magN_value _ _ (by norm_num), if_neg (show ¬ t = 0 by omega)]
  refine ⟨by omega, ?_⟩
  simp
theorem shl_k {b d : BitVec 32} {n : ℤ} {k : ℕ} (hb : b.toInt = n) (hk : d.toNat = k) (h1 : 1 ≤ n + k) (h2 : n + k ≤ 254) : IsFinite (BitVec.shiftLeft (b + d) 23) ∧ value (BitVec.shiftLeft (b + d) 23) = (2:ℝ)^(n + k - 127) := by
  have hd := d.isLt
  have e : (b + d).toNat = (n + k).toNat := by
    rw [BitVec.toNat_add]
    rw [BitVec.toInt_eq_toNat_cond] at hb
    split_ifs at hb <;> omega
  obtain ⟨f, v⟩ := shl_val e (by omega) (by omega)
  refine ⟨f, v.trans ?_⟩
  rw [Int.toNat_of_nonneg (by omega)]

/-- The reciprocal of an approximate reciprocal. -/
theorem inv_err {p Q r : ℝ} (hQ : 0 < Q) (h : |p * Q - 1| ≤ r) (hr : r ≤ 1/100) : 0 < p ∧ |1/p - Q| ≤ Q * (r * (51/50)) := by
  obtain ⟨h1, h2⟩ := abs_le.1 h
  have hpq : 0 < p * Q := by linarith
  have hp : 0 < p := pos_of_mul_pos_left hpq hQ.le
  refine ⟨hp, ?_⟩
  have hr0 : 0 ≤ r := (abs_nonneg _).trans h
  rw [show 1/p - Q = Q * ((1 - p * Q) / (p * Q)) by field_simp, abs_mul, abs_of_pos hQ]
  refine mul_le_mul_of_nonneg_left ?_ hQ.le
  rw [abs_div, abs_of_pos hpq, div_le_iff₀ hpq, abs_sub_comm]
  nlinarith
theorem scaled_err {p Q S r : ℝ} (hQ : 0 < Q) (hS : 0 < S) (h : |p * Q - 1| ≤ r) (hr : r ≤ 1/100) : 0 < S / p ∧ |S / p - S * Q| ≤ S * Q * (r * (51/50)) := by
  obtain ⟨hp, h1⟩ := inv_err hQ h hr
  refine ⟨by positivity, ?_⟩
  rw [show S / p - S * Q = S * (1/p - Q) by ring, abs_mul, abs_of_pos hS, mul_assoc]
  exact mul_le_mul_of_nonneg_left h1 hS.le

theorem pow_split (v : ℝ) (n : ℤ) : (2:ℝ)^v = (2:ℝ)^n * (2:ℝ)^(v - n) := by
  rw [← Real.rpow_intCast, ← Real.rpow_add (by norm_num)]; congr 1; ring

/-- The quality of the polynomial on lanes, nonnegative fractions. -/
theorem poly_pos (c : Cfg) {y : F32 P} (hy : Fin' y) (h0 : 0 ≤ val y) (h1 : val y ≤ 1) : Fin' (polyL c y) ∧ |val (polyL c y) * (2:ℝ)^(val y) - 1| ≤ 3/10^8 + 10 * ulp2 := by
  obtain ⟨f, e⟩ := poly_err c hy (by rw [abs_le]; constructor <;> linarith)
  refine ⟨f, ?_⟩
  have hQ : (2:ℝ)^(val y) ≤ 2 := by
    have := Real.rpow_le_rpow_of_exponent_le (x := 2) (by norm_num) h1
    simpa using this
  have hQ0 : (0:ℝ) < (2:ℝ)^(val y) := by positivity
  have e2 := expP_pos_err h0 h1
  rw [show val (polyL c y) * (2:ℝ)^(val y) - 1 = (expP (val y) * (2:ℝ)^(val y) - 1) + (val (polyL c y) - expP (val y)) * (2:ℝ)^(val y) by ring]
  refine (abs_add_le _ _).trans (add_le_add e2 ?_)
  rw [abs_mul, abs_of_pos hQ0]
  calc _ ≤ 5 * ulp2 * 2 := mul_le_mul e hQ hQ0.le (by have := u_pos; linarith)
    _ = _ := by ring
theorem poly_neg (c : Cfg) {y : F32 P} (hy : Fin' y) (h0 : val y ≤ 0) (h1 : -1 ≤ val y) : Fin' (polyL c y) ∧ |val (polyL c y) * (2:ℝ)^(val y) - 1| ≤ 2/10^5 + 5 * ulp2 := by
  obtain ⟨f, e⟩ := poly_err c hy (by rw [abs_le]; constructor <;> linarith)
  refine ⟨f, ?_⟩
  have hQ : (2:ℝ)^(val y) ≤ 1 := by
    have := Real.rpow_le_rpow_of_exponent_le (x := 2) (by norm_num) h0
    simpa using this
  have hQ0 : (0:ℝ) < (2:ℝ)^(val y) := by positivity
  have e2 := expP_neg_err h1 h0
  rw [show val (polyL c y) * (2:ℝ)^(val y) - 1 = (expP (val y) * (2:ℝ)^(val y) - 1) + (val (polyL c y) - expP (val y)) * (2:ℝ)^(val y) by ring]
  refine (abs_add_le _ _).trans (add_le_add e2 ?_)
  rw [abs_mul, abs_of_pos hQ0]
  calc _ ≤ 5 * ulp2 * 1 := mul_le_mul e hQ hQ0.le (by have := u_pos; linarith)
    _ = _ := by ring

/-! ### one lane -/
theorem below128 {x : BitVec 32} (h : value x < 128) : value x ≤ 128 - 1/131072 := by
  rw [← lit_value128p, ← not_lt, value_key, not_lt]
  rw [← lit_value128, value_key] at h
  have h1 : key 0x43000000#32 = 0x43000000 := by decide
  have h2 : key 0x42FFFFFF#32 = 0x42FFFFFF := by decide
  omega
theorem pow_below {v : ℝ} (h : v ≤ 128 - 1/131072) : (2:ℝ)^v ≤ 2^128 * (1 - 5/10^6) := by
  have h1 : (2:ℝ)^v ≤ (2:ℝ)^(128 - 1/131072:ℝ) := Real.rpow_le_rpow_of_exponent_le (by norm_num) h
  have h2 : (2:ℝ)^(128 - 1/131072:ℝ) * (2:ℝ)^(1/131072:ℝ) = 2^128 := by
    rw [← Real.rpow_add (by norm_num), show (128 - 1/131072 + 1/131072 : ℝ) = ((128:ℕ):ℝ) by norm_num, Real.rpow_natCast]
  have h3 : 1 + 52/10^7 ≤ (2:ℝ)^(1/131072:ℝ) := by
    have := Real.add_one_le_exp (Real.log 2 * (1/131072))
    rw [Real.rpow_def_of_pos (by norm_num)]
    have hl := (abs_le.1 log2_near).1
    refine le_trans ?_ this
    linarith
  refine h1.trans ?_
  have h4 : (0:ℝ) < (2:ℝ)^(128 - 1/131072:ℝ) := by positivity
  have h5 : (2:ℝ)^(128 - 1/131072:ℝ) * (1 + 52/10^7) ≤ 2^128 := h2 ▸ mul_le_mul_of_nonneg_left h3 h4.le
  norm_num at h5 ⊢
  linarith

theorem fin_pos {X z : ℝ} {r : BitVec 32} (R : Rounds z r) (p0 : 0 < z) (e0 : |z - X| ≤ X * ((3/10^8 + 10 * ulp2) * (51/50))) (hX1 : 1 ≤ X) (hX2 : X ≤ 2^128 * (1 - 5/10^6)) :
    IsFinite r ∧ |value r - X| ≤ 2^(-20:ℤ) * X := by
  have hr1 : X * ((3/10^8 + 10 * ulp2) * (51/50)) ≤ X * (7/10^7) := mul_le_mul_of_nonneg_left (by norm_num [ulp2]) (by linarith)
  obtain ⟨z1, z2⟩ := abs_le.1 (e0.trans hr1)
  have hzo : |z| < overflow := by
    rw [abs_of_pos p0]; unfold overflow
    norm_num at hX2 ⊢
    linarith
  have hzt : tiny ≤ |z| := by
    rw [abs_of_pos p0]
    have : tiny ≤ 1/2 := by norm_num [tiny]
    linarith
  obtain ⟨f, e⟩ := rounds_err'' R hzo hzt
  refine ⟨f, ?_⟩
  rw [abs_of_pos p0] at e
  obtain ⟨w1, w2⟩ := abs_le.1 e
  have hu : ulp2 ≤ 6/10^8 := by norm_num [ulp2]
  have hz3 : ulp2 * z ≤ 6/10^8 * (2 * X) := mul_le_mul hu (by linarith) p0.le (by norm_num)
  have h20 : (2:ℝ)^(-20:ℤ) = 1/1048576 := by norm_num
  rw [abs_le, h20]; constructor <;> linarith

theorem fin_neg {X z : ℝ} {r : BitVec 32} (R : Rounds z r) (p0 : 0 < z) (e0 : |z - X| ≤ X * ((2/10^5 + 5 * ulp2) * (51/50))) (hX : X ≤ 1) :
    IsFinite r ∧ |value r - X| ≤ 21/10^6 * X + 2^(-150:ℤ) := by
  have hX0 : 0 ≤ X := by
    by_contra hc
    have := (abs_nonneg _).trans e0
    have h2 : 0 < ((2/10^5 + 5 * ulp2) * (51/50)) := by norm_num [ulp2]
    nlinarith
  have hr1 : X * ((2/10^5 + 5 * ulp2) * (51/50)) ≤ X * (208/10^7) := mul_le_mul_of_nonneg_left (by norm_num [ulp2]) hX0
  obtain ⟨z1, z2⟩ := abs_le.1 (e0.trans hr1)
  have hzo : |z| < overflow := by
    rw [abs_of_pos p0]
    have : 2 < overflow := by unfold overflow; norm_num
    linarith
  obtain ⟨f, e⟩ := rounds_err R hzo
  refine ⟨f, ?_⟩
  rw [abs_of_pos p0] at e
  obtain ⟨w1, w2⟩ := abs_le.1 e
  have hu : ulp2 ≤ 6/10^8 := by norm_num [ulp2]
  have hz3 : ulp2 * z ≤ 6/10^8 * (2 * X) := mul_le_mul hu (by linarith) p0.le (by norm_num)
  have ht : ulp2 * tiny = 2^(-150:ℤ) := by unfold ulp2 tiny; norm_num
  rw [mul_add, ht] at w1 w2
  clear ht
  generalize (2:ℝ)^(-150:ℤ) = T at *
  rw [abs_le]; constructor <;> linarith

theorem fin_neg1 {X Y z : ℝ} {a r : BitVec 32} (R : Rounds z a) (p0 : 0 < z) (hY : Y = X * 2^(-126:ℤ)) (e0 : |z - X| ≤ X * ((2/10^5 + 5 * ulp2) * (51/50))) (hX : X ≤ 1) (hX1 : 2^(-25:ℤ) ≤ X) 
    (R' : IsFinite a → Rounds (2^(-126:ℤ) * value a) r) :
    IsFinite r ∧ |value r - Y| ≤ 21/10^6 * Y + 2^(-150:ℤ) := by
  have hX0 : 0 ≤ X := le_trans (by positivity) hX1
  have hr1 : X * ((2/10^5 + 5 * ulp2) * (51/50)) ≤ X * (2075/10^8) := mul_le_mul_of_nonneg_left (by norm_num [ulp2]) hX0
  obtain ⟨z1, z2⟩ := abs_le.1 (e0.trans hr1)
  have hzo : |z| < overflow := by
    rw [abs_of_pos p0]
    have : 2 < overflow := by unfold overflow; norm_num
    linarith
  have hzt : tiny ≤ |z| := by
    rw [abs_of_pos p0]
    have : tiny ≤ 2^(-26:ℤ) := by norm_num [tiny]
    norm_num at this hX1
    linarith
  obtain ⟨f, e⟩ := rounds_err'' R hzo hzt
  rw [abs_of_pos p0] at e
  obtain ⟨w1, w2⟩ := abs_le.1 e
  have hu : ulp2 ≤ 6/10^8 := by norm_num [ulp2]
  have hz3 : ulp2 * z ≤ 6/10^8 * (2 * X) := mul_le_mul hu (by linarith) p0.le (by norm_num)
  have ha1 : value a - X ≤ 2087/10^8 * X := by linarith
  have ha2 : -(2087/10^8 * X) ≤ value a - X := by linarith
  have ha0 : 0 ≤ value a := by linarith
  have hc : (0:ℝ) < 2^(-126:ℤ) := by positivity
  have hc1 : (2:ℝ)^(-126:ℤ) ≤ 1 := by norm_num
  have hb1 : 2^(-126:ℤ) * value a - Y ≤ 2087/10^8 * Y := by rw [hY]; nlinarith
  have hb2 : -(2087/10^8 * Y) ≤ 2^(-126:ℤ) * value a - Y := by rw [hY]; nlinarith
  have hY0 : 0 ≤ Y := by rw [hY]; positivity
  have hY1 : Y ≤ 1 := by rw [hY]; nlinarith
  set w := 2^(-126:ℤ) * value a
  have hw0 : 0 ≤ w := by positivity
  obtain ⟨f', e'⟩ := rounds_err (R' f) (by
    rw [abs_of_nonneg hw0]
    have : 2 < overflow := by unfold overflow; norm_num
    linarith)
  refine ⟨f', ?_⟩
  rw [abs_of_nonneg hw0] at e'
  obtain ⟨w3, w4⟩ := abs_le.1 e'
  have hz4 : ulp2 * w ≤ 6/10^8 * (2 * Y) := mul_le_mul hu (by linarith) hw0 (by norm_num)
  have ht : ulp2 * tiny = 2^(-150:ℤ) := by unfold ulp2 tiny; norm_num
  rw [mul_add, ht] at w3 w4
  clear ht
  generalize (2:ℝ)^(-150:ℤ) = T at *
  rw [abs_le]; constructor <;> linarith

theorem trunc_ceil {v : ℝ} (h : v ≤ 0) : truncZ v = ⌈v⌉ := by
  unfold truncZ; split_ifs with h2
  · have : v = 0 := le_antisymm h h2
    subst this; simp
  · rfl
theorem core_pos {s p : F32 P} {S Q X : ℝ} (hX : S * Q = X) (fs : Fin' s) (vs : val s = S) (fp : Fin' p) (hQ : 0 < Q) (hS : 0 < S) (ep : |val p * Q - 1| ≤ 3/10^8 + 10 * ulp2)
    (hX1 : 1 ≤ X) (hX2 : X ≤ 2^128 * (1 - 5/10^6)) : Fin' (Lane.div s p) ∧ |val (Lane.div s p) - X| ≤ 2^(-20:ℤ) * X := by
  obtain ⟨p0, e0⟩ := scaled_err hQ hS ep (by norm_num [ulp2])
  rw [hX] at e0
  have hp0 : val p ≠ 0 := fun h => by rw [h, div_zero] at p0; exact lt_irrefl _ p0
  have r : Rounds (val s / val p) (Lane.div s p).bits := div_rounds P fs fp hp0
  rw [vs] at r
  exact fin_pos r p0 e0 hX1 hX2
theorem core_neg {s p : F32 P} {S Q X : ℝ} (hX : S * Q = X) (fs : Fin' s) (vs : val s = S) (fp : Fin' p) (hQ : 0 < Q) (hS : 0 < S) (ep : |val p * Q - 1| ≤ 2/10^5 + 5 * ulp2)
    (hX1 : X ≤ 1) : Fin' (Lane.div s p) ∧ |val (Lane.div s p) - X| ≤ 21/10^6 * X + 2^(-150:ℤ) := by
  obtain ⟨p0, e0⟩ := scaled_err hQ hS ep (by norm_num [ulp2])
  rw [hX] at e0
  have hp0 : val p ≠ 0 := fun h => by rw [h, div_zero] at p0; exact lt_irrefl _ p0
  have r : Rounds (val s / val p) (Lane.div s p).bits := div_rounds P fs fp hp0
  rw [vs] at r
  exact fin_neg r p0 e0 hX1
theorem core_neg1 {s p m : F32 P} {S Q X Y : ℝ} (hX : S * Q = X) (fs : Fin' s) (vs : val s = S) (fp : Fin' p) (hQ : 0 < Q) (hS : 0 < S) (ep : |val p * Q - 1| ≤ 2/10^5 + 5 * ulp2)
    (hY : Y = X * 2^(-126:ℤ)) (hX1 : X ≤ 1) (hX2 : 2^(-25:ℤ) ≤ X) (hm : Fin' m) (vm : val m = 2^(-126:ℤ)) : Fin' (Lane.mul m (Lane.div s p)) ∧ |val (Lane.mul m (Lane.div s p)) - Y| ≤ 21/10^6 * Y + 2^(-150:ℤ) := by
  obtain ⟨p0, e0⟩ := scaled_err hQ hS ep (by norm_num [ulp2])
  rw [hX] at e0
  have hp0 : val p ≠ 0 := fun h => by rw [h, div_zero] at p0; exact lt_irrefl _ p0
  have r : Rounds (val s / val p) (Lane.div s p).bits := div_rounds P fs fp hp0
  rw [vs] at r
  refine fin_neg1 r p0 hY e0 hX1 hX2 fun fa => ?_
  have q : Rounds (val m * val (Lane.div s p)) (Lane.mul m (Lane.div s p)).bits := mul_rounds P hm fa
  rwa [vm] at q
theorem floor_split (v : ℝ) (n : ℤ) : (2:ℝ)^(n + (127:ℕ) - 127) * (2:ℝ)^(v - n) = (2:ℝ)^v := by
  rw [pow_split v n]; congr 2; push_cast; ring
theorem floor_split1 (v : ℝ) (n : ℤ) : (2:ℝ)^(n + (253:ℕ) - 127) * (2:ℝ)^(v - n) = (2:ℝ)^(v + 126) := by
  rw [pow_split (v + 126) (n + 126)]; congr 2 <;> push_cast <;> ring
theorem min_normal : Fin' (lit 0x00800000#32 : F32 P) ∧ val (lit 0x00800000#32 : F32 P) = 2^(-126:ℤ) := by
  refine ⟨lit_fin (by decide), ?_⟩
  rw [lit_val (n := 2^23) (by decide +kernel)]; push_cast; norm_num

theorem pow_25 {v : ℝ} (h : -150 < v) : (2:ℝ)^(-25:ℤ) ≤ (2:ℝ)^(v + 126) := by
  rw [← Real.rpow_intCast]; exact Real.rpow_le_rpow_of_exponent_le (by norm_num) (by push_cast; linarith)
theorem pow_126 (v : ℝ) : (2:ℝ)^v = (2:ℝ)^(v + 126) * 2^(-126:ℤ) := by
  rw [← Real.rpow_intCast, ← Real.rpow_add (by norm_num)]; congr 1; push_cast; ring

theorem r0_pos (c : Cfg) {x : F32 P} (h0 : 0 ≤ val x) (h1 : val x < 128) : Fin' (r0L c x) ∧ |val (r0L c x) - (2:ℝ)^(val x)| ≤ 2^(-20:ℤ) * (2:ℝ)^(val x) := by
  obtain ⟨hk, fy, vy⟩ := yL_exact (x := x) (by rw [abs_le]; constructor <;> linarith)
  have ht : truncZ (val x) = ⌊val x⌋ := if_pos h0
  rw [ht] at hk vy
  have hn0 : 0 ≤ ⌊val x⌋ := Int.floor_nonneg.2 h0
  have hn1 : ⌊val x⌋ < 128 := Int.floor_lt.2 (by exact_mod_cast h1)
  obtain ⟨fs, vs⟩ := shl_k (d := 127#32) (k := 127) hk (by decide) (by omega) (by omega)
  obtain ⟨fp, ep⟩ := poly_pos c fy (by rw [vy]; linarith [Int.floor_le (val x)]) (by rw [vy]; linarith [Int.lt_floor_add_one (val x)])
  rw [vy] at ep
  have hX1 : (1:ℝ) ≤ (2:ℝ)^(val x) := Real.one_le_rpow (by norm_num) h0
  unfold r0L
  exact core_pos (floor_split _ _) fs vs fp (Real.rpow_pos_of_pos (by norm_num) _) (zpow_pos (by norm_num) _) ep hX1 (pow_below (below128 h1))

theorem r0_neg (c : Cfg) {x : F32 P} (h0 : val x ≤ 0) (h1 : -127 < val x) : Fin' (r0L c x) ∧
    |val (r0L c x) - (2:ℝ)^(val x)| ≤ 21/10^6 * (2:ℝ)^(val x) + 2^(-150:ℤ) := by
  obtain ⟨hk, fy, vy⟩ := yL_exact (x := x) (by rw [abs_le]; constructor <;> linarith)
  have ht : truncZ (val x) = ⌈val x⌉ := trunc_ceil h0
  rw [ht] at hk vy
  have hn0 : ⌈val x⌉ ≤ 0 := Int.ceil_le.2 (by exact_mod_cast h0)
  have hn1 : -127 < ⌈val x⌉ := Int.lt_ceil.2 (by exact_mod_cast h1)
  obtain ⟨fs, vs⟩ := shl_k (d := 127#32) (k := 127) hk (by decide) (by omega) (by omega)
  obtain ⟨fp, ep⟩ := poly_neg c fy (by rw [vy]; linarith [Int.le_ceil (val x)]) (by rw [vy]; linarith [Int.ceil_lt_add_one (val x)])
  rw [vy] at ep
  have hX1 : (2:ℝ)^(val x) ≤ 1 := Real.rpow_le_one_of_one_le_of_nonpos (by norm_num) h0
  unfold r0L
  exact core_neg (floor_split _ _) fs vs fp (Real.rpow_pos_of_pos (by norm_num) _) (zpow_pos (by norm_num) _) ep hX1

theorem r1_neg (c : Cfg) {x : F32 P} (h0 : val x ≤ -127) (h1 : -150 < val x) : Fin' (r1L c x) ∧ |val (r1L c x) - (2:ℝ)^(val x)| ≤ 21/10^6 * (2:ℝ)^(val x) + 2^(-150:ℤ) := by
  obtain ⟨hk, fy, vy⟩ := yL_exact (x := x) (by rw [abs_le]; constructor <;> linarith)
  have ht : truncZ (val x) = ⌈val x⌉ := trunc_ceil (by linarith)
  rw [ht] at hk vy
  have hn0 : ⌈val x⌉ ≤ -127 := Int.ceil_le.2 (by exact_mod_cast h0)
  have hn1 : -150 < ⌈val x⌉ := Int.lt_ceil.2 (by exact_mod_cast h1)
  obtain ⟨fs, vs⟩ := shl_k (d := 253#32) (k := 253) hk (by decide) (by omega) (by omega)
  obtain ⟨fp, ep⟩ := poly_neg c fy (by rw [vy]; linarith [Int.le_ceil (val x)]) (by rw [vy]; linarith [Int.ceil_lt_add_one (val x)])
  rw [vy] at ep
  have hX1 : (2:ℝ)^(val x + 126) ≤ 1 := Real.rpow_le_one_of_one_le_of_nonpos (by norm_num) (by linarith)
  have hX2 := pow_25 (v := val x) (by linarith)
  have hY := pow_126 (val x)
  unfold r1L
  exact core_neg1 (floor_split1 _ _) fs vs fp (Real.rpow_pos_of_pos (by norm_num) _) (zpow_pos (by norm_num) _) ep hY hX1 hX2 min_normal.1 min_normal.2
end DXM
