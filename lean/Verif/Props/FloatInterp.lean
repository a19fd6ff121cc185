import Verif.Lemmas.VRel
import Verif.Lemmas.FMono
import Verif.Lemmas.ExpLane
import Verif.Props.FloatRot
import Verif.Props.Vector2

/-
C119: interpolation on binary32 lanes (interpretation I): error bounds, the ends of the parameter range, monotonicity.
-/

set_option linter.all false

namespace DXM.Props
open DXM.Spec DXM.FErr DXM.IEEE DXM.E
variable {P : Env}

/-! ### lane forms -/

/-- One lane of a multiply-add: fused in the builds with fused multiply-add instructions. -/
def fmL (c : Cfg) (a b d : F32 P) : F32 P := if c.sse && c.fma then Lane.fma a b d else Lane.add (Lane.mul a b) d
theorem madd_fmL (c : Cfg) (A B D : V4 (F32 P)) (i : Fin 4) : (XMVectorMultiplyAdd c A B D).lane i = fmL c (A.lane i) (B.lane i) (D.lane i) := by
  cases h : c.sse <;> cases h' : c.fma <;> fin_cases i <;> simp [XMVectorMultiplyAdd, SSE.fmadd, fmL, h, h', V4.lane, V4.map2, V4.map3, SSE.add, SSE.mul]
theorem fmadd_fmL (c : Cfg) (h : c.sse = true) (A B D : V4 (F32 P)) (i : Fin 4) : (SSE.fmadd c A B D).lane i = fmL c (A.lane i) (B.lane i) (D.lane i) := by
  cases h' : c.fma <;> fin_cases i <;> simp [SSE.fmadd, fmL, h, h', V4.lane, V4.map2, V4.map3, SSE.add, SSE.mul]
theorem fmL_ap (c : Cfg) {a b d : F32 P} {v w z M N K : ℝ} {j k l : ℕ} (ha : Ap a v M j) (hb : Ap b w N k) (hd : Ap d z K l) (hM : M ≤ 2^127) (hN : N ≤ 2^127) :
    Ap (fmL c a b d) (v * w + z) (M * N + K + tiny) (max (j + k + 1) l + 1) := by
  unfold fmL; split_ifs
  · exact Ap.le (Ap.fma ha hb hd hM hN) rfl le_rfl (by omega)
  · exact Ap.le (Ap.add (Ap.mul ha hb hM hN) hd) rfl (by linarith) le_rfl
theorem lerp_lane (c : Cfg) (A B : V4 (F32 P)) (t : F32 P) (i : Fin 4) : (XMVectorLerp c A B t).lane i = fmL c (Lane.sub (B.lane i) (A.lane i)) t (A.lane i) := by
  unfold XMVectorLerp; split_ifs with h
  · rw [fmadd_fmL c h]; fin_cases i <;> rfl
  · rw [madd_fmL]; fin_cases i <;> rfl
theorem lerpV_lane (c : Cfg) (A B T : V4 (F32 P)) (i : Fin 4) : (XMVectorLerpV c A B T).lane i = fmL c (Lane.sub (B.lane i) (A.lane i)) (T.lane i) (A.lane i) := by
  unfold XMVectorLerpV; split_ifs with h
  · rw [fmadd_fmL c h]; fin_cases i <;> rfl
  · rw [madd_fmL]; fin_cases i <;> rfl
theorem bary_lane (c : Cfg) (A B D : V4 (F32 P)) (f g : F32 P) (i : Fin 4) :
    (XMVectorBaryCentric c A B D f g).lane i = fmL c (Lane.sub (D.lane i) (A.lane i)) g (fmL c (Lane.sub (B.lane i) (A.lane i)) f (A.lane i)) := by
  unfold XMVectorBaryCentric; split_ifs with h
  · simp only [fmadd_fmL c h]; fin_cases i <;> rfl
  · simp only [madd_fmL]; fin_cases i <;> rfl
theorem baryV_lane (c : Cfg) (A B D F G : V4 (F32 P)) (i : Fin 4) :
    (XMVectorBaryCentricV c A B D F G).lane i = fmL c (Lane.sub (D.lane i) (A.lane i)) (G.lane i) (fmL c (Lane.sub (B.lane i) (A.lane i)) (F.lane i) (A.lane i)) := by
  unfold XMVectorBaryCentricV; split_ifs with h
  · simp only [fmadd_fmL c h]; fin_cases i <;> rfl
  · simp only [madd_fmL]; fin_cases i <;> rfl

/-! ### linear interpolation and barycentric coordinates: per-component bounds -/

theorem lerp_ap (c : Cfg) {a b t : F32 P} (ha : Fin' a) (hb : Fin' b) (ht : Fin' t) (h1 : |val a| ≤ 2^126) (h2 : |val b| ≤ 2^126) (h3 : |val t| ≤ 2^127) :
    Ap (fmL c (Lane.sub b a) t a) (val a + (val b - val a) * val t) (|val a| + (|val a| + |val b|) * |val t| + tiny) 3 := by
  refine Ap.le (fmL_ap c (Ap.sub (leaf hb) (leaf ha)) (leaf ht) (leaf ha) (by norm_num at h1 h2 ⊢; linarith) h3) (by ring) ?_ (by norm_num)
  rw [add_comm |val b|]; linarith
/-- C119: linear interpolation, one parameter for all components: three roundings. -/
theorem C119_lerp (c : Cfg) (A B : V4 (F32 P)) (t : F32 P) (i : Fin 4) (hA : IsFinite (A.lane i).bits) (hB : IsFinite (B.lane i).bits) (ht : IsFinite t.bits)
    (bA : |vals A i| ≤ 2^126) (bB : |vals B i| ≤ 2^126) (bt : |value t.bits| ≤ 2^127) :
    Spec.Near ((XMVectorLerp c A B t).lane i).bits (vals A i + (vals B i - vals A i) * value t.bits)
      (|vals A i| + (|vals A i| + |vals B i|) * |value t.bits| + tiny) 3 := by
  rw [lerp_lane]; exact Ap.near (lerp_ap c hA hB ht bA bB bt) (by norm_num)
/-- C119: linear interpolation, one parameter for each component. -/
theorem C119_lerpV (c : Cfg) (A B T : V4 (F32 P)) (i : Fin 4) (hA : IsFinite (A.lane i).bits) (hB : IsFinite (B.lane i).bits) (ht : IsFinite (T.lane i).bits)
    (bA : |vals A i| ≤ 2^126) (bB : |vals B i| ≤ 2^126) (bt : |vals T i| ≤ 2^127) :
    Spec.Near ((XMVectorLerpV c A B T).lane i).bits (vals A i + (vals B i - vals A i) * vals T i)
      (|vals A i| + (|vals A i| + |vals B i|) * |vals T i| + tiny) 3 := by
  rw [lerpV_lane]; exact Ap.near (lerp_ap c hA hB ht bA bB bt) (by norm_num)
theorem bary_ap (c : Cfg) {a b d f g : F32 P} (ha : Fin' a) (hb : Fin' b) (hd : Fin' d) (hf : Fin' f) (hg : Fin' g) (h1 : |val a| ≤ 2^126) (h2 : |val b| ≤ 2^126) (h3 : |val d| ≤ 2^126)
    (h4 : |val f| ≤ 2^127) (h5 : |val g| ≤ 2^127) :
    Ap (fmL c (Lane.sub d a) g (fmL c (Lane.sub b a) f a)) (val a + (val b - val a) * val f + (val d - val a) * val g)
      (|val a| + (|val a| + |val b|) * |val f| + (|val a| + |val d|) * |val g| + 2 * tiny) 4 := by
  refine Ap.le (fmL_ap c (Ap.sub (leaf hd) (leaf ha)) (leaf hg) (lerp_ap c ha hb hf h1 h2 h4) (by norm_num at h1 h3 ⊢; linarith) h5) (by ring) ?_ (by norm_num)
  rw [add_comm |val d|]; linarith
/-- C119: the point with given barycentric coordinates: four roundings. -/
theorem C119_baryCentric (c : Cfg) (A B D : V4 (F32 P)) (f g : F32 P) (i : Fin 4) (hA : IsFinite (A.lane i).bits) (hB : IsFinite (B.lane i).bits) (hD : IsFinite (D.lane i).bits)
    (hf : IsFinite f.bits) (hg : IsFinite g.bits) (bA : |vals A i| ≤ 2^126) (bB : |vals B i| ≤ 2^126) (bD : |vals D i| ≤ 2^126) (bf : |value f.bits| ≤ 2^127) (bg : |value g.bits| ≤ 2^127) :
    Spec.Near ((XMVectorBaryCentric c A B D f g).lane i).bits (vals A i + (vals B i - vals A i) * value f.bits + (vals D i - vals A i) * value g.bits)
      (|vals A i| + (|vals A i| + |vals B i|) * |value f.bits| + (|vals A i| + |vals D i|) * |value g.bits| + 2 * tiny) 4 := by
  rw [bary_lane]; exact Ap.near (bary_ap c hA hB hD hf hg bA bB bD bf bg) (by norm_num)
/-- C119: the same with coordinates chosen per component. -/
theorem C119_baryCentricV (c : Cfg) (A B D F G : V4 (F32 P)) (i : Fin 4) (hA : IsFinite (A.lane i).bits) (hB : IsFinite (B.lane i).bits) (hD : IsFinite (D.lane i).bits)
    (hf : IsFinite (F.lane i).bits) (hg : IsFinite (G.lane i).bits) (bA : |vals A i| ≤ 2^126) (bB : |vals B i| ≤ 2^126) (bD : |vals D i| ≤ 2^126) (bf : |vals F i| ≤ 2^127) (bg : |vals G i| ≤ 2^127) :
    Spec.Near ((XMVectorBaryCentricV c A B D F G).lane i).bits (vals A i + (vals B i - vals A i) * vals F i + (vals D i - vals A i) * vals G i)
      (|vals A i| + (|vals A i| + |vals B i|) * |vals F i| + (|vals A i| + |vals D i|) * |vals G i| + 2 * tiny) 4 := by
  rw [baryV_lane]; exact Ap.near (bary_ap c hA hB hD hf hg bA bB bD bf bg) (by norm_num)

/-! ### the ends of the parameter range, and monotonicity -/

/-- Finite patterns of equal value are equal, or zeros. -/
theorem value_inj {a b : BitVec 32} (h : value a = value b) : a = b ∨ value a = 0 ∧ value b = 0 := by
  by_cases hz : value b = 0
  · exact Or.inr ⟨h.trans hz, hz⟩
  · left
    have hz' : value a ≠ 0 := h ▸ hz
    rw [value_eq, value_eq, mul_left_inj' (by positivity)] at h
    rw [value_eq] at hz hz'
    have h' : ival a = ival b := by exact_mod_cast h
    have za : ival a ≠ 0 := fun e => hz' (by rw [e]; simp)
    have zb : ival b ≠ 0 := fun e => hz (by rw [e]; simp)
    have m : sg a = sg b ∧ mag a = mag b := by
      unfold ival at h' za zb
      cases e1 : sg a <;> cases e2 : sg b <;> simp only [e1, e2, if_true, if_false] at h' za zb ⊢ <;> simp_all <;> omega
    exact ext_am m.1 (magN_strictMono.injective m.2)

/-- Rounding is monotone; of equal numbers, when one pattern is rounded or the number is representable. -/
theorem rounds_mono' {x y : ℝ} {r s : BitVec 32} (hr : Rounds x r) (hs : Rounds y s) (h : x < y ∨ r = s ∨ ∃ e, IsFinite e ∧ x = value e ∧ y = value e) : evalue r ≤ evalue s := by
  rcases h with h | h | ⟨e, h1, h2, h3⟩
  · exact rounds_mono h hr hs
  · rw [h]
  · rw [h2] at hr; rw [h3] at hs
    obtain ⟨f1, v1⟩ := rounds_exact h1 hr; obtain ⟨f2, v2⟩ := rounds_exact h1 hs
    rw [evalue_finite f1, evalue_finite f2, v1, v2]
theorem val_zero : value 0#32 = 0 := by simp [value, expField, fracField]
theorem fin_le {r s : BitVec 32} (h1 : IsFinite r) (h2 : IsFinite s) (h : evalue r ≤ evalue s) : value r ≤ value s := by
  rwa [evalue_finite h1, evalue_finite h2, EReal.coe_le_coe_iff] at h

/-- A multiply-add with non-negative first factor is monotone in the second. -/
theorem fmL_mono (c : Cfg) {d t t' a : F32 P} (hd : Fin' d) (ht : Fin' t) (ht' : Fin' t') (ha : Fin' a) (hp : Fin' (Lane.mul d t)) (hp' : Fin' (Lane.mul d t'))
    (h : val d * val t ≤ val d * val t') : evalue (fmL c d t a).bits ≤ evalue (fmL c d t' a).bits := by
  -- equal products are products of equal patterns, or zero
  have eqc : val d * val t = val d * val t' → t = t' ∨ (val d * val t = 0 ∧ val d * val t' = 0) := by
    intro e
    by_cases hz : val d = 0
    · right; rw [hz]; simp
    · rcases value_inj (mul_left_cancel₀ hz e) with e | ⟨e1, e2⟩
      · exact Or.inl e
      · right; constructor
        · show val d * value t.bits = 0; rw [e1, mul_zero]
        · show val d * value t'.bits = 0; rw [e2, mul_zero]
  unfold fmL; split_ifs
  · refine rounds_mono' (fma_rounds P hd ht ha) (fma_rounds P hd ht' ha) ?_
    rcases h.lt_or_eq with h | h
    · left; exact add_lt_add_left h _
    · rcases eqc h with e | ⟨e1, e2⟩
      · right; left; rw [e]
      · right; right
        refine ⟨a.bits, ha, ?_, ?_⟩
        · show val d * val t + val a = val a; rw [e1, zero_add]
        · show val d * val t' + val a = val a; rw [e2, zero_add]
  · have hm : val (Lane.mul d t) ≤ val (Lane.mul d t') := by
      refine fin_le hp hp' (rounds_mono' (mul_rounds P hd ht) (mul_rounds P hd ht') ?_)
      rcases h.lt_or_eq with h | h
      · left; exact h
      · rcases eqc h with e | ⟨e1, e2⟩
        · right; left; rw [e]
        · right; right
          exact ⟨0#32, by decide, e1.trans val_zero.symm, e2.trans val_zero.symm⟩
    refine rounds_mono' (add_rounds P hp ha) (add_rounds P hp' ha) ?_
    rcases hm.lt_or_eq with h | h
    · left; exact add_lt_add_left h _
    · rcases value_inj h with e | ⟨e1, e2⟩
      · right; left
        have e : Lane.mul d t = Lane.mul d t' := e
        rw [e]
      · right; right
        refine ⟨a.bits, ha, ?_, ?_⟩
        · show value (Lane.mul d t).bits + value a.bits = _; rw [e1, zero_add]
        · show value (Lane.mul d t').bits + value a.bits = _; rw [e2, zero_add]

theorem gam1I : gam 1 ≤ 1/10 := by unfold gam ulp2; norm_num
theorem gam3I : gam 3 ≤ 1/10 := by unfold gam ulp2; norm_num
/-- The difference, the product and the result are finite; the difference has the sign of the exact one. -/
theorem lerp_fin (c : Cfg) {a b t : F32 P} (ha : Fin' a) (hb : Fin' b) (ht : Fin' t) (h1 : |val a| ≤ 2^125) (h2 : |val b| ≤ 2^125) (h3 : |val t| ≤ 1) :
    Fin' (Lane.sub b a) ∧ Fin' (Lane.mul (Lane.sub b a) t) ∧ Fin' (fmL c (Lane.sub b a) t a) := by
  have t1 : tiny ≤ 1 := by unfold tiny; norm_num
  have d := Ap.sub (leaf hb) (leaf ha)
  have m := Ap.mul d (leaf ht) (by norm_num at h1 h2 ⊢; linarith) (h3.trans (by norm_num))
  have l := lerp_ap c ha hb ht (h1.trans (by norm_num)) (h2.trans (by norm_num)) (h3.trans (by norm_num))
  have q : (|val b| + |val a|) * |val t| ≤ |val b| + |val a| := mul_le_of_le_one_right (by positivity) h3
  refine ⟨((d (by norm_num)).2.2 ?_).1, ((m (by norm_num)).2.2 ?_).1, ((l (by norm_num)).2.2 ?_).1⟩
  · norm_num at h1 h2 ⊢; linarith
  · norm_num at h1 h2 ⊢; linarith
  · rw [add_comm |val a| |val b|]; norm_num at h1 h2 ⊢; linarith
theorem sub_sign {a b : F32 P} (ha : Fin' a) (hb : Fin' b) (hd : Fin' (Lane.sub b a)) : (val a ≤ val b → 0 ≤ val (Lane.sub b a)) ∧ (val b ≤ val a → val (Lane.sub b a) ≤ 0) := by
  have r : Rounds (val b - val a) (Lane.sub b a).bits := sub_rounds P hb ha
  constructor
  · intro h
    have := le_rounds r (e := 0#32) (by decide) (by rw [val_zero]; linarith)
    rw [evalue_finite hd, EReal.coe_le_coe_iff, val_zero] at this; exact this
  · intro h
    have := rounds_le r (e := 0#32) (by decide) (by rw [val_zero]; linarith)
    rw [evalue_finite hd, EReal.coe_le_coe_iff, val_zero] at this; exact this

/-- C119: linear interpolation is monotone in the parameter, rounding included: a larger parameter never gives a result further back. -/
theorem C119_lerp_mono (c : Cfg) (A B : V4 (F32 P)) (t t' : F32 P) (i : Fin 4) (hA : IsFinite (A.lane i).bits) (hB : IsFinite (B.lane i).bits) (ht : IsFinite t.bits) (ht' : IsFinite t'.bits)
    (bA : |vals A i| ≤ 2^125) (bB : |vals B i| ≤ 2^125) (bt : |value t.bits| ≤ 1) (bt' : |value t'.bits| ≤ 1) (h : value t.bits ≤ value t'.bits) :
    (vals A i ≤ vals B i → vals (XMVectorLerp c A B t) i ≤ vals (XMVectorLerp c A B t') i) ∧
    (vals B i ≤ vals A i → vals (XMVectorLerp c A B t') i ≤ vals (XMVectorLerp c A B t) i) := by
  obtain ⟨f1, f2, f3⟩ := lerp_fin c (P := P) hA hB ht bA bB bt
  obtain ⟨g1, g2, g3⟩ := lerp_fin c (P := P) hA hB ht' bA bB bt'
  obtain ⟨s1, s2⟩ := sub_sign (P := P) hA hB f1
  unfold vals
  rw [lerp_lane, lerp_lane]
  constructor
  · intro hab
    exact fin_le f3 g3 (fmL_mono c f1 ht ht' hA f2 g2 (mul_le_mul_of_nonneg_left h (s1 hab)))
  · intro hab
    exact fin_le g3 f3 (fmL_mono c f1 ht' ht hA g2 f2 (mul_le_mul_of_nonpos_left h (s2 hab)))

theorem fmL_zero (c : Cfg) {d t a : F32 P} (hd : Fin' d) (ht : Fin' t) (ha : Fin' a) (h0 : val t = 0) : Fin' (fmL c d t a) ∧ val (fmL c d t a) = val a := by
  unfold fmL; split_ifs
  · have r := fma_rounds P hd ht ha
    have e : value d + 0 = value d := add_zero _
    rw [show value t.bits = 0 from h0, mul_zero, zero_add] at r
    exact rounds_exact ha r
  · have m := mul_rounds P hd ht
    rw [show value t.bits = 0 from h0, mul_zero, ← val_zero] at m
    obtain ⟨f, v⟩ := rounds_exact (by decide) m
    have r := add_rounds P f ha
    rw [v, val_zero, zero_add] at r
    exact rounds_exact ha r
/-- C119: at parameter zero, of either sign, the result is the first point exactly. -/
theorem C119_lerp_zero (c : Cfg) (A B : V4 (F32 P)) (t : F32 P) (i : Fin 4) (hA : IsFinite (A.lane i).bits) (hB : IsFinite (B.lane i).bits)
    (bA : |vals A i| ≤ 2^125) (bB : |vals B i| ≤ 2^125) (ht : IsFinite t.bits) (h0 : value t.bits = 0) :
    IsFinite ((XMVectorLerp c A B t).lane i).bits ∧ vals (XMVectorLerp c A B t) i = vals A i := by
  obtain ⟨f1, f2, f3⟩ := lerp_fin c (P := P) hA hB ht bA bB (by show |value t.bits| ≤ 1; rw [h0]; norm_num)
  unfold vals
  rw [lerp_lane]
  exact fmL_zero c f1 ht hA h0
/-- C119: so, from parameter zero on, the result never falls behind the first point. -/
theorem C119_lerp_above (c : Cfg) (A B : V4 (F32 P)) (t : F32 P) (i : Fin 4) (hA : IsFinite (A.lane i).bits) (hB : IsFinite (B.lane i).bits) (ht : IsFinite t.bits)
    (bA : |vals A i| ≤ 2^125) (bB : |vals B i| ≤ 2^125) (bt : 0 ≤ value t.bits) (bt' : value t.bits ≤ 1) :
    (vals A i ≤ vals B i → vals A i ≤ vals (XMVectorLerp c A B t) i) ∧ (vals B i ≤ vals A i → vals (XMVectorLerp c A B t) i ≤ vals A i) := by
  have h := C119_lerp_mono c A B (F32.ofBV 0#32) t i hA hB (by show IsFinite 0#32; decide) ht bA bB (by show |value 0#32| ≤ 1; rw [val_zero]; norm_num)
    (abs_le.2 ⟨by linarith, bt'⟩) (by show value 0#32 ≤ _; rw [val_zero]; exact bt)
  rwa [(C119_lerp_zero c A B (F32.ofBV 0#32) i hA hB bA bB (by show IsFinite 0#32; decide) val_zero).2] at h
theorem w_flags : IEEE.isNaN 0x30800000#32 = false ∧ IEEE.isInf 0x30800000#32 = false ∧ IEEE.isNaN 0x3F800000#32 = false ∧ IEEE.isInf 0x3F800000#32 = false ∧
    IEEE.isNaN 0xBF800000#32 = false ∧ IEEE.isInf 0xBF800000#32 = false := by decide
theorem w_sub' : IEEE.sub P 0x30800000#32 0x3F800000#32 = 0xBF800000#32 := by
  obtain ⟨z1, z2, z3, z4, z5, z6⟩ := w_flags
  unfold IEEE.sub IEEE.addCore
  rw [show IEEE.neg 0x3F800000#32 = 0xBF800000#32 by decide]
  simp only [z1, z2, z3, z4, z5, z6, Bool.or_false, Bool.false_eq_true, if_false]
  decide +kernel
theorem w_mul' : IEEE.mul P 0xBF800000#32 0x3F800000#32 = 0xBF800000#32 := by
  obtain ⟨z1, z2, z3, z4, z5, z6⟩ := w_flags
  unfold IEEE.mul
  simp only [z1, z2, z3, z4, z5, z6, Bool.or_false, Bool.false_eq_true, if_false]
  decide +kernel
theorem w_add' : IEEE.add P 0xBF800000#32 0x3F800000#32 = 0#32 := by
  obtain ⟨z1, z2, z3, z4, z5, z6⟩ := w_flags
  unfold IEEE.add IEEE.addCore
  simp only [z1, z2, z3, z4, z5, z6, Bool.or_false, Bool.false_eq_true, if_false]
  decide +kernel
theorem w_fma' : IEEE.fma P 0xBF800000#32 0x3F800000#32 0x3F800000#32 = 0#32 := by
  obtain ⟨z1, z2, z3, z4, z5, z6⟩ := w_flags
  unfold IEEE.fma IEEE.fmaCore
  simp only [z1, z2, z3, z4, z5, z6, Bool.or_false, Bool.false_eq_true, if_false]
  decide +kernel
theorem w_sub : (Lane.sub (F32.ofBV 0x30800000#32) (F32.ofBV 0x3F800000#32) : F32 P) = F32.ofBV 0xBF800000#32 := w_sub'
theorem w_fm (c : Cfg) : fmL c (F32.ofBV 0xBF800000#32 : F32 P) (F32.ofBV 0x3F800000#32) (F32.ofBV 0x3F800000#32) = F32.ofBV 0#32 := by
  unfold fmL; split_ifs
  · exact w_fma'
  · have e : (Lane.mul (F32.ofBV 0xBF800000#32) (F32.ofBV 0x3F800000#32) : F32 P) = F32.ofBV 0xBF800000#32 := w_mul'
    rw [e]; exact w_add'
/-- C119: at parameter one the result need not be the second point: from 1 to 2⁻³⁰ the end of the interpolation is 0, in every build. -/
theorem C119_lerp_one (c : Cfg) (i : Fin 4) :
    ((XMVectorLerp c (V4.splat (F32.ofBV 0x3F800000#32 : F32 P)) (V4.splat (F32.ofBV 0x30800000#32)) (F32.ofBV 0x3F800000#32)).lane i).bits = 0#32 ∧
    value 0x3F800000#32 = 1 ∧ value 0x30800000#32 = 1/2^30 ∧ value 0#32 = 0 := by
  refine ⟨?_, value_one, ?_, val_zero⟩
  · rw [lerp_lane]
    have e1 : ∀ a : F32 P, (V4.splat a).lane i = a := fun a => by fin_cases i <;> rfl
    rw [e1, e1, w_sub, w_fm]; rfl
  · have e1 : signBit 0x30800000#32 = false := by decide
    have e2 : expField 0x30800000#32 = 97 := by decide
    have e3 : fracField 0x30800000#32 = 0 := by decide
    unfold value; rw [e1, e2, e3]; norm_num
/-- C119 (cases meeting the hypotheses): interpolating (3, −2, 1.5, 1) to (1.5, 1, 3, −2) halfway, and from −2 up to 1. -/
example (c : Cfg) : vals (XMVectorLerp c (exV : V4 (F32 P)) (SSE.perm exV 1 0 3 2) (F32.ofBV 0#32)) 1 ≤ vals (XMVectorLerp c (exV : V4 (F32 P)) (SSE.perm exV 1 0 3 2) (F32.ofBV 0x3F800000#32)) 1 := by
  obtain ⟨e0, e1, e2, e3⟩ := exV_vals (P := P)
  have p1 : vals (SSE.perm (exV : V4 (F32 P)) 1 0 3 2) 1 = 1 := e3
  exact (C119_lerp_mono c exV _ (F32.ofBV 0#32) (F32.ofBV 0x3F800000#32) 1 (exV_fin 4 1 (by decide)) (exV_fin 4 3 (by decide)) (by show IsFinite 0#32; decide) (by show IsFinite 0x3F800000#32; decide)
    (by rw [e1]; norm_num) (by rw [p1]; norm_num) (by show |value 0#32| ≤ 1; rw [val_zero]; norm_num) (by show |value 0x3F800000#32| ≤ 1; rw [value_one]; norm_num)
    (by show value 0#32 ≤ value 0x3F800000#32; rw [val_zero, value_one]; norm_num)).1 (by rw [e1, p1]; norm_num)
example (c : Cfg) : IsFinite ((XMVectorLerp c (exV : V4 (F32 P)) (SSE.perm exV 1 0 3 2) (F32.ofBV 0x3F000000#32)).lane 1).bits ∧
    |vals (XMVectorLerp c (exV : V4 (F32 P)) (SSE.perm exV 1 0 3 2) (F32.ofBV 0x3F000000#32)) 1 - (-1/2)| ≤ 1/10^6 := by
  obtain ⟨e0, e1, e2, e3⟩ := exV_vals (P := P)
  have p1 : vals (SSE.perm (exV : V4 (F32 P)) 1 0 3 2) 1 = 1 := e3
  have hh : value (F32.ofBV 0x3F000000#32 : F32 P).bits = 1/2 := half_value
  have h := C119_lerp c exV (SSE.perm exV 1 0 3 2) (F32.ofBV 0x3F000000#32 : F32 P) 1 (exV_fin 4 1 (by decide)) (exV_fin 4 3 (by decide)) (by show IsFinite 0x3F000000#32; decide)
    (by rw [e1]; norm_num) (by rw [p1]; norm_num) (by rw [hh]; norm_num)
  rw [e1, p1, hh] at h
  obtain ⟨a, b⟩ := h (by unfold tiny; norm_num)
  refine ⟨a, ?_⟩
  have : (-2 + (1 - -2) * (1/2) : ℝ) = -1/2 := by norm_num
  rw [this] at b
  exact b.trans (by unfold gam ulp2 tiny; norm_num)
/-! ### literals -/

theorem ra_of {b : BitVec 32} (n : ℤ) (v M : ℝ) (hf : IsFinite b) (hv : IEEE.ival b = n) (h : (n:ℝ) * 2^(-149:ℤ) = v) (hE : (Lane.ofBits b : E) = num v) (hM : |v| = M) :
    RAp (Lane.ofBits b : F32 P) (Lane.ofBits b : E) M 0 := by
  have e : value b = v := by rw [value_eq, hv, h]
  refine ⟨v, hE, ?_⟩
  have := leafB (P := P) (x := Lane.ofBits b) (C := M) hf (by show |value b| ≤ M; rw [e, hM])
  rwa [show val (Lane.ofBits b : F32 P) = v from e] at this
theorem ra_c0 : RAp (Lane.c0 : F32 P) (Lane.c0 : E) 0 0 := ⟨0, by simp, zeroAp⟩
theorem ra_c1 : RAp (Lane.c1 : F32 P) (Lane.c1 : E) 1 0 :=
  ra_of (P := P) (b := 0x3F800000#32) (2^149) 1 1 (by decide) (by decide +kernel) (by norm_num) (by simp) (by norm_num)
theorem ra_c2 : RAp (Lane.c2 : F32 P) (Lane.c2 : E) 2 0 :=
  ra_of (P := P) (b := 0x40000000#32) (2^150) 2 2 (by decide) (by decide +kernel) (by norm_num) (by simp) (by norm_num)
theorem ra_c3 : RAp (c3 : F32 P) (c3 : E) 3 0 :=
  ra_of (P := P) (b := 0x40400000#32) (3*2^149) 3 3 (by decide) (by decide +kernel) (by norm_num) (by simp) (by norm_num)
theorem ra_c4 : RAp (c4 : F32 P) (c4 : E) 4 0 :=
  ra_of (P := P) (b := 0x40800000#32) (4*2^149) 4 4 (by decide) (by decide +kernel) (by norm_num) (by simp) (by norm_num)
theorem ra_c5 : RAp (c5 : F32 P) (c5 : E) 5 0 :=
  ra_of (P := P) (b := 0x40A00000#32) (5*2^149) 5 5 (by decide) (by decide +kernel) (by norm_num) (by simp) (by norm_num)
theorem ra_cNeg2 : RAp (cNeg2 : F32 P) (cNeg2 : E) 2 0 :=
  ra_of (P := P) (b := 0xC0000000#32) (-2*2^149) (-2) 2 (by decide) (by decide +kernel) (by norm_num) (by simp) (by norm_num)
theorem ra_cNeg3 : RAp (cNeg3 : F32 P) (cNeg3 : E) 3 0 :=
  ra_of (P := P) (b := 0xC0400000#32) (-3*2^149) (-3) 3 (by decide) (by decide +kernel) (by norm_num) (by simp) (by norm_num)
theorem ra_cNeg1 : RAp (Lane.cNeg1 : F32 P) (Lane.cNeg1 : E) 1 0 :=
  ra_of (P := P) (b := 0xBF800000#32) (-1*2^149) (-1) 1 (by decide) (by decide +kernel) (by norm_num) (by simp) (by norm_num)
theorem ra_cHalf : RAp (Lane.cHalf : F32 P) (Lane.cHalf : E) (1/2) 0 :=
  ra_of (P := P) (b := 0x3F000000#32) (2^148) (1/2) (1/2) (by decide) (by decide +kernel) (by norm_num) (by simp) (by norm_num)
theorem VR.splat {a : F32 P} {x : E} {M : ℝ} {k : ℕ} (h : RAp a x M k) : VR (V4.splat a) (V4.splat x) M k := VR.mk h h h h
theorem VR.ident0 : VR (g_XMIdentityR0 : V4 (F32 P)) (g_XMIdentityR0 : V4 E) 1 0 :=
  VR.mk ra_c1 (ra_c0.le (by norm_num) le_rfl) (ra_c0.le (by norm_num) le_rfl) (ra_c0.le (by norm_num) le_rfl)
theorem VR.maskY {A : V4 (F32 P)} {X : V4 E} {M : ℝ} {k : ℕ} (hM : 0 ≤ M) (h : VR A X M k) : VR (SSE.and A g_XMMaskY) (SSE.and X g_XMMaskY) M k := by
  simp only [SSE.and, g_XMMaskY, V4.map2, LawfulLane.band_zero_right, LawfulLane.band_ones_right]
  exact VR.mk (ra_c0.le hM (Nat.zero_le _)) (h 1) (ra_c0.le hM (Nat.zero_le _)) (ra_c0.le hM (Nat.zero_le _))

/-- The rules for one lane, with numeric magnitudes. -/
macro "ran" : tactic => `(tactic| ((repeat' with_reducible first
  | assumption | exact ra_c0 | exact ra_c1 | exact ra_c2 | exact ra_c3 | exact ra_c4 | exact ra_c5 | exact ra_cNeg1 | exact ra_cNeg2 | exact ra_cNeg3 | exact ra_cHalf
  | apply RAp.add | apply RAp.sub | apply RAp.mul) <;> (norm_num [tiny])))

/-! ### the Hermite weights for parameters in [-1, 1] -/
section hermite
variable {t t2 t3 : F32 P} {s s2 s3 : E}
theorem hP0 (h2 : RAp t2 s2 (1001/1000) 1) (h3 : RAp t3 s3 (1002/1000) 2) : RAp (hermiteP0 t2 t3) (hermiteP0 s2 s3) (602/100) 5 := by
  unfold hermiteP0; exact RAp.le (by ran) (by norm_num [tiny]) (by norm_num)
theorem hT0 (h : RAp t s 1 0) (h2 : RAp t2 s2 (1001/1000) 1) (h3 : RAp t3 s3 (1002/1000) 2) : RAp (hermiteT0 t t2 t3) (hermiteT0 s s2 s3) (402/100) 5 := by
  unfold hermiteT0; exact RAp.le (by ran) (by norm_num [tiny]) (by norm_num)
theorem hP1 (h2 : RAp t2 s2 (1001/1000) 1) (h3 : RAp t3 s3 (1002/1000) 2) : RAp (hermiteP1 t2 t3) (hermiteP1 s2 s3) (502/100) 5 := by
  unfold hermiteP1; exact RAp.le (by ran) (by norm_num [tiny]) (by norm_num)
theorem hT1 (h2 : RAp t2 s2 (1001/1000) 1) (h3 : RAp t3 s3 (1002/1000) 2) : RAp (hermiteT1 t2 t3) (hermiteT1 s2 s3) (202/100) 5 := by
  unfold hermiteT1; exact RAp.le (by ran) (by norm_num [tiny]) (by norm_num)
theorem tsq (h : RAp t s 1 0) : RAp (Lane.mul t t) (Lane.mul s s) (1001/1000) 1 := RAp.le (by ran) (by norm_num [tiny]) (by norm_num)
theorem tcu (h : RAp t s 1 0) : RAp (Lane.mul t (Lane.mul t t)) (Lane.mul s (Lane.mul s s)) (1002/1000) 2 := by
  have h2 := tsq h
  exact RAp.le (by ran) (by norm_num [tiny]) (by norm_num)
end hermite

theorem leaf4 {A : V4 (F32 P)} {B : ℝ} (h : Fins 4 A) (hb : ∀ i, |vals A i| ≤ B) : VR A (vec4 (vals A)) B 0 := by
  intro i
  exact ⟨vals A i, by fin_cases i <;> rfl, leafB (h i i.isLt) (hb i)⟩
/-- The four weighted points. -/
theorem hermite_sum (c : Cfg) {p0 t0 p1 t1 w0 w1 w2 w3 : V4 (F32 P)} {x0 y0 x1 y1 v0 v1 v2 v3 : V4 E} {B : ℝ} (hB : B ≤ 2^120)
    (h0 : VR p0 x0 B 0) (h1 : VR t0 y0 B 0) (h2 : VR p1 x1 B 0) (h3 : VR t1 y1 B 0)
    (g0 : VR w0 v0 (602/100) 5) (g1 : VR w1 v1 (402/100) 5) (g2 : VR w2 v2 (502/100) 5) (g3 : VR w3 v3 (202/100) 5) :
    VR (SSE.fmadd c t1 w3 (SSE.fmadd c p1 w2 (SSE.fmadd c t0 w1 (SSE.mul w0 p0)))) (SSE.fmadd c y1 v3 (SSE.fmadd c x1 v2 (SSE.fmadd c y0 v1 (SSE.mul v0 x0)))) (1708/100 * B + 4 * tiny) 9 ∧
    VR (SSE.fmadd c w3 t1 (SSE.fmadd c w2 p1 (SSE.fmadd c w1 t0 (SSE.mul w0 p0)))) (SSE.fmadd c v3 y1 (SSE.fmadd c v2 x1 (SSE.fmadd c v1 y0 (SSE.mul v0 x0)))) (1708/100 * B + 4 * tiny) 9 ∧
    VR (XMVectorMultiplyAdd c w3 t1 (XMVectorMultiplyAdd c w2 p1 (XMVectorMultiplyAdd c w1 t0 (XMVectorMultiply w0 p0))))
      (XMVectorMultiplyAdd c v3 y1 (XMVectorMultiplyAdd c v2 x1 (XMVectorMultiplyAdd c v1 y0 (XMVectorMultiply v0 x0)))) (1708/100 * B + 4 * tiny) 9 := by
  have hB' : B ≤ 2^127 := hB.trans (by norm_num)
  refine ⟨VR.le (VR.fmadd c h3 g3 (VR.fmadd c h2 g2 (VR.fmadd c h1 g1 (VR.mul g0 h0 (by norm_num) hB') hB' (by norm_num)) hB' (by norm_num)) hB' (by norm_num)) (by linarith) (by norm_num),
    VR.le (VR.fmadd c g3 h3 (VR.fmadd c g2 h2 (VR.fmadd c g1 h1 (VR.mul g0 h0 (by norm_num) hB') (by norm_num) hB') (by norm_num) hB') (by norm_num) hB') (by linarith) (by norm_num),
    VR.le (VR.madd c g3 h3 (VR.madd c g2 h2 (VR.madd c g1 h1 (VR.mul' g0 h0 (by norm_num) hB') (by norm_num) hB') (by norm_num) hB') (by norm_num) hB') (by linarith) (by norm_num)⟩


theorem vr_close {A : V4 (F32 P)} {f : Fin 4 → ℝ} {B C : ℝ} {k : ℕ} (hB : B ≤ 2^120) (hB0 : 0 ≤ B) (hC0 : 0 ≤ C) (hC : C ≤ 100) (hk : k ≤ 10) (h : VR A (vec4 f) (C * B + 6 * tiny) k) (i : Fin 4) :
    FClose (A.lane i).bits (f i) (6/10^7 * C * B + tiny) := by
  obtain ⟨v, e, a⟩ := h i
  have e' : f i = v := by
    have : (vec4 f).lane i = num (f i) := by fin_cases i <;> rfl
    rw [this] at e; simpa using e
  have t1 : tiny ≤ 1 := by unfold tiny; norm_num
  have t0 : 0 ≤ tiny := by unfold tiny; norm_num
  have g1 : gam k ≤ 6/10^7 := (gam_mono hk (by norm_num)).trans (by unfold gam ulp2; norm_num)
  have cb : C * B ≤ 100 * 2^120 := mul_le_mul hC hB hB0 (by norm_num)
  refine Ap.fclose a (by omega) (by norm_num at cb ⊢; linarith) e'.symm ?_
  refine (mul_le_mul_of_nonneg_right g1 (by positivity)).trans ?_
  linarith
theorem FClose.le {r : BitVec 32} {t e e' : ℝ} (h : FClose r t e) (he : e ≤ e') : FClose r t e' := ⟨h.1, h.2.trans he⟩
theorem tiny0 : 0 ≤ tiny := by unfold tiny; norm_num
/-- C119: the cubic Hermite curve, for parameters in [-1, 1] and points and tangents of magnitude at most `B`. -/
theorem C119_hermite (c : Cfg) (p0 t0 p1 t1 : V4 (F32 P)) (t : F32 P) (B : ℝ) (h0 : Fins 4 p0) (h1 : Fins 4 t0) (h2 : Fins 4 p1) (h3 : Fins 4 t1) (ht : IsFinite t.bits)
    (b0 : ∀ i, |vals p0 i| ≤ B) (b1 : ∀ i, |vals t0 i| ≤ B) (b2 : ∀ i, |vals p1 i| ≤ B) (b3 : ∀ i, |vals t1 i| ≤ B) (hB : B ≤ 2^120) (bt : |value t.bits| ≤ 1) (i : Fin 4) :
    let s := value t.bits
    FClose ((XMVectorHermite c p0 t0 p1 t1 t).lane i).bits (h00 s * vals p0 i + h10 s * vals t0 i + h01 s * vals p1 i + h11 s * vals t1 i) (11/10^6 * B + tiny) := by
  intro s
  have r : RAp t (num s) 1 0 := ⟨s, rfl, leafB ht bt⟩
  have r2 := tsq r; have r3 := tcu r
  have hh := hermite_sum c hB (leaf4 h0 b0) (leaf4 h1 b1) (leaf4 h2 b2) (leaf4 h3 b3) (VR.splat (hP0 r2 r3)) (VR.splat (hT0 r r2 r3)) (VR.splat (hP1 r2 r3)) (VR.splat (hT1 r2 r3))
  have key : VR (XMVectorHermite c p0 t0 p1 t1 t) (XMVectorHermite c (vec4 (vals p0)) (vec4 (vals t0)) (vec4 (vals p1)) (vec4 (vals t1)) (num s)) (1708/100 * B + 4 * tiny) 9 := by
    unfold XMVectorHermite; split_ifs
    · exact hh.1
    · exact hh.2.2
  rw [C34_hermite] at key
  have B0 := (abs_nonneg _).trans (b0 0)
  exact FClose.le (vr_close (C := 1708/100) hB B0 (by norm_num) (by norm_num) (by norm_num) (key.le (by linarith [tiny0, (abs_nonneg _).trans (b0 0)]) le_rfl) i) (by linarith)
/-- C119: the vector form takes the parameter of each of the four weights from one component of `T`. -/
theorem C119_hermiteV (c : Cfg) (p0 t0 p1 t1 T : V4 (F32 P)) (B : ℝ) (h0 : Fins 4 p0) (h1 : Fins 4 t0) (h2 : Fins 4 p1) (h3 : Fins 4 t1) (ht : Fins 4 T)
    (b0 : ∀ i, |vals p0 i| ≤ B) (b1 : ∀ i, |vals t0 i| ≤ B) (b2 : ∀ i, |vals p1 i| ≤ B) (b3 : ∀ i, |vals t1 i| ≤ B) (hB : B ≤ 2^120) (bt : ∀ i, |vals T i| ≤ 1) (i : Fin 4) :
    FClose ((XMVectorHermiteV c p0 t0 p1 t1 T).lane i).bits (h00 (vals T 0) * vals p0 i + h10 (vals T 1) * vals t0 i + h01 (vals T 2) * vals p1 i + h11 (vals T 3) * vals t1 i)
      (17/10^6 * B + tiny) := by
  have r := leaf4 ht bt
  have l0 := leaf4 h0 b0; have l1 := leaf4 h1 b1; have l2 := leaf4 h2 b2; have l3 := leaf4 h3 b3
  have hB' : B ≤ 2^127 := hB.trans (by norm_num)
  have key : VR (XMVectorHermiteV c p0 t0 p1 t1 T) (XMVectorHermiteV c (vec4 (vals p0)) (vec4 (vals t0)) (vec4 (vals p1)) (vec4 (vals t1)) (vec4 (vals T))) (2804/100 * B + 6 * tiny) 10 := by
    unfold XMVectorHermiteV; split_ifs
    · have k2 : VR (⟨cNeg3, cNeg2, c3, Lane.cNeg1⟩ : V4 (F32 P)) (⟨cNeg3, cNeg2, c3, Lane.cNeg1⟩ : V4 E) 3 0 :=
        VR.mk ra_cNeg3 (ra_cNeg2.le (by norm_num) le_rfl) ra_c3 (ra_cNeg1.le (by norm_num) le_rfl)
      have k3 : VR (⟨Lane.c2, Lane.c1, cNeg2, Lane.c1⟩ : V4 (F32 P)) (⟨Lane.c2, Lane.c1, cNeg2, Lane.c1⟩ : V4 E) 2 0 :=
        VR.mk ra_c2 (ra_c1.le (by norm_num) le_rfl) ra_cNeg2 (ra_c1.le (by norm_num) le_rfl)
      have s2 := VR.mul r r (by norm_num) (by norm_num)
      have s3 := VR.mul r s2 (by norm_num) (by norm_num [tiny])
      have w := VR.add (VR.add (VR.fmadd c s3 k3 (VR.mul s2 k2 (by norm_num [tiny]) (by norm_num)) (by norm_num [tiny]) (by norm_num)) (VR.maskY (by norm_num) r)) VR.ident0
      have w := VR.le w (M' := 701/100) (j' := 6) (by norm_num [tiny]) (by norm_num)
      refine VR.le (VR.fmadd c (VR.perm w 3 3 3 3) l3 (VR.fmadd c (VR.perm w 2 2 2 2) l2 (VR.fmadd c (VR.perm w 1 1 1 1) l1 (VR.mul (VR.perm w 0 0 0 0) l0 (by norm_num) hB') (by norm_num) hB') (by norm_num) hB') (by norm_num) hB') ?_ (by norm_num)
      linarith [tiny0, (abs_nonneg _).trans (b0 0)]
    · exact (hermite_sum c hB l0 l1 l2 l3 (VR.splat (hP0 (tsq (r 0)) (tcu (r 0)))) (VR.splat (hT0 (r 1) (tsq (r 1)) (tcu (r 1)))) (VR.splat (hP1 (tsq (r 2)) (tcu (r 2)))) (VR.splat (hT1 (tsq (r 3)) (tcu (r 3))))).2.2.le (by linarith [tiny0, (abs_nonneg _).trans (b0 0)]) (by norm_num)
  rw [C34_hermiteV] at key
  have B0 := (abs_nonneg _).trans (b0 0)
  exact FClose.le (vr_close hB B0 (by norm_num) (by norm_num) (by norm_num) key i) (by linarith)

/-! ### Catmull-Rom -/

theorem RAp.neg {a : F32 P} {x : E} {M : ℝ} {k : ℕ} (h : RAp a x M k) : RAp (Lane.neg a) (Lane.neg x) M k := by
  obtain ⟨v, e, a⟩ := h
  exact ⟨-v, by rw [e]; simp, Ap.neg a⟩
/-- The rules for one lane, negation included. -/
macro "ranN" : tactic => `(tactic| ((repeat' with_reducible first
  | assumption | exact ra_c0 | exact ra_c1 | exact ra_c2 | exact ra_c3 | exact ra_c4 | exact ra_c5 | exact ra_cNeg1 | exact ra_cNeg2 | exact ra_cNeg3 | exact ra_cHalf
  | apply RAp.add | apply RAp.sub | apply RAp.mul | apply RAp.neg) <;> (norm_num [tiny])))

theorem catmull_lane {f p0 p1 p2 p3 : F32 P} {s x0 x1 x2 x3 : E} {B : ℝ} (hB : B ≤ 2^120) (h : RAp f s 1 0) (h0 : RAp p0 x0 B 0) (h1 : RAp p1 x1 B 0) (h2 : RAp p2 x2 B 0) (h3 : RAp p3 x3 B 0) :
    RAp (catmullLane f p0 p1 p2 p3) (catmullLane s x0 x1 x2 x3) (1202/100 * B + 6 * tiny) 10 := by
  have hB' : B ≤ 2^127 := hB.trans (by norm_num)
  unfold catmullLane
  refine RAp.le (RAp.mul ra_cHalf (RAp.add (RAp.add (RAp.add (RAp.mul (M := 401/100) (j := 5) (RAp.le (by ranN) (by norm_num [tiny]) (by norm_num)) h0 (by norm_num) hB')
    (RAp.mul (M := 1001/100) (j := 5) (RAp.le (by ranN) (by norm_num [tiny]) (by norm_num)) h1 (by norm_num) hB')) (RAp.mul (M := 801/100) (j := 5) (RAp.le (by ranN) (by norm_num [tiny]) (by norm_num)) h2 (by norm_num) hB'))
    (RAp.mul (M := 201/100) (j := 5) (RAp.le (by ranN) (by norm_num [tiny]) (by norm_num)) h3 (by norm_num) hB')) (by norm_num) ?_) ?_ (by norm_num)
  · have : tiny ≤ 1 := by unfold tiny; norm_num
    norm_num at hB ⊢; linarith
  · have : 0 ≤ B := by obtain ⟨v, e, a⟩ := h0; exact (abs_nonneg v).trans (a (by norm_num)).1
    linarith [tiny0]
/-- C119: the Catmull-Rom curve, for parameters in [-1, 1] and points of magnitude at most `B`. -/
theorem C119_catmullRom (c : Cfg) (p0 p1 p2 p3 : V4 (F32 P)) (t : F32 P) (B : ℝ) (h0 : Fins 4 p0) (h1 : Fins 4 p1) (h2 : Fins 4 p2) (h3 : Fins 4 p3) (ht : IsFinite t.bits)
    (b0 : ∀ i, |vals p0 i| ≤ B) (b1 : ∀ i, |vals p1 i| ≤ B) (b2 : ∀ i, |vals p2 i| ≤ B) (b3 : ∀ i, |vals p3 i| ≤ B) (hB : B ≤ 2^120) (bt : |value t.bits| ≤ 1) (i : Fin 4) :
    let s := value t.bits
    FClose ((XMVectorCatmullRom c p0 p1 p2 p3 t).lane i).bits (cr0 s * vals p0 i + cr1 s * vals p1 i + cr2 s * vals p2 i + cr3 s * vals p3 i) (8/10^6 * B + tiny) := by
  intro s
  have r : RAp t (num s) 1 0 := ⟨s, rfl, leafB ht bt⟩
  have r2 := tsq r; have r3 := tcu r
  have l0 := leaf4 h0 b0; have l1 := leaf4 h1 b1; have l2 := leaf4 h2 b2; have l3 := leaf4 h3 b3
  have hB' : B ≤ 2^127 := hB.trans (by norm_num)
  have key : VR (XMVectorCatmullRom c p0 p1 p2 p3 t) (XMVectorCatmullRom c (vec4 (vals p0)) (vec4 (vals p1)) (vec4 (vals p2)) (vec4 (vals p3)) (num s)) (1208/100 * B + 6 * tiny) 10 := by
    have w0 := VR.splat (RAp.le (M' := 201/100) (j' := 6) (show RAp (Lane.mul (Lane.sub (Lane.add (Lane.neg (Lane.mul t (Lane.mul t t))) (Lane.mul Lane.c2 (Lane.mul t t))) t) Lane.cHalf) (Lane.mul (Lane.sub (Lane.add (Lane.neg (Lane.mul (num s) (Lane.mul (num s) (num s)))) (Lane.mul Lane.c2 (Lane.mul (num s) (num s)))) (num s)) Lane.cHalf) _ _ by ranN) (by norm_num [tiny]) (by norm_num))
    have w1 := VR.splat (RAp.le (M' := 502/100) (j' := 6) (show RAp (Lane.mul (Lane.add (Lane.sub (Lane.mul c3 (Lane.mul t (Lane.mul t t))) (Lane.mul c5 (Lane.mul t t))) Lane.c2) Lane.cHalf) (Lane.mul (Lane.add (Lane.sub (Lane.mul c3 (Lane.mul (num s) (Lane.mul (num s) (num s)))) (Lane.mul c5 (Lane.mul (num s) (num s)))) Lane.c2) Lane.cHalf) _ _ by ranN) (by norm_num [tiny]) (by norm_num))
    have w2 := VR.splat (RAp.le (M' := 402/100) (j' := 6) (show RAp (Lane.mul (Lane.add (Lane.add (Lane.mul cNeg3 (Lane.mul t (Lane.mul t t))) (Lane.mul c4 (Lane.mul t t))) t) Lane.cHalf) (Lane.mul (Lane.add (Lane.add (Lane.mul cNeg3 (Lane.mul (num s) (Lane.mul (num s) (num s)))) (Lane.mul c4 (Lane.mul (num s) (num s)))) (num s)) Lane.cHalf) _ _ by ranN) (by norm_num [tiny]) (by norm_num))
    have w3 := VR.splat (RAp.le (M' := 101/100) (j' := 6) (show RAp (Lane.mul (Lane.sub (Lane.mul t (Lane.mul t t)) (Lane.mul t t)) Lane.cHalf) (Lane.mul (Lane.sub (Lane.mul (num s) (Lane.mul (num s) (num s))) (Lane.mul (num s) (num s))) Lane.cHalf) _ _ by ranN) (by norm_num [tiny]) (by norm_num))
    unfold XMVectorCatmullRom; split_ifs
    · exact VR.le (VR.add (VR.fmadd c l0 w0 (VR.mul l1 w1 hB' (by norm_num)) hB' (by norm_num)) (VR.fmadd c l2 w2 (VR.mul l3 w3 hB' (by norm_num)) hB' (by norm_num))) (by linarith [tiny0, (abs_nonneg _).trans (b0 0)]) (by norm_num)
    · exact VR.le (VR.madd c w3 l3 (VR.madd c w2 l2 (VR.madd c w1 l1 (VR.mul' w0 l0 (by norm_num) hB') (by norm_num) hB') (by norm_num) hB') (by norm_num) hB') (by linarith [tiny0, (abs_nonneg _).trans (b0 0)]) (by norm_num)
  rw [C34_catmullRom] at key
  have B0 := (abs_nonneg _).trans (b0 0)
  exact FClose.le (vr_close hB B0 (by norm_num) (by norm_num) (by norm_num) key i) (by linarith)
/-- C119: the vector form, one parameter for each component. -/
theorem C119_catmullRomV (c : Cfg) (p0 p1 p2 p3 T : V4 (F32 P)) (B : ℝ) (h0 : Fins 4 p0) (h1 : Fins 4 p1) (h2 : Fins 4 p2) (h3 : Fins 4 p3) (ht : Fins 4 T)
    (b0 : ∀ i, |vals p0 i| ≤ B) (b1 : ∀ i, |vals p1 i| ≤ B) (b2 : ∀ i, |vals p2 i| ≤ B) (b3 : ∀ i, |vals p3 i| ≤ B) (hB : B ≤ 2^120) (bt : ∀ i, |vals T i| ≤ 1) (i : Fin 4) :
    let s := vals T i
    FClose ((XMVectorCatmullRomV c p0 p1 p2 p3 T).lane i).bits (cr0 s * vals p0 i + cr1 s * vals p1 i + cr2 s * vals p2 i + cr3 s * vals p3 i) (8/10^6 * B + tiny) := by
  intro s
  have r := leaf4 ht bt
  have l0 := leaf4 h0 b0; have l1 := leaf4 h1 b1; have l2 := leaf4 h2 b2; have l3 := leaf4 h3 b3
  have hB' : B ≤ 2^127 := hB.trans (by norm_num)
  have key : VR (XMVectorCatmullRomV c p0 p1 p2 p3 T) (XMVectorCatmullRomV c (vec4 (vals p0)) (vec4 (vals p1)) (vec4 (vals p2)) (vec4 (vals p3)) (vec4 (vals T))) (1208/100 * B + 6 * tiny) 10 := by
    unfold XMVectorCatmullRomV; split_ifs
    · have s2 := VR.le (VR.mul r r (by norm_num) (by norm_num)) (M' := 1001/1000) (j' := 1) (by norm_num [tiny]) (by norm_num)
      have s3 := VR.le (VR.mul r s2 (by norm_num) (by norm_num)) (M' := 1002/1000) (j' := 2) (by norm_num [tiny]) (by norm_num)
      have w0 := VR.le (VR.sub (VR.sub (VR.add s2 s2) r) s3) (M' := 401/100) (j' := 4) (by norm_num [tiny]) (by norm_num)
      have w1 := VR.le (VR.add (VR.fnmadd c s2 (VR.splat ra_c5) (VR.mul s3 (VR.splat ra_c3) (by norm_num) (by norm_num)) (by norm_num) (by norm_num)) (VR.splat ra_c2)) (M' := 1002/100) (j' := 5) (by norm_num [tiny]) (by norm_num)
      have w2 := VR.le (VR.add (VR.fnmadd c s3 (VR.splat ra_c3) (VR.mul s2 (VR.splat ra_c4) (by norm_num) (by norm_num)) (by norm_num) (by norm_num)) r) (M' := 802/100) (j' := 5) (by norm_num [tiny]) (by norm_num)
      have w3 := VR.le (VR.sub s3 s2) (M' := 201/100) (j' := 3) (by norm_num [tiny]) (by norm_num)
      have hf : VR (g_XMOneHalf : V4 (F32 P)) (g_XMOneHalf : V4 E) (1/2) 0 := VR.splat ra_cHalf
      refine VR.le (VR.mul (VR.fmadd c w3 l3 (VR.fmadd c w2 l2 (VR.fmadd c w1 l1 (VR.mul w0 l0 (by norm_num) hB') (by norm_num) hB') (by norm_num) hB') (by norm_num) hB') hf ?_ (by norm_num)) ?_ (by norm_num)
      · have : tiny ≤ 1 := by unfold tiny; norm_num
        norm_num at hB ⊢; linarith
      · linarith [tiny0, (abs_nonneg _).trans (b0 0)]
    · have q := fun i => RAp.le (catmull_lane hB (r i) (l0 i) (l1 i) (l2 i) (l3 i)) (M' := 1208/100 * B + 6 * tiny) (j' := 10) (by linarith [(abs_nonneg _).trans (b0 0)]) le_rfl
      exact VR.mk (q 0) (q 1) (q 2) (q 3)
  rw [C34_catmullRomV] at key
  have B0 := (abs_nonneg _).trans (b0 0)
  exact FClose.le (vr_close hB B0 (by norm_num) (by norm_num) (by norm_num) key i) (by linarith)

/-- C119 (a case meeting the hypotheses): the middle of a curve through points up to 3. -/
example (c : Cfg) (i : Fin 4) : FClose ((XMVectorHermite c (exV : V4 (F32 P)) exV exV exV (F32.ofBV 0x3F000000#32)).lane i).bits
    (h00 (1/2) * vals (exV : V4 (F32 P)) i + h10 (1/2) * vals (exV : V4 (F32 P)) i + h01 (1/2) * vals (exV : V4 (F32 P)) i + h11 (1/2) * vals (exV : V4 (F32 P)) i) (11/10^6 * 3 + tiny) := by
  have b : ∀ i, |vals (exV : V4 (F32 P)) i| ≤ 3 := by
    obtain ⟨e0, e1, e2, e3⟩ := exV_vals (P := P)
    intro i; fin_cases i
    · show |vals (exV : V4 (F32 P)) 0| ≤ 3; rw [e0]; norm_num
    · show |vals (exV : V4 (F32 P)) 1| ≤ 3; rw [e1]; norm_num
    · show |vals (exV : V4 (F32 P)) 2| ≤ 3; rw [e2]; norm_num [abs_le]
    · show |vals (exV : V4 (F32 P)) 3| ≤ 3; rw [e3]; norm_num
  have hh : value (F32.ofBV 0x3F000000#32 : F32 P).bits = 1/2 := half_value
  have h := C119_hermite c (exV : V4 (F32 P)) exV exV exV (F32.ofBV 0x3F000000#32) 3 (exV_fin 4) (exV_fin 4) (exV_fin 4) (exV_fin 4) (by show IsFinite 0x3F000000#32; decide) b b b b (by norm_num)
    (by rw [hh]; norm_num [abs_le]) i
  rwa [hh] at h
end DXM.Props
