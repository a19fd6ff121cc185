import Verif.Props.Squad
import Verif.Props.Convert
import Verif.Lemmas.ExpLane

/-
C108, C109: what fails without intrinsics (XMVectorSplatConstant(-1, 2) and (1, 16) are infinite there), and the vector form of
barycentric interpolation.
-/

set_option linter.all false

namespace DXM.Props
open DXM.IEEE DXM.F32 DXM.Spec DXM.E

variable {P : Env}

theorem nf_iff (a : BitVec 32) : ¬ IsFinite a ↔ IEEE.isNaN a = true ∨ IEEE.isInf a = true := by
  rw [finite_iff']; cases IEEE.isNaN a <;> cases IEEE.isInf a <;> simp
theorem nf_qnan (op : ℕ) (a b d : BitVec 32) : ¬ IsFinite (qnan P op a b d) := by
  rw [nf_iff, isNaN_iff]; left; exact isNaN_qnan P op a b d
theorem nf_inf (s : Bool) : ¬ IsFinite (mk s 0x7F800000) := by cases s <;> decide
theorem nf_mul {a b : BitVec 32} (h : ¬ IsFinite a ∨ ¬ IsFinite b) : ¬ IsFinite (IEEE.mul P a b) := by
  rw [nf_iff, nf_iff] at h
  unfold IEEE.mul
  split_ifs with h1 h2 h3
  · exact nf_qnan _ _ _ _
  · exact nf_qnan _ _ _ _
  · exact nf_inf _
  · simp at h1 h2; rcases h with (h | h) | (h | h) <;> simp_all
theorem nf_core {op : ℕ} {a b : BitVec 32} (h : ¬ IsFinite a ∨ ¬ IsFinite b) (h1 : ¬ (IEEE.isNaN a || IEEE.isNaN b) = true) : ¬ IsFinite (addCore P op a b) := by
  have hh := h
  rw [nf_iff, nf_iff] at hh
  unfold addCore
  split_ifs with h2 h3 h4
  · exact nf_qnan _ _ _ _
  · rw [nf_iff]; exact Or.inr h2
  · rw [nf_iff]; exact Or.inr h4
  · simp at h1 h2 h4; rcases hh with (h | h) | (h | h) <;> simp_all
theorem nf_add {a b : BitVec 32} (h : ¬ IsFinite a ∨ ¬ IsFinite b) : ¬ IsFinite (IEEE.add P a b) := by
  unfold IEEE.add
  split_ifs with h1
  · exact nf_qnan _ _ _ _
  · exact nf_core h h1
theorem nf_sub {a b : BitVec 32} (h : ¬ IsFinite a ∨ ¬ IsFinite b) : ¬ IsFinite (IEEE.sub P a b) := by
  unfold IEEE.sub
  split_ifs with h1
  · exact nf_qnan _ _ _ _
  · refine nf_core (h.imp id (fun h => by rwa [finite_neg])) ?_
    have := am_neg b
    unfold IEEE.isNaN at *; rwa [this]

/-- The constants of the no-intrinsics build. -/
theorem splat_inf (c : Cfg) (hs : c.sse = false) (k : ℕ) (hk : k ≠ 0) (i : Fin 4) :
    ¬ IsFinite ((XMVectorSplatConstant c (-1) k : V4 (F32 P)).lane i).bits ∧ ((XMVectorSplatConstant c 1 k : V4 (F32 P)).lane i).bits = 0x7F800000#32 := by
  constructor
  · unfold XMVectorSplatConstant
    rw [if_neg (by simp [hs]), if_neg hk, V4.lane_splat]
    apply nf_mul; right
    show ¬ IsFinite (IEEE.div P 0x3F800000#32 0#32)
    have b3 : IEEE.mag 0#32 = 0 := by decide
    have a3 : IEEE.mag 0x3F800000#32 ≠ 0 := by decide +kernel
    have a1 : IEEE.isNaN 0x3F800000#32 = false := by decide
    have a2 : IEEE.isInf 0x3F800000#32 = false := by decide
    have b1 : IEEE.isNaN 0#32 = false := by decide
    have b2 : IEEE.isInf 0#32 = false := by decide
    unfold IEEE.div
    simp only [a1, a2, a3, b1, b2, b3, Bool.or_false, Bool.false_eq_true, if_false, if_true]
    decide
  · have h := (C20_splatConstant_fails (P := P) c hs i).1
    have e : (XMVectorSplatConstant c 1 k : V4 (F32 P)) = XMVectorSplatConstant c 1 1 := by
      unfold XMVectorSplatConstant
      rw [if_neg (by simp [hs]), if_neg hk, if_neg (by simp [hs]), if_neg one_ne_zero]
    rw [e]; exact h

theorem sel3 (b : Bool) (A B : F32 P) : Lane.bor (Lane.bandn (Lane.mask b) B) (Lane.band A (Lane.mask b)) = if b then A else B := by
  cases b <;> simp [Lane.mask, LawfulLane.band_ones_right, LawfulLane.band_zero_right, LawfulLane.bandn_ones_left, LawfulLane.bandn_zero_left, LawfulLane.bor_zero_left, LawfulLane.bor_zero_right]

theorem select_x (V1 V2 C : V4 (F32 P)) (b : Bool) (h : C.x = Lane.mask b) : (XMVectorSelect V1 V2 C).x = if b then V2.x else V1.x := by
  show Lane.bor (Lane.bandn C.x V1.x) (Lane.band V2.x C.x) = _
  rw [h, sel3]
theorem near_x (c : Cfg) (hs : c.sse = false) (A B D : V4 (F32 P)) : ∃ b : Bool, (XMVectorNearEqual c A B D).x = Lane.mask b := by
  unfold XMVectorNearEqual
  rw [if_neg (by simp [hs])]
  exact ⟨_, rfl⟩
theorem exp_nf (c : Cfg) (Q : V4 (F32 P)) (hs : c.sse = false) (h : ¬ IsFinite Q.x.bits) : ¬ IsFinite (XMQuaternionExp c Q).x.bits := by
  unfold XMQuaternionExp
  generalize XMVector3Length c Q = L
  generalize XMVectorSinCos c L = sc
  dsimp only
  obtain ⟨b, hb⟩ := near_x c hs L g_XMZero g_XMEpsilon
  have h1 : (g_XMSelect1110 : V4 (F32 P)).x = Lane.mask true := by unfold g_XMSelect1110 Lane.mask; rw [if_pos rfl]
  rw [select_x _ _ _ true h1]
  simp only [if_true]
  rw [select_x _ _ _ b hb]
  cases b
  · simp only [Bool.false_eq_true, if_false]
    have e : ∀ A B : V4 (F32 P), (XMVectorMultiply A B).x.bits = IEEE.mul P A.x.bits B.x.bits := fun _ _ => rfl
    rw [e]; exact nf_mul (Or.inl h)
  · simp only [if_true]; exact h

/-- C108 fails without intrinsics: the constant -1/4 becomes infinite there and for every four quaternions both control points are not finite. -/
theorem C108_squadSetup_fails (c : Cfg) (hs : c.sse = false) (Q0 Q1 Q2 Q3 : V4 (F32 P)) :
    ¬ IsFinite (XMQuaternionSquadSetup c Q0 Q1 Q2 Q3).1.x.bits ∧ ¬ IsFinite (XMQuaternionSquadSetup c Q0 Q1 Q2 Q3).2.1.x.bits := by
  have hm : ∀ (V : V4 (F32 P)), ¬ IsFinite (XMVectorMultiply V (XMVectorSplatConstant c (-1) 2)).x.bits := fun V =>
    nf_mul (Or.inr (splat_inf c hs 2 (by norm_num) 0).1)
  have hq : ∀ (A B : V4 (F32 P)), ¬ IsFinite B.x.bits → ¬ IsFinite (XMQuaternionMultiply c A B).x.bits := by
    intro A B hB
    unfold XMQuaternionMultiply
    rw [if_neg (by simp [hs])]
    exact nf_sub (Or.inl (nf_add (Or.inl (nf_add (Or.inr (nf_mul (Or.inl hB)))))))
  unfold XMQuaternionSquadSetup
  exact ⟨hq _ _ (exp_nf c _ hs (hm _)), hq _ _ (exp_nf c _ hs (hm _))⟩


/-- C109: with intrinsics, the vector form of barycentric interpolation agrees with the scalar form whenever f + g is outside the two forms' (different) cut-offs around 0. -/
theorem C109_baryV_partial (c : Cfg) (hs : c.sse = true) (q0 q1 q2 : Quaternion ℝ) (f g : ℝ) (h : |f + g| < 1/10^5 - 1/10^10 ∨ 1/2^16 < |f + g|) :
    XMQuaternionBaryCentricV c (quat q0) (quat q1) (quat q2) (all f) (all g) = XMQuaternionBaryCentric c (quat q0) (quat q1) (quat q2) (num f) (num g) := by
  have hk : (XMVectorSplatConstant c 1 16 : V4 E) = all (1 / 2^16) := by
    have h2 : ∃ n : ℕ, n < 2^23 ∧ (1 / 2^149 : ℝ) = n / 2^149 := ⟨1, by norm_num, by norm_num⟩
    have hb : (Lane.ofBits 1#32 : E) = num (1 / 2^149) := by
      show E.ofBits 1#32 = _
      simp [E.ofBits, E.valQ]
    have h3 : (Lane.i2f (num (1 / 2^149)) : E) = num 1 := by
      show E.i2f _ = _
      rw [E.i2f, if_pos h2, div_mul_cancel₀ _ (by positivity)]
    have h4 : (Lane.ofBits 0x37800000#32 : E) = num (1 / 2^16) := by
      show E.ofBits _ = _
      simp [E.ofBits, E.valQ]; norm_num
    have h5 : (0x3F800000#32 - BitVec.ofNat 32 (16 * 2^23)) = 0x37800000#32 := by decide
    have h6 : BitVec.ofInt 32 1 = 1#32 := by decide
    unfold XMVectorSplatConstant
    simp only [hs, if_true, h5, h6, hb, h3, h4]
    simp [all]
  have hS : XMVectorAdd (all f) (all g) = (all (f + g) : V4 E) := by simp [all]
  have hB : XMVector4InBounds c (all (f + g)) (all (1 / 2^16) : V4 E) = decide (|f + g| ≤ 1 / 2^16) := by
    simp only [XMVector4InBounds, hs, if_true]
    generalize (1 / 2^16 : ℝ) = e
    rw [show decide (|f + g| ≤ e) = decide (-e ≤ f + g ∧ f + g ≤ e) from decide_eq_decide.2 abs_le]
    by_cases h1 : f + g ≤ e <;> by_cases h2 : -e ≤ f + g <;> simp [all, h1, h2]
  have h0 : XMQuaternionBaryCentricV c (quat q0) (quat q1) (quat q2) (all f) (all g) = if |f + g| ≤ 1 / 2^16 then quat q0 else
      XMQuaternionSlerpV c (XMQuaternionSlerpV c (quat q0) (quat q1) (all (f + g))) (XMQuaternionSlerpV c (quat q0) (quat q2) (all (f + g)))
        (XMVectorMultiply (all g) (XMVectorReciprocal (all (f + g)))) := by
    unfold XMQuaternionBaryCentricV
    simp only [hk, hS, hB, decide_eq_true_eq]
  rw [h0]
  rcases h with h | h
  · rw [if_pos (by norm_num at *; linarith), C60_bary_origin c q0 q1 q2 f g h]
  · have hne : f + g ≠ 0 := by rintro e; rw [e] at h; norm_num at h
    rw [if_neg (not_le.2 h)]
    have hc : ¬ (f + g < 2748779 / 274877906944 ∧ -2748779 / 274877906944 < f + g) := by
      rintro ⟨h1, h2⟩
      have := abs_lt.2 ⟨h2.trans_eq' (by ring), h1⟩
      norm_num at *; linarith
    have hr : XMVectorMultiply (all g) (XMVectorReciprocal (all (f + g))) = (XMVectorReplicate (num (g / (f + g))) : V4 E) := by
      simp [all, div_num _ _ hne, XMVectorReciprocal]
      ring_nf
    rw [hr]
    unfold XMQuaternionBaryCentric
    rw [if_neg]
    · simp [XMQuaternionSlerp, div_num _ _ hne]
    · simp [Lane.gt]; intro h1; by_contra h2; exact hc ⟨h1, by simpa using h2⟩

/-- The hypotheses of `C109_baryV_partial` hold, e.g. for f = 1/2, g = 1/4. -/
example (c : Cfg) (hs : c.sse = true) (q0 q1 q2 : Quaternion ℝ) :
    XMQuaternionBaryCentricV c (quat q0) (quat q1) (quat q2) (all (1/2)) (all (1/4)) = XMQuaternionBaryCentric c (quat q0) (quat q1) (quat q2) (num (1/2)) (num (1/4)) :=
  C109_baryV_partial c hs q0 q1 q2 _ _ (Or.inr (by norm_num [abs_of_pos]))

theorem le_inf {a : BitVec 32} (h : IEEE.isNaN a = false) : IEEE.le a 0x7F800000#32 = true ∧ IEEE.le (IEEE.neg 0x7F800000#32) a = true := by
  have h1 : IEEE.isNaN 0x7F800000#32 = false := by decide
  have h2 : IEEE.isNaN (IEEE.neg 0x7F800000#32) = false := by decide
  have h3 : IEEE.key 0x7F800000#32 = 0x7F800000 := by decide
  have h4 : IEEE.key (IEEE.neg 0x7F800000#32) = -0x7F800000 := by decide
  have h5 : (IEEE.am a : ℤ) ≤ 0x7F800000 := by
    unfold IEEE.isNaN at h; simp at h; exact_mod_cast h
  unfold IEEE.le
  rw [h, h1, h2, h3, h4]
  unfold IEEE.key
  constructor <;> simp <;> split_ifs <;> omega

/-- C109 fails without intrinsics: for every three quaternions and every finite f + g the vector form returns the first quaternion. -/
theorem C109_baryV_fails (c : Cfg) (hs : c.sse = false) (Q0 Q1 Q2 F G : V4 (F32 P)) (h : ∀ i, IsFinite (Lane.add (F.lane i) (G.lane i)).bits) :
    XMQuaternionBaryCentricV c Q0 Q1 Q2 F G = Q0 := by
  have key : ∀ i, Lane.le ((XMVectorAdd F G).lane i) ((XMVectorSplatConstant c 1 16 : V4 (F32 P)).lane i) = true ∧
      Lane.ge ((XMVectorAdd F G).lane i) (Lane.neg ((XMVectorSplatConstant c 1 16 : V4 (F32 P)).lane i)) = true := by
    intro i
    have e := (splat_inf (P := P) c hs 16 (by norm_num) i).2
    have e0 : ((XMVectorAdd F G).lane i).bits = (Lane.add (F.lane i) (G.lane i)).bits := by fin_cases i <;> rfl
    have hf := h i
    rw [← e0, finite_iff'] at hf
    generalize (XMVectorAdd F G).lane i = s at hf
    generalize (XMVectorSplatConstant c 1 16 : V4 (F32 P)).lane i = n at e
    constructor
    · show IEEE.le s.bits n.bits = true
      rw [e]
      exact (le_inf hf.1).1
    · show IEEE.le (IEEE.neg n.bits) s.bits = true
      rw [e]
      exact (le_inf hf.1).2
  unfold XMQuaternionBaryCentricV
  have : XMVector4InBounds c (XMVectorAdd F G) (XMVectorSplatConstant c 1 16 : V4 (F32 P)) = true := by
    unfold XMVector4InBounds
    rw [if_neg (by simp [hs])]
    have k0 := key 0; have k1 := key 1; have k2 := key 2; have k3 := key 3
    simp only [V4.lane] at k0 k1 k2 k3
    simp only [k0, k1, k2, k3, Bool.and_self]
  simp only [this, if_true]

/-- Even at f = 1, g = 0, where the answer should be ±Q1. -/
example (c : Cfg) (hs : c.sse = false) (Q0 Q1 Q2 : V4 (F32 P)) :
    XMQuaternionBaryCentricV c Q0 Q1 Q2 (.splat (F32.ofBV 0x3F800000#32)) (.splat (F32.ofBV 0#32)) = Q0 := by
  refine C109_baryV_fails c hs _ _ _ _ _ fun i => ?_
  rw [V4.lane_splat, V4.lane_splat]
  have e : ∀ a b : BitVec 32, (Lane.add (F32.ofBV a : F32 P) (F32.ofBV b)).bits = IEEE.add P a b := fun _ _ => rfl
  rw [e]
  have h := add_rounds P (show IsFinite 0x3F800000#32 by decide) (show IsFinite 0#32 by decide)
  have h0 : value 0#32 = 0 := by
    rw [value_eq, show IEEE.ival 0#32 = 0 by decide +kernel]; norm_num
  rw [h0, add_zero] at h
  exact (rounds_exact (by decide) h).1

end DXM.Props
