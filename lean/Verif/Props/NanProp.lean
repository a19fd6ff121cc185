import Verif.Props.FloatAtan
import Verif.Props.FloatHyp

/-
C113: a NaN argument gives a NaN result.
-/

set_option linter.all false

namespace DXM.Props
open DXM.Spec DXM.FErr DXM.IEEE DXM.Trig
variable {P : Env}

/-- The lane holds a NaN. -/
def Nn (x : F32 P) : Prop := IsNaN x.bits

theorem nn_add {a b : F32 P} (h : Nn a ∨ Nn b) : Nn (Lane.add a b) := by
  show IsNaN (add P a.bits b.bits); unfold add
  rw [if_pos (by rcases h with h | h <;> simp [(isNaN_iff _).2 h])]; exact isNaN_qnan P 0 _ _ _
theorem nn_sub {a b : F32 P} (h : Nn a ∨ Nn b) : Nn (Lane.sub a b) := by
  show IsNaN (sub P a.bits b.bits); unfold sub
  rw [if_pos (by rcases h with h | h <;> simp [(isNaN_iff _).2 h])]; exact isNaN_qnan P 1 _ _ _
theorem nn_mul {a b : F32 P} (h : Nn a ∨ Nn b) : Nn (Lane.mul a b) := by
  show IsNaN (mul P a.bits b.bits); unfold mul
  rw [if_pos (by rcases h with h | h <;> simp [(isNaN_iff _).2 h])]; exact isNaN_qnan P 2 _ _ _
theorem nn_div {a b : F32 P} (h : Nn a ∨ Nn b) : Nn (Lane.div a b) := by
  show IsNaN (div P a.bits b.bits); unfold div
  rw [if_pos (by rcases h with h | h <;> simp [(isNaN_iff _).2 h])]; exact isNaN_qnan P 3 _ _ _
theorem nn_fma {a b d : F32 P} (h : Nn a ∨ Nn b ∨ Nn d) : Nn (Lane.fma a b d) := by
  show IsNaN (fma P a.bits b.bits d.bits); unfold fma
  rw [if_pos (by rcases h with h | h | h <;> simp [(isNaN_iff _).2 h])]; exact isNaN_qnan P 4 _ _ _
theorem nn_fnma {a b d : F32 P} (h : Nn a ∨ Nn b ∨ Nn d) : Nn (Lane.fnma a b d) := by
  show IsNaN (fnma P a.bits b.bits d.bits); unfold fnma
  rw [if_pos (by rcases h with h | h | h <;> simp [(isNaN_iff _).2 h])]; exact isNaN_qnan P 5 _ _ _
theorem nn_sqrt {a : F32 P} (h : Nn a) : Nn (Lane.sqrt a) := by
  show IsNaN (sqrt P a.bits); unfold IEEE.sqrt
  rw [if_pos ((isNaN_iff _).2 h)]; exact isNaN_qnan P 6 _ _ _
theorem nn_fm (c : Cfg) {a b d : F32 P} (h : Nn a ∨ Nn b ∨ Nn d) : Nn (fm c a b d) := by
  unfold fm; split_ifs
  · exact nn_fma h
  · rcases h with h | h | h
    · exact nn_add (Or.inl (nn_mul (Or.inl h)))
    · exact nn_add (Or.inl (nn_mul (Or.inr h)))
    · exact nn_add (Or.inr h)
theorem nn_fnm (c : Cfg) {a b d : F32 P} (h : Nn a ∨ Nn b ∨ Nn d) : Nn (fnm c a b d) := by
  unfold fnm; split_ifs
  · exact nn_fnma h
  · rcases h with h | h | h
    · exact nn_sub (Or.inr (nn_mul (Or.inl h)))
    · exact nn_sub (Or.inr (nn_mul (Or.inr h)))
    · exact nn_sub (Or.inl h)
theorem nn_neg {a : F32 P} (h : Nn a) : Nn (Lane.neg a) := by
  show IsNaN (IEEE.neg a.bits)
  rw [← isNaN_iff] at *; unfold IEEE.isNaN at *; rw [am_neg]; exact (isNaN_iff _).2 h
theorem nn_abs {a : F32 P} (h : Nn a) : Nn (Lane.abs a) := by
  show IsNaN (IEEE.abs a.bits)
  rw [← isNaN_iff] at *; unfold IEEE.isNaN at *; rw [am_abs]; exact (isNaN_iff _).2 h
theorem nn_lt {a b : F32 P} (h : Nn a ∨ Nn b) : Lane.lt a b = false := by
  show IEEE.lt a.bits b.bits = false
  unfold IEEE.lt; rcases h with h | h <;> simp [(isNaN_iff _).2 h]
theorem nn_le {a b : F32 P} (h : Nn a ∨ Nn b) : Lane.le a b = false := by
  show IEEE.le a.bits b.bits = false
  unfold IEEE.le; rcases h with h | h <;> simp [(isNaN_iff _).2 h]
theorem nn_maxps {a b : F32 P} (h : Nn b) : Nn (Lane.maxps a b) := by
  unfold Lane.maxps; rw [nn_lt (Or.inl h)]; simpa using h

theorem nn_sinPV (c : Cfg) {y : F32 P} (h : Nn y) : Nn (sinPV c y) := nn_fm c (Or.inr (Or.inl h))
theorem nn_cosPV (c : Cfg) {y : F32 P} (h : Nn y) : Nn (cosPV c y) := nn_fm c (Or.inr (Or.inl h))
theorem nn_sinEPV (c : Cfg) {y : F32 P} (h : Nn y) : Nn (sinEPV c y) := nn_fm c (Or.inr (Or.inl h))
theorem nn_cosEPV (c : Cfg) {y : F32 P} (h : Nn y) : Nn (cosEPV c y) := nn_fm c (Or.inr (Or.inl h))
theorem nn_arcPV (c : Cfg) {y : F32 P} (h : Nn y) : Nn (arcPV c y) := nn_fm c (Or.inr (Or.inl h))
theorem nn_arcEPV (c : Cfg) {y : F32 P} (h : Nn y) : Nn (arcEPV c y) := nn_fm c (Or.inr (Or.inl h))
theorem nn_atPV (c : Cfg) {y : F32 P} (h : Nn y) : Nn (atPV c y) := nn_fm c (Or.inr (Or.inl h))
theorem nn_atEPV (c : Cfg) {y : F32 P} (h : Nn y) : Nn (atEPV c y) := nn_fm c (Or.inr (Or.inl h))
theorem nn_sinPS {y : F32 P} (h : Nn y) : Nn (sinPS y) := nn_add (Or.inl (nn_mul (Or.inr h)))
theorem nn_cosPS {y : F32 P} (h : Nn y) : Nn (cosPS y) := nn_add (Or.inl (nn_mul (Or.inr h)))
theorem nn_sinEPS {y : F32 P} (h : Nn y) : Nn (sinEPS y) := nn_add (Or.inl (nn_mul (Or.inr h)))
theorem nn_cosEPS {y : F32 P} (h : Nn y) : Nn (cosEPS y) := nn_add (Or.inl (nn_mul (Or.inr h)))
theorem nn_arcPS {y : F32 P} (h : Nn y) : Nn (arcPS y) := nn_add (Or.inl (nn_mul (Or.inr h)))
theorem nn_arcEPS {y : F32 P} (h : Nn y) : Nn (arcEPS y) := nn_add (Or.inl (nn_mul (Or.inr h)))

theorem trig1_lane (c : Cfg) (V : V4 (F32 P)) (i : Fin 4) : (trigReduce c V).1.lane i = (let x := (XMVectorModAngles c V).lane i; let s := Lane.band x (lit 0x80000000#32)
      if Lane.le (Lane.bandn s x) (lit 0x3FC90FDB#32) then x else Lane.sub (Lane.bor (lit 0x40490FDB#32) s) x) := by
  dsimp only
  rw [← sel1]; unfold trigReduce; dsimp only
  generalize XMVectorModAngles c V = X
  fin_cases i <;> rfl
theorem nn_mod (c : Cfg) {V : V4 (F32 P)} {i : Fin 4} (h : Nn (V.lane i)) : Nn ((XMVectorModAngles c V).lane i) := by
  unfold XMVectorModAngles
  split_ifs with hc
  · dsimp only
    rw [fnmadd_lane]; exact nn_fnm c (Or.inr (Or.inr h))
  · dsimp only
    unfold XMVectorNegativeMultiplySubtract
    rw [if_neg hc]
    have hs : ∀ A B : V4 (F32 P), (SSE.sub A B).lane i = Lane.sub (A.lane i) (B.lane i) := fun A B => by fin_cases i <;> rfl
    rw [hs]; exact nn_sub (Or.inl h)
theorem nn_reduce (c : Cfg) {V : V4 (F32 P)} {i : Fin 4} (h : Nn (V.lane i)) : Nn ((trigReduce c V).1.lane i) := by
  have := nn_mod c h
  rw [trig1_lane]
  dsimp only
  generalize (XMVectorModAngles c V).lane i = x at *
  split_ifs
  · exact this
  · exact nn_sub (Or.inr this)
theorem nn_sreduce {x : F32 P} (h : Nn x) : Nn (scalarReduce x).1 := by
  unfold scalarReduce
  dsimp only
  generalize (Lane.mul XM_2PI (if Lane.ge x Lane.c0 = true then Lane.castI (Lane.add (Lane.mul XM_1DIV2PI x) Lane.cHalf) else Lane.castI (Lane.sub (Lane.mul XM_1DIV2PI x) Lane.cHalf)) : F32 P) = w
  have : Nn (Lane.sub x w) := nn_sub (Or.inl h)
  generalize Lane.sub x w = y at *
  split_ifs
  · exact nn_sub (Or.inr this)
  · exact nn_sub (Or.inr this)
  · exact this

/-- C113: the scalar functions of every build. -/
theorem C113_scalar (x : F32 P) (h : IsNaN x.bits) :
    IsNaN (XMScalarSin x).bits ∧ IsNaN (XMScalarCos x).bits ∧ IsNaN (XMScalarSinCos x).1.bits ∧ IsNaN (XMScalarSinCos x).2.bits ∧
    IsNaN (XMScalarSinEst x).bits ∧ IsNaN (XMScalarCosEst x).bits ∧ IsNaN (XMScalarSinCosEst x).1.bits ∧ IsNaN (XMScalarSinCosEst x).2.bits ∧
    IsNaN (XMScalarACos x).bits ∧ IsNaN (XMScalarASin x).bits ∧ IsNaN (XMScalarACosEst x).bits ∧ IsNaN (XMScalarASinEst x).bits ∧
    IsNaN (XMScalarModAngle x).bits := by
  have r := nn_sreduce (P := P) h
  have q : Nn (Lane.mul (scalarReduce x).1 (scalarReduce x).1) := nn_mul (Or.inl r)
  have s1 : Nn (scalarSinPoly (scalarReduce x).1) := nn_mul (Or.inl (nn_sinPS q))
  have s2 : Nn (scalarSinEstPoly (scalarReduce x).1) := nn_mul (Or.inl (nn_sinEPS q))
  have s3 : Nn (Lane.mul (scalarReduce x).2 (scalarCosPoly (scalarReduce x).1)) := nn_mul (Or.inr (nn_cosPS q))
  have s4 : Nn (Lane.mul (scalarReduce x).2 (scalarCosEstPoly (scalarReduce x).1)) := nn_mul (Or.inr (nn_cosEPS q))
  have a1 : Nn (scalarArcPoly x) := nn_mul (Or.inl (nn_arcPS (nn_abs h)))
  have a2 : Nn (scalarArcEstPoly x) := nn_mul (Or.inl (nn_arcEPS (nn_abs h)))
  have hi : ∀ (b : Bool) (y z : F32 P), Nn y → Nn z → Nn (if b then y else z) := by intro b y z h1 h2; split_ifs; exact h1; exact h2
  refine ⟨s1, s3, s1, s3, s2, s4, s2, s4, hi _ _ _ a1 (nn_sub (Or.inr a1)), hi _ _ _ (nn_sub (Or.inr a1)) (nn_sub (Or.inl a1)), hi _ _ _ a2 (nn_sub (Or.inr a2)), hi _ _ _ (nn_sub (Or.inr a2)) (nn_sub (Or.inl a2)), ?_⟩
  have b1 : Nn (Lane.add x XM_PI) := nn_add (Or.inl h)
  have b2 := nn_abs b1
  unfold XMScalarModAngle
  exact hi _ _ _ (nn_neg (nn_sub (Or.inl (nn_sub (Or.inl b2))))) (nn_sub (Or.inl (nn_sub (Or.inl b2))))

theorem nn_nms (c : Cfg) {A B D : V4 (F32 P)} {i : Fin 4} (h : Nn (A.lane i) ∨ Nn (B.lane i) ∨ Nn (D.lane i)) : Nn ((XMVectorNegativeMultiplySubtract c A B D).lane i) := by
  unfold XMVectorNegativeMultiplySubtract
  split_ifs with hc
  · rw [fnmadd_lane]; exact nn_fnm c h
  · have hs : ∀ A B : V4 (F32 P), (SSE.sub A B).lane i = Lane.sub (A.lane i) (B.lane i) := fun A B => by fin_cases i <;> rfl
    rw [hs, mul_lane]
    rcases h with h | h | h
    · exact nn_sub (Or.inr (nn_mul (Or.inl h)))
    · exact nn_sub (Or.inr (nn_mul (Or.inr h)))
    · exact nn_sub (Or.inl h)
theorem nn_madd (c : Cfg) {A B D : V4 (F32 P)} {i : Fin 4} (h : Nn (A.lane i) ∨ Nn (B.lane i) ∨ Nn (D.lane i)) : Nn ((XMVectorMultiplyAdd c A B D).lane i) := by
  unfold XMVectorMultiplyAdd
  split_ifs with hc
  · rw [fmadd_lane]; exact nn_fm c h
  · have hs : ∀ A B : V4 (F32 P), (SSE.add A B).lane i = Lane.add (A.lane i) (B.lane i) := fun A B => by fin_cases i <;> rfl
    rw [hs, mul_lane]
    rcases h with h | h | h
    · exact nn_add (Or.inl (nn_mul (Or.inl h)))
    · exact nn_add (Or.inl (nn_mul (Or.inr h)))
    · exact nn_add (Or.inr h)
theorem nn_vmul {A B : V4 (F32 P)} {i : Fin 4} (h : Nn (A.lane i) ∨ Nn (B.lane i)) : Nn ((XMVectorMultiply A B).lane i) := by
  unfold XMVectorMultiply; rw [mul_lane]; exact nn_mul h
theorem nn_vdiv {A B : V4 (F32 P)} {i : Fin 4} (h : Nn (A.lane i) ∨ Nn (B.lane i)) : Nn ((XMVectorDivide A B).lane i) := by
  rw [show (XMVectorDivide A B).lane i = Lane.div (A.lane i) (B.lane i) from by fin_cases i <;> rfl]; exact nn_div h
theorem nn_vneg (c : Cfg) {A : V4 (F32 P)} {i : Fin 4} (h : Nn (A.lane i)) : Nn ((XMVectorNegate c A).lane i) := by
  unfold XMVectorNegate
  split_ifs
  · rw [show (SSE.sub SSE.setzero A).lane i = Lane.sub (lit 0#32) (A.lane i) from by fin_cases i <;> rfl]; exact nn_sub (Or.inr h)
  · rw [show (V4.map Lane.neg A).lane i = Lane.neg (A.lane i) from by fin_cases i <;> rfl]; exact nn_neg h
theorem sel_lane (A B C : V4 (F32 P)) (i : Fin 4) : (XMVectorSelect A B C).lane i = Lane.bor (Lane.bandn (C.lane i) (A.lane i)) (Lane.band (B.lane i) (C.lane i)) := by
  fin_cases i <;> rfl
theorem nn_sel {A B C : V4 (F32 P)} {i : Fin 4} {b : Bool} (hC : C.lane i = Lane.mask b) (h1 : Nn (A.lane i)) (h2 : Nn (B.lane i)) : Nn ((XMVectorSelect A B C).lane i) := by
  rw [sel_lane, hC, sel3]; split_ifs; exact h2; exact h1
theorem nn_sel0 {A B C : V4 (F32 P)} {i : Fin 4} (hC : C.lane i = Lane.mask false) (h1 : Nn (A.lane i)) : Nn ((XMVectorSelect A B C).lane i) := by
  rw [sel_lane, hC, sel3]; exact h1

/-- C113: the vector functions of the builds with intrinsics, each lane on its own. -/
theorem C113_vector (c : Cfg) (hc : c.sse = true) (V : V4 (F32 P)) (i : Fin 4) (h : IsNaN (V.lane i).bits) :
    IsNaN ((XMVectorSin c V).lane i).bits ∧ IsNaN ((XMVectorCos c V).lane i).bits ∧ IsNaN ((XMVectorSinCos c V).1.lane i).bits ∧ IsNaN ((XMVectorSinCos c V).2.lane i).bits ∧
    IsNaN ((XMVectorSinEst c V).lane i).bits ∧ IsNaN ((XMVectorCosEst c V).lane i).bits ∧ IsNaN ((XMVectorSinCosEst c V).1.lane i).bits ∧ IsNaN ((XMVectorSinCosEst c V).2.lane i).bits ∧
    IsNaN ((XMVectorTan c V).lane i).bits ∧ IsNaN ((XMVectorTanEst c V).lane i).bits ∧
    IsNaN ((XMVectorACos c V).lane i).bits ∧ IsNaN ((XMVectorASin c V).lane i).bits ∧ IsNaN ((XMVectorACosEst c V).lane i).bits ∧ IsNaN ((XMVectorASinEst c V).lane i).bits ∧
    IsNaN ((XMVectorATan c V).lane i).bits ∧ IsNaN ((XMVectorATanEst c V).lane i).bits ∧
    IsNaN ((XMVectorExp2 c V).lane i).bits ∧ IsNaN ((XMVectorSinH c V).lane i).bits ∧ IsNaN ((XMVectorCosH c V).lane i).bits ∧ IsNaN ((XMVectorTanH c V).lane i).bits := by
  have hi : ∀ (b : Bool) (y z : F32 P), Nn y → Nn z → Nn (if b then y else z) := by intro b y z h1 h2; split_ifs; exact h1; exact h2
  have r := nn_reduce c h
  have q : Nn (Lane.mul ((trigReduce c V).1.lane i) ((trigReduce c V).1.lane i)) := nn_mul (Or.inl r)
  have t1 : Nn ((XMVectorSin c V).lane i) := by
    unfold XMVectorSin; rw [if_pos hc, sinPoly_lane]; exact nn_mul (Or.inr r)
  have t2 : Nn ((XMVectorCos c V).lane i) := by
    unfold XMVectorCos; rw [if_pos hc]; dsimp only; rw [cosPoly_lane]; exact nn_mul (Or.inl (nn_cosPV c q))
  have t3 : Nn ((XMVectorSinCos c V).1.lane i) ∧ Nn ((XMVectorSinCos c V).2.lane i) := by
    unfold XMVectorSinCos; rw [if_pos hc]; dsimp only; rw [sinPoly_lane, cosPoly_lane]; exact ⟨nn_mul (Or.inr r), nn_mul (Or.inl (nn_cosPV c q))⟩
  have t4 : Nn ((XMVectorSinEst c V).lane i) := by
    unfold XMVectorSinEst; rw [if_pos hc, sinEstPoly_lane]; exact nn_mul (Or.inr r)
  have t5 : Nn ((XMVectorCosEst c V).lane i) := by
    unfold XMVectorCosEst; rw [if_pos hc]; dsimp only; rw [cosEstPoly_lane]; exact nn_mul (Or.inl (nn_cosEPV c q))
  have t6 : Nn ((XMVectorSinCosEst c V).1.lane i) ∧ Nn ((XMVectorSinCosEst c V).2.lane i) := by
    unfold XMVectorSinCosEst; rw [if_pos hc]; dsimp only; rw [sinEstPoly_lane, cosEstPoly_lane]; exact ⟨nn_mul (Or.inr r), nn_mul (Or.inl (nn_cosEPV c q))⟩
  have hs : ∀ A : V4 (F32 P), (SSE.sub g_XMHalfPi A).lane i = Lane.sub (lit 0x3FC90FDB#32) (A.lane i) := fun A => by fin_cases i <;> rfl
  have ax : Nn (Lane.maxps (V.lane i) (Lane.sub (lit 0#32) (V.lane i))) := nn_maxps (nn_sub (Or.inr h))
  have a1 : Nn ((arcPoly c V).lane i) := by
    rw [arcPoly_lane]; exact hi _ _ _ (nn_mul (Or.inl (nn_arcPV c ax))) (nn_sub (Or.inr (nn_mul (Or.inl (nn_arcPV c ax)))))
  have a2 : Nn ((arcEstPoly c V).lane i) := by
    rw [arcEstPoly_lane]; exact hi _ _ _ (nn_mul (Or.inl (nn_arcEPV c ax))) (nn_sub (Or.inr (nn_mul (Or.inl (nn_arcEPV c ax)))))
  have atl : ∀ (poly : F32 P → F32 P) (v : F32 P), Nn v → Nn (atL poly v) := by
    intro poly v hv
    have hx : Nn (if Lane.le (Lane.maxps (Lane.sub (lit 0#32) v) v) (lit 0x3F800000#32) then v else Lane.div (lit 0x3F800000#32) v) := hi _ _ _ hv (nn_div (Or.inr hv))
    unfold atL
    exact hi _ _ _ (nn_mul (Or.inr hx)) (nn_sub (Or.inr (nn_mul (Or.inr hx))))
  have hexp : ∀ v : F32 P, Nn v → Nn (exp2L c v) := by
    intro v hv; unfold exp2L; rw [if_pos ((isNaN_iff _).2 hv)]; show IsNaN 0x7FC00000#32; decide
  refine ⟨t1, t2, t3.1, t3.2, t4, t5, t6.1, t6.2, ?_, ?_, ?_, ?_, ?_, ?_, ?_, ?_, ?_, ?_, ?_, ?_⟩
  · unfold XMVectorTan; rw [if_pos hc]; dsimp only
    have bnd : ∀ A B : V4 (F32 P), ∃ b, (XMVectorInBounds c A B).lane i = Lane.mask b := by
      intro A B
      refine ⟨Lane.le (A.lane i) (B.lane i) && Lane.le (Lane.mul (B.lane i) (lit 0xBF800000#32)) (A.lane i), ?_⟩
      unfold XMVectorInBounds; rw [if_pos hc, ← Lane.band_mask_mask]; fin_cases i <;> rfl
    have hz : (XMVectorEqual V XMVectorZero).lane i = (Lane.mask false : F32 P) := by
      rw [show (XMVectorEqual V XMVectorZero).lane i = Lane.mask (Lane.eq (V.lane i) (lit 0#32)) from by fin_cases i <;> rfl]
      congr 1
      show IEEE.eq (V.lane i).bits 0#32 = false
      unfold IEEE.eq; simp [(isNaN_iff _).2 h]
    have ev : ∀ A : V4 (F32 P), ∃ b, (A.map (fun v => Lane.mask (Lane.evenI v)) : V4 (F32 P)).lane i = Lane.mask b := fun A => ⟨Lane.evenI (A.lane i), by fin_cases i <;> rfl⟩
    refine nn_sel0 hz ?_
    generalize XMVectorRound c (XMVectorMultiply V (XMVectorSplatW c TanConstants)) = VA
    obtain ⟨b, hb⟩ := ev (XMVectorAbs c VA)
    have v1 : Nn ((XMVectorNegativeMultiplySubtract c VA (XMVectorSplatX c TanConstants) V).lane i) := nn_nms c (Or.inr (Or.inr h))
    generalize XMVectorNegativeMultiplySubtract c VA (XMVectorSplatX c TanConstants) V = VC0 at *
    have v2 : Nn ((XMVectorNegativeMultiplySubtract c VA (XMVectorSplatY c TanConstants) VC0).lane i) := nn_nms c (Or.inr (Or.inr v1))
    generalize XMVectorNegativeMultiplySubtract c VA (XMVectorSplatY c TanConstants) VC0 = VC at *
    obtain ⟨b2, hb2⟩ := bnd VC (XMVectorSplatZ c TanConstants)
    refine nn_sel hb ?_ ?_
    · exact nn_vdiv (Or.inr (nn_vneg c (nn_sel hb2 (nn_madd c (Or.inl v2)) v2)))
    · exact nn_vdiv (Or.inl (nn_sel hb2 (nn_madd c (Or.inl v2)) v2))
  · unfold XMVectorTanEst; rw [if_pos hc]; dsimp only
    have v1 : Nn ((XMVectorNegativeMultiplySubtract c g_XMPi (XMVectorRound c (XMVectorMultiply V (XMVectorSplatW c g_XMTanEstCoefficients))) V).lane i) := nn_nms c (Or.inr (Or.inr h))
    generalize XMVectorNegativeMultiplySubtract c g_XMPi (XMVectorRound c (XMVectorMultiply V (XMVectorSplatW c g_XMTanEstCoefficients))) V = V1 at *
    exact nn_vmul (Or.inl (nn_madd c (Or.inl (nn_vmul (Or.inl v1)))))
  · unfold XMVectorACos; rw [if_pos hc]; exact a1
  · unfold XMVectorASin; rw [if_pos hc, hs]; exact nn_sub (Or.inr a1)
  · unfold XMVectorACosEst; rw [if_pos hc]; exact a2
  · unfold XMVectorASinEst; rw [if_pos hc, hs]; exact nn_sub (Or.inr a2)
  · rw [atL_lane c hc]; exact atl _ _ h
  · rw [atEL_lane c hc]; exact atl _ _ h
  · rw [exp2_lane c hc]; exact hexp _ h
  · rw [sinh_lane c hc]; exact nn_sub (Or.inl (hexp _ (nn_fm c (Or.inl h))))
  · rw [cosh_lane c hc]; exact nn_add (Or.inl (hexp _ (nn_fm c (Or.inl h))))
  · rw [tanh_lane c hc]; exact nn_sub (Or.inr (nn_div (Or.inr (nn_fm c (Or.inl (hexp _ (nn_mul (Or.inl h))))))))

theorem eqz {a : F32 P} : Lane.eq a (lit 0#32) = true ↔ FEq a.bits 0#32 := IEEE.eq_iff _ _

/-- C113: the two-argument arctangent, except at the combinations where the code answers from the other argument. -/
theorem C113_atan2_partial (c : Cfg) (hc : c.sse = true) (Y X : V4 (F32 P)) (i : Fin 4)
    (h : IsNaN (Y.lane i).bits ∧ ¬ FEq (X.lane i).bits 0#32 ∨ IsNaN (X.lane i).bits ∧ ¬ FEq (Y.lane i).bits 0#32 ∧ ¬ IsInf (Y.lane i).bits) :
    IsNaN ((XMVectorATan2 c Y X).lane i).bits := by
  unfold XMVectorATan2
  rw [if_pos hc, at2L_lane c hc]
  have hd : Nn ((XMVectorDivide Y X).lane i) := nn_vdiv (by tauto)
  have ha : Nn ((XMVectorATan c (XMVectorDivide Y X)).lane i) := by
    obtain ⟨_, _, _, _, _, _, _, _, _, _, _, _, _, _, g, _⟩ := C113_vector c hc (XMVectorDivide Y X) i hd
    exact g
  generalize (XMVectorATan c (XMVectorDivide Y X)).lane i = r at *
  generalize Y.lane i = y at *
  generalize X.lane i = x at *
  unfold at2L
  have zn : ∀ a : F32 P, IsNaN a.bits → ¬ FEq a.bits 0#32 := fun a g k => k.1 g
  have z1 : ¬ IEEE.isInf y.bits = true := by
    rw [isInf_iff]
    rcases h with h | h
    · exact fun g => not_nan_of_inf g h.1
    · exact h.2.2
  have z2 : ¬ Lane.eq y (lit 0#32) = true := by
    rw [eqz]; rcases h with h | h
    · exact zn _ h.1
    · exact h.2.1
  have z3 : ¬ Lane.eq x (lit 0#32) = true := by
    rw [eqz]; rcases h with h | h
    · exact h.2
    · exact zn _ h.1
  rw [if_neg z1, if_neg z2, if_neg z3]
  exact nn_add (Or.inl ha)

theorem sgnL_num (s : Bool) {p n : BitVec 32} (h1 : ¬ IsNaN p) (h2 : ¬ IsNaN n) : ¬ IsNaN (sgnL s p n : F32 P).bits := by
  unfold sgnL; cases s
  · exact h1
  · exact h2

/-- C113 fails for the two-argument arctangent: with a zero in the other argument, or an infinite first argument, the NaN is dropped. -/
theorem C113_atan2_fails (c : Cfg) (hc : c.sse = true) (Y X : V4 (F32 P)) (i : Fin 4) :
    (IsNaN (Y.lane i).bits → (X.lane i).bits = 0#32 → ¬ IsNaN ((XMVectorATan2 c Y X).lane i).bits) ∧
    (IsNaN (X.lane i).bits → (Y.lane i).bits = 0#32 → ¬ IsNaN ((XMVectorATan2 c Y X).lane i).bits) ∧
    (IsNaN (X.lane i).bits → (Y.lane i).bits = 0x7F800000#32 → ¬ IsNaN ((XMVectorATan2 c Y X).lane i).bits) := by
  unfold XMVectorATan2
  rw [if_pos hc, at2L_lane c hc]
  generalize (XMVectorATan c (XMVectorDivide Y X)).lane i = r at *
  generalize Y.lane i = y at *
  generalize X.lane i = x at *
  have f0 : FEq 0#32 0#32 := (IEEE.eq_iff _ _).1 (by decide +kernel)
  refine ⟨fun h1 h2 => ?_, fun h1 h2 => ?_, fun h1 h2 => ?_⟩
  · unfold at2L
    rw [if_neg (by rw [isInf_iff]; exact fun g => not_nan_of_inf g h1), if_neg (by rw [eqz]; exact fun g => g.1 h1), if_pos (by rw [eqz, h2]; exact f0)]
    exact sgnL_num _ (by decide) (by decide)
  · unfold at2L
    rw [if_neg (by rw [h2]; decide), if_pos (by rw [eqz, h2]; exact f0)]
    split_ifs <;> exact sgnL_num _ (by decide) (by decide)
  · unfold at2L
    rw [if_pos (by rw [h2]; decide)]
    split_ifs <;> exact sgnL_num _ (by decide) (by decide)

/-- Such inputs exist. -/
example : IsNaN 0x7FC00001#32 ∧ ¬ FEq 0x3F800000#32 0#32 ∧ ¬ IsInf 0x3F800000#32 :=
  ⟨by decide, fun h => absurd ((IEEE.eq_iff _ _).2 h) (by decide +kernel), by decide⟩

end DXM.Props
