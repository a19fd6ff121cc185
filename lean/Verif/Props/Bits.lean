import Verif.Lemmas.F32Lane

/-
C03, C07: select and integer logic, on all bit patterns (interpretation I).
-/

set_option linter.all false

namespace DXM.Props
open DXM.Spec
variable {P : Env}

/-- C03: every bit comes from V2 where the control has a 1 and from V1 where it has a 0. -/
theorem C03_select (V1 V2 C : V4 (F32 P)) (i : Fin 4) (k : Nat) :
    ((XMVectorSelect V1 V2 C).lane i).bits.getLsbD k =
      if (C.lane i).bits.getLsbD k then (V2.lane i).bits.getLsbD k else (V1.lane i).bits.getLsbD k := by
  have h : (XMVectorSelect V1 V2 C).lane i = F32.ofBV ((~~~(C.lane i).bits &&& (V1.lane i).bits) ||| ((V2.lane i).bits &&& (C.lane i).bits)) := by
    fin_cases i <;> rfl
  rw [h, F32.bits_ofBV]
  by_cases hk : k < 32
  · simp only [BitVec.getLsbD_or, BitVec.getLsbD_and, BitVec.getLsbD_not, hk, decide_true, Bool.true_and]
    cases (C.lane i).bits.getLsbD k <;> simp
  · simp [BitVec.getLsbD_of_ge _ _ (not_lt.1 hk)]

/-- An environment, for examples. -/
def P0 : Env := ⟨fun _ _ _ _ => 0, fun _ _ _ => 0⟩

example : ((XMVectorSelect (.splat (F32.ofBV 0x0F0F0F0F#32)) (.splat (F32.ofBV 0x12345678#32)) (.splat (F32.ofBV 0xFFFF0000#32)) :
    V4 (F32 P0)).lane 2).bits = 0x12340F0F#32 := by decide

/-- C03: with a control made by XMVectorSelectControl from 0/1 indices, lane k is V2's lane iff index k is 1; every build. -/
theorem C03_control (c : Cfg) (V1 V2 : V4 (F32 P)) (s : Fin 4 → Bool) :
    ∃ C, XMVectorSelectControl (α := F32 P) c (if s 0 then 1 else 0) (if s 1 then 1 else 0) (if s 2 then 1 else 0) (if s 3 then 1 else 0) = .ok C ∧
      ∀ i, (XMVectorSelect V1 V2 C).lane i = if s i then V2.lane i else V1.lane i := by
  refine ⟨⟨Lane.mask (s 0), Lane.mask (s 1), Lane.mask (s 2), Lane.mask (s 3)⟩, ?_, ?_⟩
  · unfold XMVectorSelectControl
    cases c.sse <;> cases s 0 <;> cases s 1 <;> cases s 2 <;> cases s 3 <;> rfl
  · intro i
    have h : (XMVectorSelect V1 V2 ⟨Lane.mask (s 0), Lane.mask (s 1), Lane.mask (s 2), Lane.mask (s 3)⟩).lane i =
        Lane.bor (Lane.bandn (Lane.mask (s i)) (V1.lane i)) (Lane.band (V2.lane i) (Lane.mask (s i))) := by
      fin_cases i <;> rfl
    rw [h, Lane.select_mask]

/-- C03: for an index outside {0,1} the builds disagree: the no-intrinsics build panics, the SSE build reads any positive
signed value as 1 and the rest as 0. -/
theorem C03_control_outside :
    XMVectorSelectControl (α := F32 P) Cfg.noIntrinsics 2 0 0 0 = .panic ∧
    XMVectorSelectControl (α := F32 P) Cfg.sse2 2 0 0 0 = .ok ⟨F32.ofBV 0xFFFFFFFF#32, F32.ofBV 0#32, F32.ofBV 0#32, F32.ofBV 0#32⟩ ∧
    XMVectorSelectControl (α := F32 P) Cfg.sse2 0x80000001#32 0 0 0 = .ok (.splat (F32.ofBV 0#32)) := ⟨rfl, rfl, rfl⟩

/-- C07: the integer logic functions are the named bitwise functions on every lane; the comparison functions return all ones or
all zeros; every build. -/
theorem C07_logic (c : Cfg) (V1 V2 : V4 (F32 P)) (i : Fin 4) :
    ((XMVectorAndInt V1 V2).lane i).bits = (V1.lane i).bits &&& (V2.lane i).bits ∧
    ((XMVectorAndCInt V1 V2).lane i).bits = (V1.lane i).bits &&& ~~~(V2.lane i).bits ∧
    ((XMVectorOrInt V1 V2).lane i).bits = (V1.lane i).bits ||| (V2.lane i).bits ∧
    ((XMVectorNorInt V1 V2).lane i).bits = ~~~((V1.lane i).bits ||| (V2.lane i).bits) ∧
    ((XMVectorXorInt V1 V2).lane i).bits = (V1.lane i).bits ^^^ (V2.lane i).bits ∧
    ((XMVectorEqualInt V1 V2).lane i).bits = (if (V1.lane i).bits = (V2.lane i).bits then 0xFFFFFFFF#32 else 0#32) ∧
    ((XMVectorNotEqualInt c V1 V2).lane i).bits = (if (V1.lane i).bits = (V2.lane i).bits then 0#32 else 0xFFFFFFFF#32) ∧
    ((XMVectorTrueInt : V4 (F32 P)).lane i).bits = 0xFFFFFFFF#32 ∧ ((XMVectorFalseInt : V4 (F32 P)).lane i).bits = 0#32 := by
  refine ⟨?_, ?_, ?_, ?_, ?_, ?_, ?_, ?_, ?_⟩
  · fin_cases i <;> rfl
  · rw [BitVec.and_comm]; fin_cases i <;> rfl
  · fin_cases i <;> rfl
  · have h : ((XMVectorNorInt V1 V2).lane i).bits = ~~~((V1.lane i).bits ||| (V2.lane i).bits) &&& BitVec.allOnes 32 := by fin_cases i <;> rfl
    rw [h, BitVec.and_allOnes]
  · fin_cases i <;> rfl
  · have h : ((XMVectorEqualInt V1 V2).lane i) = Lane.mask (decide ((V1.lane i).bits = (V2.lane i).bits)) := by fin_cases i <;> rfl
    rw [h, F32.bits_mask]; simp
  · have h : ((XMVectorNotEqualInt c V1 V2).lane i) = Lane.mask (!decide ((V1.lane i).bits = (V2.lane i).bits)) := by
      unfold XMVectorNotEqualInt
      split_ifs
      · have h2 : (SSE.xor (SSE.cmpeq_epi32 V1 V2) g_XMNegOneMask).lane i =
            Lane.bxor (Lane.mask (decide ((V1.lane i).bits = (V2.lane i).bits))) (Lane.ofBits 0xFFFFFFFF#32) := by fin_cases i <;> rfl
        rw [h2]
        cases decide ((V1.lane i).bits = (V2.lane i).bits)
        · exact LawfulLane.bxor_zero_ones
        · exact LawfulLane.bxor_ones_ones
      · fin_cases i <;> rfl
    rw [h, F32.bits_mask]; by_cases hh : (V1.lane i).bits = (V2.lane i).bits <;> simp [hh]
  · fin_cases i <;> rfl
  · fin_cases i <;> rfl

theorem V4_ext_bits {A B : V4 (F32 P)} (h : ∀ i, (A.lane i).bits = (B.lane i).bits) : A = B := V4.ext_lane h

/-- C07: Boolean-algebra laws between the functions: De Morgan, absorption, double complement, AndC as And with a complement,
Xor by Or/And. -/
theorem C07_laws (A B C : V4 (F32 P)) :
    XMVectorNorInt A B = XMVectorAndInt (XMVectorNorInt A A) (XMVectorNorInt B B) ∧
    XMVectorOrInt A (XMVectorAndInt A B) = A ∧ XMVectorAndInt A (XMVectorOrInt A B) = A ∧
    XMVectorNorInt (XMVectorNorInt A A) (XMVectorNorInt A A) = A ∧
    XMVectorAndCInt A B = XMVectorAndInt A (XMVectorNorInt B B) ∧
    XMVectorXorInt A B = XMVectorAndCInt (XMVectorOrInt A B) (XMVectorAndInt A B) ∧
    XMVectorXorInt (XMVectorXorInt A B) B = A ∧
    XMVectorAndInt A (XMVectorOrInt B C) = XMVectorOrInt (XMVectorAndInt A B) (XMVectorAndInt A C) := by
  have L := fun (X Y : V4 (F32 P)) i => C07_logic Cfg.sse2 X Y i
  refine ⟨?_, ?_, ?_, ?_, ?_, ?_, ?_, ?_⟩ <;> refine V4_ext_bits fun i => ?_ <;>
    simp only [(L _ _ i).1, (L _ _ i).2.1, (L _ _ i).2.2.1, (L _ _ i).2.2.2.1, (L _ _ i).2.2.2.2.1] <;>
    refine BitVec.eq_of_getLsbD_eq fun k hk => ?_ <;>
    simp only [BitVec.getLsbD_or, BitVec.getLsbD_and, BitVec.getLsbD_not, BitVec.getLsbD_xor, hk, decide_true, Bool.true_and] <;>
    cases (A.lane i).bits.getLsbD k <;> cases (B.lane i).bits.getLsbD k <;> cases (C.lane i).bits.getLsbD k <;> rfl

example : ((XMVectorAndCInt (.splat (F32.ofBV 0x0F0F0F0F#32)) (.splat (F32.ofBV 0x12345678#32)) : V4 (F32 P0)).lane 1).bits = 0x0D0B0907#32 := by decide

end DXM.Props
