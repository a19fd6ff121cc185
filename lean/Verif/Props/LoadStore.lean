import Verif.Model.LoadStore
import Verif.Lemmas.Integral
import Verif.Props.Compare

/-
C06: loads and stores, every lane type (all bit patterns), every pair of builds.
-/

set_option linter.all false

namespace DXM.Props
open DXM.Spec
variable {α : Type}

/-- `m'` is `m` with the words `l` written at `p`, and nothing else changed. -/
structure Written (m m' : Mem α) (p : ℕ) (l : List α) : Prop where
  inside : ∀ k (h : k < l.length), m' (p + k) = l[k]
  outside : ∀ q, q < p ∨ p + l.length ≤ q → m' q = m q

theorem sets_written (m : Mem α) (p : ℕ) (l : List α) : Written m (m.sets p l) p l := by
  induction l generalizing m p with
  | nil => exact ⟨fun k h => by simp at h, fun q _ => rfl⟩
  | cons v vs ih =>
    obtain ⟨h1, h2⟩ := ih (m.set p v) (p + 1)
    constructor
    · intro k hk
      cases k with
      | zero =>
        show Mem.sets (m.set p v) (p + 1) vs p = v
        rw [h2 p (Or.inl (by omega))]; simp [Mem.set]
      | succ k =>
        have := h1 k (by simpa using hk)
        rw [show p + (k + 1) = p + 1 + k by omega]; exact this
    · intro q hq
      show Mem.sets (m.set p v) (p + 1) vs q = m q
      simp only [List.length_cons] at hq
      rw [h2 q (by omega)]
      have : q ≠ p := by omega
      simp [Mem.set, this]

/-- Two memories with the same words written are equal. -/
theorem written_unique {m m1 m2 : Mem α} {p : ℕ} {l : List α} (h1 : Written m m1 p l) (h2 : Written m m2 p l) : m1 = m2 := by
  funext q
  by_cases h : q < p ∨ p + l.length ≤ q
  · rw [h1.outside q h, h2.outside q h]
  · have e : q = p + (q - p) := by omega
    rw [e, h1.inside (q - p) (by omega), h2.inside (q - p) (by omega)]

variable [Lane α]

/-- C06: every store writes exactly the documented lanes, in order, and nothing outside its target. -/
theorem C06_stores (c : Cfg) (m : Mem α) (p : ℕ) (V : V4 α) :
    Written m (XMStoreFloat c m p V) p [V.x] ∧
    Written m (XMStoreInt2 c m p V) p [V.x, V.y] ∧ Written m (XMStoreFloat2 c m p V) p [V.x, V.y] ∧
    Written m (XMStoreInt3 c m p V) p [V.x, V.y, V.z] ∧ Written m (XMStoreFloat3 c m p V) p [V.x, V.y, V.z] ∧
    Written m (XMStoreFloat3A c m p V) p [V.x, V.y, V.z] ∧
    Written m (XMStoreInt4 c m p V) p [V.x, V.y, V.z, V.w] ∧ Written m (XMStoreFloat4 c m p V) p [V.x, V.y, V.z, V.w] ∧
    Written m (XMStoreFloat4A c m p V) p [V.x, V.y, V.z, V.w] := by
  have key : ∀ (m' : Mem α) (l : List α), m' = m.sets p l → Written m m' p l := fun m' l h => h ▸ sets_written m p l
  refine ⟨key _ _ ?_, key _ _ ?_, key _ _ ?_, key _ _ ?_, key _ _ ?_, key _ _ ?_, key _ _ ?_, key _ _ ?_, key _ _ ?_⟩
  · unfold XMStoreFloat; split_ifs <;> rfl
  · unfold XMStoreInt2; split_ifs <;> rfl
  · unfold XMStoreFloat2; split_ifs <;> rfl
  · unfold XMStoreInt3; split_ifs <;> rfl
  · unfold XMStoreFloat3; split_ifs <;> rfl
  · unfold XMStoreFloat3A; split_ifs <;> rfl
  · unfold XMStoreInt4; split_ifs <;> rfl
  · unfold XMStoreFloat4; split_ifs <;> rfl
  · unfold XMStoreFloat4A; split_ifs <;> rfl

/-- C06: matrix stores write the rows (3x4: the columns) they name and nothing else. -/
theorem C06_matrix_stores (c : Cfg) (m : Mem α) (p : ℕ) (M : M4 α) :
    Written m (XMStoreFloat3x3 c m p M) p [M.at 0 0, M.at 0 1, M.at 0 2, M.at 1 0, M.at 1 1, M.at 1 2, M.at 2 0, M.at 2 1, M.at 2 2] ∧
    Written m (XMStoreFloat4x3 c m p M) p [M.at 0 0, M.at 0 1, M.at 0 2, M.at 1 0, M.at 1 1, M.at 1 2, M.at 2 0, M.at 2 1, M.at 2 2,
      M.at 3 0, M.at 3 1, M.at 3 2] ∧
    Written m (XMStoreFloat3x4 c m p M) p [M.at 0 0, M.at 1 0, M.at 2 0, M.at 3 0, M.at 0 1, M.at 1 1, M.at 2 1, M.at 3 1,
      M.at 0 2, M.at 1 2, M.at 2 2, M.at 3 2] ∧
    (∀ f, f = XMStoreFloat4x4 ∨ f = XMStoreFloat4x4A → Written m (f c m p M) p [M.at 0 0, M.at 0 1, M.at 0 2, M.at 0 3,
      M.at 1 0, M.at 1 1, M.at 1 2, M.at 1 3, M.at 2 0, M.at 2 1, M.at 2 2, M.at 2 3, M.at 3 0, M.at 3 1, M.at 3 2, M.at 3 3]) := by
  have key : ∀ (m' : Mem α) (l : List α), m' = m.sets p l → Written m m' p l := fun m' l h => h ▸ sets_written m p l
  refine ⟨key _ _ ?_, key _ _ ?_, key _ _ ?_, fun f hf => key _ _ ?_⟩
  · unfold XMStoreFloat3x3; split_ifs <;> rfl
  · unfold XMStoreFloat4x3; split_ifs <;> rfl
  · unfold XMStoreFloat3x4; split_ifs <;> rfl
  · rcases hf with rfl | rfl
    · unfold XMStoreFloat4x4; split_ifs <;> rfl
    · unfold XMStoreFloat4x4A; split_ifs <;> rfl

/-- C06: every vector load returns the words in memory order and zero in the missing lanes, whatever lies behind the source. -/
theorem C06_loads [LawfulLane α] (c : Cfg) (m : Mem α) (p : ℕ) :
    XMLoadInt2 c m p = ⟨m p, m (p+1), Lane.ofBits 0#32, Lane.ofBits 0#32⟩ ∧
    XMLoadFloat2 c m p = ⟨m p, m (p+1), Lane.ofBits 0#32, Lane.ofBits 0#32⟩ ∧
    XMLoadInt3 c m p = ⟨m p, m (p+1), m (p+2), Lane.ofBits 0#32⟩ ∧
    XMLoadFloat3 c m p = ⟨m p, m (p+1), m (p+2), Lane.ofBits 0#32⟩ ∧
    XMLoadFloat3A c m p = ⟨m p, m (p+1), m (p+2), Lane.ofBits 0#32⟩ ∧
    XMLoadInt4 c m p = ⟨m p, m (p+1), m (p+2), m (p+3)⟩ ∧
    XMLoadFloat4 c m p = ⟨m p, m (p+1), m (p+2), m (p+3)⟩ ∧
    XMLoadFloat4A c m p = ⟨m p, m (p+1), m (p+2), m (p+3)⟩ := by
  refine ⟨?_, ?_, ?_, ?_, ?_, ?_, ?_, ?_⟩
  · unfold XMLoadInt2; split_ifs <;> rfl
  · unfold XMLoadFloat2; split_ifs <;> rfl
  · unfold XMLoadInt3; split_ifs <;> rfl
  · unfold XMLoadFloat3; split_ifs <;> rfl
  · unfold XMLoadFloat3A
    split_ifs
    · simp [Mem.loadu, g_XMMask3, LawfulLane.band_ones_right, LawfulLane.band_zero_right]
    · rfl
  · unfold XMLoadInt4; split_ifs <;> rfl
  · unfold XMLoadFloat4; split_ifs <;> rfl
  · unfold XMLoadFloat4A; split_ifs <;> rfl

/-- C06: the 4x3, 3x4 and 4x4 loads return the stored entries and complete the matrix with the last column of the identity. -/
theorem C06_matrix_loads [LawfulLane α] (c : Cfg) (m : Mem α) (p : ℕ) :
    XMLoadFloat4x3 c m p = ⟨⟨m p, m (p+1), m (p+2), Lane.ofBits 0#32⟩, ⟨m (p+3), m (p+4), m (p+5), Lane.ofBits 0#32⟩,
      ⟨m (p+6), m (p+7), m (p+8), Lane.ofBits 0#32⟩, ⟨m (p+9), m (p+10), m (p+11), Lane.ofBits 0x3F800000#32⟩⟩ ∧
    XMLoadFloat3x4 c m p = ⟨⟨m p, m (p+4), m (p+8), Lane.ofBits 0#32⟩, ⟨m (p+1), m (p+5), m (p+9), Lane.ofBits 0#32⟩,
      ⟨m (p+2), m (p+6), m (p+10), Lane.ofBits 0#32⟩, ⟨m (p+3), m (p+7), m (p+11), Lane.ofBits 0x3F800000#32⟩⟩ ∧
    (∀ f, f = XMLoadFloat4x4 ∨ f = XMLoadFloat4x4A → f c m p = ⟨⟨m p, m (p+1), m (p+2), m (p+3)⟩, ⟨m (p+4), m (p+5), m (p+6), m (p+7)⟩,
      ⟨m (p+8), m (p+9), m (p+10), m (p+11)⟩, ⟨m (p+12), m (p+13), m (p+14), m (p+15)⟩⟩) := by
  refine ⟨?_, ?_, fun f hf => ?_⟩
  · unfold XMLoadFloat4x3
    split_ifs
    · simp [Mem.loadu, srli4, g_XMMask3, g_XMIdentityR3, LawfulLane.band_ones_right, LawfulLane.band_zero_right, LawfulLane.bor_zero_right,
        LawfulLane.bor_zero_left]
    · rfl
  · unfold XMLoadFloat3x4; split_ifs <;> rfl
  · rcases hf with rfl | rfl
    · unfold XMLoadFloat4x4; split_ifs <;> rfl
    · unfold XMLoadFloat4x4A; split_ifs <;> rfl

/-- C06: store then load gives back the lanes, and zeros in the others, in any two builds. -/
theorem C06_roundtrip [LawfulLane α] (c c' : Cfg) (m : Mem α) (p : ℕ) (V : V4 α) :
    XMLoadInt2 c (XMStoreInt2 c' m p V) p = ⟨V.x, V.y, Lane.ofBits 0#32, Lane.ofBits 0#32⟩ ∧
    XMLoadFloat2 c (XMStoreFloat2 c' m p V) p = ⟨V.x, V.y, Lane.ofBits 0#32, Lane.ofBits 0#32⟩ ∧
    XMLoadInt3 c (XMStoreInt3 c' m p V) p = ⟨V.x, V.y, V.z, Lane.ofBits 0#32⟩ ∧
    XMLoadFloat3 c (XMStoreFloat3 c' m p V) p = ⟨V.x, V.y, V.z, Lane.ofBits 0#32⟩ ∧
    XMLoadFloat3A c (XMStoreFloat3A c' m p V) p = ⟨V.x, V.y, V.z, Lane.ofBits 0#32⟩ ∧
    XMLoadInt4 c (XMStoreInt4 c' m p V) p = V ∧ XMLoadFloat4 c (XMStoreFloat4 c' m p V) p = V ∧ XMLoadFloat4A c (XMStoreFloat4A c' m p V) p = V := by
  obtain ⟨_, s1, s2, s3, s4, s5, s6, s7, s8⟩ := C06_stores c' m p V
  have r0 : ∀ {m' : Mem α} {l : List α}, Written m m' p l → ∀ (h : 0 < l.length), m' p = l[0] := fun w h => w.inside 0 h
  refine ⟨(C06_loads c _ p).1.trans ?_, (C06_loads c _ p).2.1.trans ?_, (C06_loads c _ p).2.2.1.trans ?_, (C06_loads c _ p).2.2.2.1.trans ?_,
    (C06_loads c _ p).2.2.2.2.1.trans ?_, (C06_loads c _ p).2.2.2.2.2.1.trans ?_, (C06_loads c _ p).2.2.2.2.2.2.1.trans ?_, (C06_loads c _ p).2.2.2.2.2.2.2.trans ?_⟩
  · rw [r0 s1 (by simp), s1.inside 1 (by simp)]; rfl
  · rw [r0 s2 (by simp), s2.inside 1 (by simp)]; rfl
  · rw [r0 s3 (by simp), s3.inside 1 (by simp), s3.inside 2 (by simp)]; rfl
  · rw [r0 s4 (by simp), s4.inside 1 (by simp), s4.inside 2 (by simp)]; rfl
  · rw [r0 s5 (by simp), s5.inside 1 (by simp), s5.inside 2 (by simp)]; rfl
  · rw [r0 s6 (by simp), s6.inside 1 (by simp), s6.inside 2 (by simp), s6.inside 3 (by simp)]; rfl
  · rw [r0 s7 (by simp), s7.inside 1 (by simp), s7.inside 2 (by simp), s7.inside 3 (by simp)]; rfl
  · rw [r0 s8 (by simp), s8.inside 1 (by simp), s8.inside 2 (by simp), s8.inside 3 (by simp)]; rfl

/-- C06: matrices survive the round trip through the 4x3, 3x4 and 4x4 formats, the last column replaced by the identity's. -/
theorem C06_matrix_roundtrip [LawfulLane α] (c c' : Cfg) (m : Mem α) (p : ℕ) (M : M4 α) (i j : Fin 4) :
    (XMLoadFloat4x3 c (XMStoreFloat4x3 c' m p M) p).at i j =
      (if j = 3 then (if i = 3 then Lane.ofBits 0x3F800000#32 else Lane.ofBits 0#32) else M.at i j) ∧
    (XMLoadFloat3x4 c (XMStoreFloat3x4 c' m p M) p).at i j =
      (if j = 3 then (if i = 3 then Lane.ofBits 0x3F800000#32 else Lane.ofBits 0#32) else M.at i j) ∧
    (XMLoadFloat4x4 c (XMStoreFloat4x4 c' m p M) p) = M ∧ (XMLoadFloat4x4A c (XMStoreFloat4x4A c' m p M) p) = M := by
  obtain ⟨_, s2, s3, s4⟩ := C06_matrix_stores c' m p M
  have r0 : ∀ {m' : Mem α} {l : List α}, Written m m' p l → ∀ (h : 0 < l.length), m' p = l[0] := fun w h => w.inside 0 h
  refine ⟨?_, ?_, ?_, ?_⟩
  · rw [(C06_matrix_loads c _ p).1, r0 s2 (by simp), s2.inside 1 (by simp), s2.inside 2 (by simp), s2.inside 3 (by simp), s2.inside 4 (by simp),
      s2.inside 5 (by simp), s2.inside 6 (by simp), s2.inside 7 (by simp), s2.inside 8 (by simp), s2.inside 9 (by simp), s2.inside 10 (by simp), s2.inside 11 (by simp)]
    fin_cases i <;> fin_cases j <;> rfl
  · rw [(C06_matrix_loads c _ p).2.1, r0 s3 (by simp), s3.inside 1 (by simp), s3.inside 2 (by simp), s3.inside 3 (by simp), s3.inside 4 (by simp),
      s3.inside 5 (by simp), s3.inside 6 (by simp), s3.inside 7 (by simp), s3.inside 8 (by simp), s3.inside 9 (by simp), s3.inside 10 (by simp), s3.inside 11 (by simp)]
    fin_cases i <;> fin_cases j <;> rfl
  · have s4 := s4 _ (Or.inl rfl)
    rw [(C06_matrix_loads c _ p).2.2 _ (Or.inl rfl), r0 s4 (by simp), s4.inside 1 (by simp), s4.inside 2 (by simp), s4.inside 3 (by simp), s4.inside 4 (by simp),
      s4.inside 5 (by simp), s4.inside 6 (by simp), s4.inside 7 (by simp), s4.inside 8 (by simp), s4.inside 9 (by simp), s4.inside 10 (by simp), s4.inside 11 (by simp),
      s4.inside 12 (by simp), s4.inside 13 (by simp), s4.inside 14 (by simp), s4.inside 15 (by simp)]
    rfl
  · have s4 := s4 _ (Or.inr rfl)
    rw [(C06_matrix_loads c _ p).2.2 _ (Or.inr rfl), r0 s4 (by simp), s4.inside 1 (by simp), s4.inside 2 (by simp), s4.inside 3 (by simp), s4.inside 4 (by simp),
      s4.inside 5 (by simp), s4.inside 6 (by simp), s4.inside 7 (by simp), s4.inside 8 (by simp), s4.inside 9 (by simp), s4.inside 10 (by simp), s4.inside 11 (by simp),
      s4.inside 12 (by simp), s4.inside 13 (by simp), s4.inside 14 (by simp), s4.inside 15 (by simp)]
    rfl

variable {P : Env}

/-- `x + 0` is `x` except for -0, whose sign is lost, and NaN. -/
theorem add_zero_bits (a : BitVec 32) (hn : ¬ IsNaN a) (hz : a ≠ 0x80000000#32) : IEEE.add P a 0#32 = a ∧ IEEE.add P 0#32 a = a := by
  have h0 : IEEE.isNaN a = false := IEEE.isNaN_f hn
  have z1 : IEEE.isNaN 0#32 = false := by decide
  have z2 : IEEE.isInf 0#32 = false := by decide
  have z3 : IEEE.sg 0#32 = false := by decide
  have z4 : IEEE.ival 0#32 = 0 := by decide
  by_cases hi : IsInf a
  · have hi' := (IEEE.isInf_iff a).2 hi
    unfold IEEE.add IEEE.addCore
    simp [h0, z1, z2, hi']
  · have hi' : IEEE.isInf a = false := IEEE.isInf_f hi
    have key : IEEE.roundI false (IEEE.ival a) 1 = a := by
      unfold IEEE.roundI
      have ha : IEEE.am a ≤ 0x7F800000 := by
        unfold IEEE.isNaN at h0; simpa using h0
      by_cases hv : IEEE.ival a = 0
      · rw [if_pos hv]
        have hm : IEEE.mag a = 0 := by unfold IEEE.ival at hv; split_ifs at hv <;> omega
        have hm' : IEEE.am a = 0 := IEEE.magN_eq_zero.1 hm
        have hs : IEEE.sg a = false := by
          by_contra hs
          apply hz
          apply IEEE.ext_am
          · rw [show IEEE.sg 0x80000000#32 = true by decide]; simpa using hs
          · rw [hm']; decide +kernel
        rw [← hm', ← hs, IEEE.mk_am]
      · rw [if_neg hv]
        have e1 : decide (IEEE.ival a < 0) = IEEE.sg a := by
          unfold IEEE.ival at hv ⊢
          cases hs : IEEE.sg a <;> simp [hs] at hv ⊢ <;> omega
        have e2 : (IEEE.ival a).natAbs = IEEE.mag a := by unfold IEEE.ival; split_ifs <;> omega
        rw [e1, e2, show IEEE.mag a = IEEE.magN (IEEE.am a) from rfl, IEEE.roundN_magN ha, IEEE.mk_am]
    constructor
    · unfold IEEE.add IEEE.addCore
      simp only [h0, z1, z2, hi', z3, z4, Bool.or_false, Bool.false_eq_true, if_false, Bool.and_false, add_zero]; exact key
    · unfold IEEE.add IEEE.addCore
      simp only [h0, z1, z2, hi', z3, z4, Bool.or_false, Bool.false_eq_true, if_false, Bool.false_and, zero_add]; exact key

/-- A word kept up to the sign of zero and the payload of a NaN. -/
structure Kept (a r : BitVec 32) : Prop where
  nan : IsNaN a → IsNaN r
  val : ¬ IsNaN a → evalue r = evalue a
  bits : ¬ IsNaN a → a ≠ 0x80000000#32 → r = a

theorem kept_refl (a : BitVec 32) : Kept a a := ⟨id, fun _ => rfl, fun _ _ => rfl⟩
theorem kept_add (a : BitVec 32) : Kept a (IEEE.add P a 0#32) ∧ Kept a (IEEE.add P 0#32 a) := by
  have neg0 : IEEE.add P 0x80000000#32 0#32 = 0#32 ∧ IEEE.add P 0#32 0x80000000#32 = 0#32 := by
    have z1 : IEEE.isNaN 0#32 = false := by decide
    have z2 : IEEE.isInf 0#32 = false := by decide
    have z3 : IEEE.isNaN 0x80000000#32 = false := by decide
    have z4 : IEEE.isInf 0x80000000#32 = false := by decide
    unfold IEEE.add IEEE.addCore
    simp only [z1, z2, z3, z4, Bool.or_false, Bool.false_eq_true, if_false]
    decide
  constructor
  · refine ⟨fun h => IEEE.add_nan P (Or.inl h), fun h => ?_, fun h h' => (add_zero_bits a h h').1⟩
    by_cases hz : a = 0x80000000#32
    · subst hz; rw [neg0.1, IEEE.evalue_zero, IEEE.evalue_negzero]
    · rw [(add_zero_bits a h hz).1]
  · refine ⟨fun h => IEEE.add_nan P (Or.inr h), fun h => ?_, fun h h' => (add_zero_bits a h h').2⟩
    by_cases hz : a = 0x80000000#32
    · subst hz; rw [neg0.2, IEEE.evalue_zero, IEEE.evalue_negzero]
    · rw [(add_zero_bits a h hz).2]

/-- C06 (`_partial`, see `C06_float3x3_fails`): the 3x3 round trip keeps every entry up to the sign of a zero and the payload of a NaN in row 1;
bit for bit outside row 1 and in the build without intrinsics; row and column 3 are the identity's. -/
theorem C06_float3x3_partial (c c' : Cfg) (m : Mem (F32 P)) (p : ℕ) (M : M4 (F32 P)) (i j : Fin 4) :
    let R := XMLoadFloat3x3 c (XMStoreFloat3x3 c' m p M) p
    (i ≠ 3 → j ≠ 3 → Kept (M.at i j).bits (R.at i j).bits) ∧ (i ≠ 3 → j ≠ 3 → (i ≠ 1 ∨ c.sse = false) → R.at i j = M.at i j) ∧
    (i = 3 ∨ j = 3 → (R.at i j).bits = if i = j then 0x3F800000#32 else 0#32) := by
  have s1 := (C06_matrix_stores c' m p M).1
  have e0 : XMStoreFloat3x3 c' m p M p = M.at 0 0 := s1.inside 0 (by simp)
  have e1 : XMStoreFloat3x3 c' m p M (p+1) = M.at 0 1 := s1.inside 1 (by simp)
  have e2 : XMStoreFloat3x3 c' m p M (p+2) = M.at 0 2 := s1.inside 2 (by simp)
  have e3 : XMStoreFloat3x3 c' m p M (p+3) = M.at 1 0 := s1.inside 3 (by simp)
  have e4 : XMStoreFloat3x3 c' m p M (p+4) = M.at 1 1 := s1.inside 4 (by simp)
  have e5 : XMStoreFloat3x3 c' m p M (p+5) = M.at 1 2 := s1.inside 5 (by simp)
  have e6 : XMStoreFloat3x3 c' m p M (p+6) = M.at 2 0 := s1.inside 6 (by simp)
  have e7 : XMStoreFloat3x3 c' m p M (p+7) = M.at 2 1 := s1.inside 7 (by simp)
  have e8 : XMStoreFloat3x3 c' m p M (p+8) = M.at 2 2 := s1.inside 8 (by simp)
  intro R
  by_cases hs : c.sse = true
  · have z00 : Lane.add (Lane.c0 : F32 P) Lane.c0 = Lane.c0 := (add_zero_bits (P := P) 0#32 (by decide) (by decide)).1
    have hR : R = ⟨⟨M.at 0 0, M.at 0 1, M.at 0 2, Lane.c0⟩,
        ⟨Lane.add Lane.c0 (M.at 1 0), Lane.add (M.at 1 1) Lane.c0, Lane.add (M.at 1 2) Lane.c0, Lane.c0⟩,
        ⟨M.at 2 0, M.at 2 1, M.at 2 2, Lane.c0⟩, ⟨Lane.c0, Lane.c0, Lane.c0, Lane.c1⟩⟩ := by
      show XMLoadFloat3x3 c (XMStoreFloat3x3 c' m p M) p = _
      unfold XMLoadFloat3x3
      rw [if_pos hs]
      simp only [Mem.loadu, Mem.load_ss, Nat.add_assoc, Nat.reduceAdd, e0, e1, e2, e3, e4, e5, e6, e7, e8, SSE.unpackhi, SSE.unpacklo, SSE.shuffle,
        SSE.movehl, SSE.movelh, SSE.setzero, SSE.add, V4.map2, V4.splat, z00, V4.lane_0, V4.lane_1, V4.lane_2, V4.lane_3]
      rfl
    rw [hR]
    have ka := fun a : F32 P => kept_add (P := P) a
    refine ⟨fun hi hj => ?_, fun hi hj h => ?_, fun h => ?_⟩
    · fin_cases i <;> fin_cases j <;> first | exact absurd rfl hi | exact absurd rfl hj | exact kept_refl _ | exact (ka _).1 | exact (ka _).2
    · have h : i ≠ 1 := h.resolve_right (by simp [hs])
      fin_cases i <;> fin_cases j <;> first | exact absurd rfl hi | exact absurd rfl hj | exact absurd rfl h | rfl
    · fin_cases i <;> fin_cases j <;> first | rfl | (simp at h)
  · have hR : R = ⟨⟨M.at 0 0, M.at 0 1, M.at 0 2, Lane.c0⟩, ⟨M.at 1 0, M.at 1 1, M.at 1 2, Lane.c0⟩,
        ⟨M.at 2 0, M.at 2 1, M.at 2 2, Lane.c0⟩, ⟨Lane.c0, Lane.c0, Lane.c0, Lane.c1⟩⟩ := by
      show XMLoadFloat3x3 c (XMStoreFloat3x3 c' m p M) p = _
      unfold XMLoadFloat3x3
      rw [if_neg hs, e0, e1, e2, e3, e4, e5, e6, e7, e8]
    rw [hR]
    refine ⟨fun hi hj => ?_, fun hi hj h => ?_, fun h => ?_⟩
    · fin_cases i <;> fin_cases j <;> first | exact absurd rfl hi | exact absurd rfl hj | exact kept_refl _
    · fin_cases i <;> fin_cases j <;> first | exact absurd rfl hi | exact absurd rfl hj | rfl
    · fin_cases i <;> fin_cases j <;> first | rfl | (simp at h)

/-- C06: in the SSE builds XMLoadFloat3x3 adds zero to row 1 and so turns -0 into +0: not the stored bits. -/
theorem C06_float3x3_fails (c : Cfg) (hs : c.sse = true) : ∃ (m : Mem (F32 P)) (p : ℕ) (M : M4 (F32 P)),
    (XMLoadFloat3x3 c (XMStoreFloat3x3 c m p M) p).at 1 0 ≠ M.at 1 0 := by
  refine ⟨fun _ => F32.ofBV 0#32, 0, ⟨.splat (F32.ofBV 0#32), .splat (F32.ofBV 0x80000000#32), .splat (F32.ofBV 0#32), .splat (F32.ofBV 0#32)⟩, ?_⟩
  intro h
  generalize hM : (⟨.splat (F32.ofBV 0#32), .splat (F32.ofBV 0x80000000#32), .splat (F32.ofBV 0#32), .splat (F32.ofBV 0#32)⟩ : M4 (F32 P)) = M at h
  generalize hm : (fun _ => F32.ofBV 0#32 : Mem (F32 P)) = m at h
  have e3 : XMStoreFloat3x3 c m 0 M 3 = M.at 1 0 := by
    have := (C06_matrix_stores c m 0 M).1.inside 3 (by simp)
    simpa using this
  have e : (XMLoadFloat3x3 c (XMStoreFloat3x3 c m 0 M) 0).at 1 0 = Lane.add Lane.c0 (XMStoreFloat3x3 c m 0 M 3) := by
    unfold XMLoadFloat3x3
    rw [if_pos hs]; rfl
  rw [e, e3] at h
  subst hM
  have h1 : IEEE.add P 0#32 0x80000000#32 = 0x80000000#32 := h
  have z1 : IEEE.isNaN 0#32 = false := by decide
  have z2 : IEEE.isInf 0#32 = false := by decide
  have z3 : IEEE.isNaN 0x80000000#32 = false := by decide
  have z4 : IEEE.isInf 0x80000000#32 = false := by decide
  unfold IEEE.add IEEE.addCore at h1
  simp only [z1, z2, z3, z4, Bool.or_false, Bool.false_eq_true, if_false] at h1
  revert h1; decide

example : XMLoadFloat3 Cfg.sse2 (fun q : ℕ => (F32.ofBV (BitVec.ofNat 32 q) : F32 P)) 7 = ⟨7#32, 8#32, 9#32, 0#32⟩ := rfl

end DXM.Props
