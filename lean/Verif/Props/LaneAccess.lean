import Verif.Model.LaneAccess
import Verif.Props.Movement
import Verif.Props.Quat
import Verif.Props.FloatLen
import Mathlib.Analysis.Quaternion

/-
C114: the integer and by-reference forms of lane access, vector and matrix construction, the scalar minimum and maximum, the
quaternion measures and the lane-wise power.  The lane type `α` is arbitrary in the access theorems: a lane is a bit pattern, read
and written as a float or as an unsigned integer.
-/

set_option linter.all false

namespace DXM.Props
open DXM DXM.E DXM.Spec DXM.FErr DXM.IEEE

variable {α : Type}

/-! ### C114 lane access in all forms -/

/-- One write through the API, as a float or as an integer. -/
inductive AnyWrite (α : Type) where
  | float (w : Write α)
  | intX (v : α) | intY (v : α) | intZ (v : α) | intW (v : α)
  | intByIndex (i : Fin 4) (v : α)

/-- The lane a write addresses and the bits it stores. -/
def AnyWrite.target : AnyWrite α → Fin 4 × α
  | .float w => w.target
  | .intX v => (0, v) | .intY v => (1, v) | .intZ v => (2, v) | .intW v => (3, v) | .intByIndex i v => (i, v)

/-- Performing a write with the API. -/
def AnyWrite.run [Lane α] (c : Cfg) (V : V4 α) : AnyWrite α → Outcome (V4 α)
  | .float w => w.run c V
  | .intX v => .ok (XMVectorSetIntX c V v)
  | .intY v => .ok (XMVectorSetIntY c V v)
  | .intZ v => .ok (XMVectorSetIntZ c V v)
  | .intW v => .ok (XMVectorSetIntW c V v)
  | .intByIndex i v => XMVectorSetIntByIndex V v i

/-- Performing a sequence of writes. -/
def AnyWrite.runAll [Lane α] (c : Cfg) : V4 α → List (AnyWrite α) → Outcome (V4 α)
  | V, [] => .ok V
  | V, w :: ws => match w.run c V with | .ok V' => runAll c V' ws | o => o

/-- The value lane `k` must hold after a history: that of the last write to `k`, else the initial one. -/
def lastAny (k : Fin 4) (init : α) : List (AnyWrite α) → α
  | [] => init
  | w :: ws => lastAny k (if w.target.1 = k then w.target.2 else init) ws

/-- Reading lane `k` as an integer, by name. -/
def readInt (c : Cfg) (V : V4 α) (k : Fin 4) : α :=
  match k with | 0 => XMVectorGetIntX V | 1 => XMVectorGetIntY c V | 2 => XMVectorGetIntZ c V | 3 => XMVectorGetIntW c V
/-- Reading lane `k` into a cell that held `old`. -/
def readPtr (c : Cfg) (old : α) (V : V4 α) (k : Fin 4) : α :=
  match k with | 0 => XMVectorGetXPtr old V | 1 => XMVectorGetYPtr c old V | 2 => XMVectorGetZPtr c old V | 3 => XMVectorGetWPtr c old V

/-- C114: every getter, float or integer, by name, by index or into a cell, reads the bits of the lane it names, in every build and
whatever the cell held. -/
theorem C114_get (c : Cfg) (V : V4 α) (k : Fin 4) (old : α) :
    readLane c V k = V.lane k ∧ readInt c V k = V.lane k ∧ readPtr c old V k = V.lane k ∧
    XMVectorGetByIndex V k = .ok (V.lane k) ∧ XMVectorGetIntByIndex V k = .ok (V.lane k) := by
  refine ⟨(C05_get c V k).1, ?_, ?_, (C05_get c V k).2, ?_⟩
  · match k with
    | 0 | 1 | 2 | 3 => simp [readInt, XMVectorGetIntX, XMVectorGetIntY, XMVectorGetIntZ, XMVectorGetIntW]
  · match k with
    | 0 | 1 | 2 | 3 => simp [readPtr, XMVectorGetXPtr, XMVectorGetYPtr, XMVectorGetZPtr, XMVectorGetWPtr]
  · match k with
    | 0 | 1 | 2 | 3 => rfl

/-- C114: a write, float or integer, changes exactly its own lane. -/
theorem C114_set [Lane α] (c : Cfg) (V : V4 α) (w : AnyWrite α) :
    ∃ V', w.run c V = .ok V' ∧ ∀ k, V'.lane k = if w.target.1 = k then w.target.2 else V.lane k := by
  have key (i : Fin 4) (v : α) : ∀ k, (V.setLane i v).lane k = if i = k then v else V.lane k := by
    intro k; match i, k with
    | 0, 0 | 0, 1 | 0, 2 | 0, 3 | 1, 0 | 1, 1 | 1, 2 | 1, 3 | 2, 0 | 2, 1 | 2, 2 | 2, 3 | 3, 0 | 3, 1 | 3, 2 | 3, 3 => simp [V4.setLane]
  cases w with
  | float w => exact C05_set c V w
  | intX v => exact ⟨V.setLane 0 v, by simp [AnyWrite.run, XMVectorSetIntX, V4.setLane], key 0 v⟩
  | intY v => exact ⟨V.setLane 1 v, by simp [AnyWrite.run, XMVectorSetIntY, V4.setLane], key 1 v⟩
  | intZ v => exact ⟨V.setLane 2 v, by simp [AnyWrite.run, XMVectorSetIntZ, V4.setLane], key 2 v⟩
  | intW v => exact ⟨V.setLane 3 v, by simp [AnyWrite.run, XMVectorSetIntW, V4.setLane], key 3 v⟩
  | intByIndex i v => exact ⟨V.setLane i v, by match i with | 0 => rfl | 1 => rfl | 2 => rfl | 3 => rfl, key i v⟩

/-- C114: after any history of float and integer writes, of any length, every form of read returns the last value written to its lane. -/
theorem C114_history [Lane α] (c : Cfg) (ws : List (AnyWrite α)) (V : V4 α) :
    ∃ V', AnyWrite.runAll c V ws = .ok V' ∧ ∀ k old,
      readLane c V' k = lastAny k (V.lane k) ws ∧ readInt c V' k = lastAny k (V.lane k) ws ∧
      readPtr c old V' k = lastAny k (V.lane k) ws ∧ XMVectorGetByIndex V' k = .ok (lastAny k (V.lane k) ws) ∧
      XMVectorGetIntByIndex V' k = .ok (lastAny k (V.lane k) ws) := by
  induction ws generalizing V with
  | nil => exact ⟨V, rfl, fun k old => C114_get c V k old⟩
  | cons w ws ih =>
    obtain ⟨V1, h1, hl⟩ := C114_set c V w
    obtain ⟨V2, h2, hr⟩ := ih V1
    exact ⟨V2, by simp [AnyWrite.runAll, h1, h2], fun k old => by have := hr k old; rw [hl k] at this; exact this⟩

/-- C114: an index beyond the vector is rejected, never read or written. -/
theorem C114_index_out_of_range (V : V4 α) (v : α) (i : Nat) (h : 4 ≤ i) :
    XMVectorGetIntByIndex V i = .panic ∧ XMVectorSetIntByIndex V v i = .panic := by
  match i, h with | i+4, _ => exact ⟨rfl, rfl⟩

-- four writes, float and integer, two of them to the same lane
example : ∃ V', AnyWrite.runAll Cfg.sse2 (⟨.num 0, .num 0, .num 0, .num 0⟩ : V4 E)
      [.float (.setY (.num 1)), .intByIndex 3 (.num 2), .intY .nan, .intX (.num 5)] = .ok V' ∧
    readLane Cfg.sse2 V' 1 = .nan ∧ readInt Cfg.sse2 V' 3 = .num 2 ∧ readPtr Cfg.sse2 (.num 9) V' 0 = .num 5 := by
  obtain ⟨V', h, r⟩ := C114_history Cfg.sse2 [.float (.setY (.num 1)), .intByIndex 3 (.num 2), .intY .nan, .intX (.num 5)] (⟨.num 0, .num 0, .num 0, .num 0⟩ : V4 E)
  exact ⟨V', h, (r 1 .nan).1, (r 3 .nan).2.1, (r 0 _).2.2.1⟩

/-! ### C114 construction -/

/-- C114: the constructors put each argument in the lane, or in the row and column, its position names. -/
theorem C114_construct (c : Cfg) (a : Fin 4 → α) (m : Fin 4 → Fin 4 → α) (v : α) (i j : Fin 4) :
    (XMVectorSet (a 0) (a 1) (a 2) (a 3)).lane i = a i ∧ (XMVectorSetInt c (a 0) (a 1) (a 2) (a 3)).lane i = a i ∧
    (XMVectorReplicate v).lane i = v ∧ (XMVectorReplicateInt c v).lane i = v ∧ (XMVectorReplicatePtr c v).lane i = v ∧
    ((XMMatrixSet (m 0 0) (m 0 1) (m 0 2) (m 0 3) (m 1 0) (m 1 1) (m 1 2) (m 1 3) (m 2 0) (m 2 1) (m 2 2) (m 2 3)
      (m 3 0) (m 3 1) (m 3 2) (m 3 3)).row i).lane j = m i j := by
  refine ⟨?_, ?_, ?_, ?_, ?_, ?_⟩
  · fin_cases i <;> rfl
  · unfold XMVectorSetInt; split_ifs <;> fin_cases i <;> rfl
  · fin_cases i <;> rfl
  · unfold XMVectorReplicateInt; split_ifs <;> fin_cases i <;> rfl
  · unfold XMVectorReplicatePtr; split_ifs <;> fin_cases i <;> rfl
  · fin_cases i <;> fin_cases j <;> rfl

/-- C114: the lane-wise power raises each lane to the power in the same lane, with the scalar function. -/
theorem C114_pow [Lane α] (A B : V4 α) (i : Fin 4) : (XMVectorPow A B).lane i = Lane.pow (A.lane i) (B.lane i) := by
  fin_cases i <;> rfl

/-! ### C114 scalar minimum and maximum -/

/-- C114: on a type whose `<` is a linear order, `XMMin` and `XMMax` are the order's minimum and maximum. -/
theorem C114_minmax_linear [LinearOrder α] (a b : α) :
    XMMin (fun x y => decide (x < y)) a b = min a b ∧ XMMax (fun x y => decide (x < y)) a b = max a b := by
  unfold XMMin XMMax
  constructor
  · by_cases h : a < b
    · simp [h, min_eq_left h.le]
    · simp [h, min_eq_right (not_lt.1 h)]
  · by_cases h : b < a
    · simp [h, max_eq_left h.le]
    · simp [h, max_eq_right (not_lt.1 h)]

/-- C114: on binary32, where a NaN is unordered: the second argument when one is a NaN; otherwise the smaller (larger) one, infinities included. -/
theorem C114_minmax_f32 {P : Env} (a b : F32 P) :
    ((IsNaN a.bits ∨ IsNaN b.bits) → XMMin Lane.lt a b = b ∧ XMMax Lane.lt a b = b) ∧
    (¬IsNaN a.bits → ¬IsNaN b.bits →
      (XMMin Lane.lt a b = a ∨ XMMin Lane.lt a b = b) ∧ (XMMax Lane.lt a b = a ∨ XMMax Lane.lt a b = b) ∧
      Lane.le (XMMin Lane.lt a b) a = true ∧ Lane.le (XMMin Lane.lt a b) b = true ∧
      Lane.le a (XMMax Lane.lt a b) = true ∧ Lane.le b (XMMax Lane.lt a b) = true) := by
  have lti : ∀ x y : F32 P, Lane.lt x y = true ↔ FLt x.bits y.bits := fun x y => lt_iff x.bits y.bits
  have lei : ∀ x y : F32 P, Lane.le x y = true ↔ FLe x.bits y.bits := fun x y => le_iff x.bits y.bits
  unfold XMMin XMMax
  refine ⟨fun h => ⟨if_neg fun hl => ?_, if_neg fun hl => ?_⟩, fun ha hb => ?_⟩
  · have := (lti a b).1 hl; exact h.elim this.1 this.2.1
  · have := (lti b a).1 hl; exact h.elim this.2.1 this.1
  · have e1 : FLe a.bits a.bits := ⟨ha, ha, le_refl _⟩
    have e2 : FLe b.bits b.bits := ⟨hb, hb, le_refl _⟩
    refine ⟨?_, ?_, ?_, ?_, ?_, ?_⟩
    · split_ifs <;> simp
    · split_ifs <;> simp
    · rw [lei]; split_ifs with h
      · exact e1
      · rw [lti] at h; exact ⟨hb, ha, not_lt.1 fun hh => h ⟨ha, hb, hh⟩⟩
    · rw [lei]; split_ifs with h
      · rw [lti] at h; exact ⟨ha, hb, h.2.2.le⟩
      · exact e2
    · rw [lei]; split_ifs with h
      · exact e1
      · rw [lti] at h; exact ⟨ha, hb, not_lt.1 fun hh => h ⟨hb, ha, hh⟩⟩
    · rw [lei]; split_ifs with h
      · rw [lti] at h; exact ⟨hb, ha, h.2.2.le⟩
      · exact e2
-- one and minus infinity are ordered, a NaN is not
example : ¬IsNaN 0x3F800000#32 ∧ ¬IsNaN 0xFF800000#32 ∧ IsNaN 0x7FC00000#32 := by
  refine ⟨?_, ?_, ?_⟩ <;> rw [← isNaN_iff] <;> decide +kernel

/-! ### C114 quaternion measures -/

/-- C114: the dot product, length and reciprocal length of quaternions are those of Mathlib's quaternions, in every lane. -/
theorem C114_quaternion (c : Cfg) (p q : Quaternion ℝ) :
    XMQuaternionDot c (quat p) (quat q) = all (inner ℝ p q) ∧ XMQuaternionLength c (quat p) = all ‖p‖ ∧
    (p ≠ 0 → XMQuaternionReciprocalLength c (quat p) = all ‖p‖⁻¹) := by
  have hn : ∀ p : Quaternion ℝ, ‖p‖ = √(p.imI * p.imI + p.imJ * p.imJ + p.imK * p.imK + p.re * p.re) := fun p => by
    rw [← Real.sqrt_sq (norm_nonneg p), sq, ← Quaternion.normSq_eq_norm_mul_self, normSq4]; congr 1; ring
  refine ⟨?_, ?_, fun h => ?_⟩
  · simp only [XMQuaternionDot, quat, vec4, XMVector4Dot_num, all, Quaternion.inner_def]
    simp; ring
  · simp only [XMQuaternionLength, quat, vec4, XMVector4Length_num, all, hn]; rfl
  · have h0 : p.imI * p.imI + p.imJ * p.imJ + p.imK * p.imK + p.re * p.re ≠ 0 := by
      have h1 := (Quaternion.normSq_ne_zero.2 h)
      rw [normSq4] at h1; intro h2; apply h1; linarith
    rw [hn, ← one_div]
    exact XMVector4ReciprocalLength_num c _ _ _ _ h0
example : (mkQ 1 2 3 4 : Quaternion ℝ) ≠ 0 := by
  intro h; have := congrArg QuaternionAlgebra.re h
  rw [mkQ_re, Quaternion.re_zero] at this; norm_num at this

end DXM.Props
