import Verif.Lemmas.Movement
import Verif.Lemmas.ESimp

/-
C01, C02, C04, C05: data movement, for every lane type (hence for every bit pattern) and every build.
-/

namespace DXM.Props
open Lane
variable {α : Type}

/-! ### C01 -/

/-- Run-time swizzle with in-range indices returns exactly the named lanes, debug or release. -/
theorem C01_swizzle (c : Cfg) (dbg : Bool) (V : V4 α) (e0 e1 e2 e3 : Fin 4) :
    XMVectorSwizzle c dbg V e0 e1 e2 e3 = .ok ⟨V.lane e0, V.lane e1, V.lane e2, V.lane e3⟩ := swizzle_fin ..

/-- Compile-time swizzle returns exactly the named lanes, and so agrees with the run-time form. -/
theorem C01_swizzle_const (c : Cfg) (dbg : Bool) (V : V4 α) (e0 e1 e2 e3 : Fin 4) :
    XMVectorSwizzleC c V e0 e1 e2 e3 = ⟨V.lane e0, V.lane e1, V.lane e2, V.lane e3⟩ ∧
    .ok (XMVectorSwizzleC c V e0 e1 e2 e3) = XMVectorSwizzle c dbg V e0 e1 e2 e3 := by
  rw [swizzleC_eq, swizzle_fin]; exact ⟨rfl, rfl⟩

/-- Run-time permute: lane `k` is the lane named by the `k`-th index. -/
theorem C01_permute [Lane α] [LawfulLane α] (c : Cfg) (dbg : Bool) (V1 V2 : V4 α) (p0 p1 p2 p3 : Fin 8) :
    XMVectorPermute c dbg V1 V2 p0 p1 p2 p3 =
      .ok ⟨Spec.pick V1 V2 p0, Spec.pick V1 V2 p1, Spec.pick V1 V2 p2, Spec.pick V1 V2 p3⟩ := permute_fin ..

/-- Compile-time permute, including the shuffle/select special cases. -/
theorem C01_permute_const [Lane α] [LawfulLane α] (c : Cfg) (dbg : Bool) (V1 V2 : V4 α) (p0 p1 p2 p3 : Fin 8) :
    XMVectorPermuteC c V1 V2 p0 p1 p2 p3 =
      ⟨Spec.pick V1 V2 p0, Spec.pick V1 V2 p1, Spec.pick V1 V2 p2, Spec.pick V1 V2 p3⟩ ∧
    .ok (XMVectorPermuteC c V1 V2 p0 p1 p2 p3) = XMVectorPermute c dbg V1 V2 p0 p1 p2 p3 := by
  rw [permuteC_eq, permute_fin]; exact ⟨rfl, rfl⟩

-- a reversing swizzle on four distinct lanes; a permute mixing both inputs
example : XMVectorSwizzle Cfg.sse2 true (⟨10, 11, 12, 13⟩ : V4 Nat) 3 2 1 0 = .ok ⟨13, 12, 11, 10⟩ := by decide
example (V1 V2 : V4 E) : XMVectorPermuteC Cfg.avx2Build V1 V2 7 0 5 2 = ⟨V2.w, V1.x, V2.y, V1.z⟩ := by simp

/-! ### C02 -/

/-- Full statement of C02 for swizzle: no call ever reads outside the vector. -/
def C02_swizzle_safe : Prop :=
  ∀ (c : Cfg) (dbg : Bool) (V : V4 E) (e0 e1 e2 e3 : Nat), XMVectorSwizzle c dbg V e0 e1 e2 e3 ≠ .outOfBounds

/-- The code violates it: the SSE2 (non-AVX) release build reads out of bounds for index 4. -/
theorem C02_swizzle_safe_fails : ¬ C02_swizzle_safe := by
  intro h
  exact h Cfg.sse2 false ⟨.num 0, .num 0, .num 0, .num 0⟩ 4 0 0 0 rfl

/-- Everywhere else swizzle is safe: in debug builds, without intrinsics, or with AVX. -/
theorem C02_swizzle_partial (c : Cfg) (dbg : Bool) (V : V4 α) (e0 e1 e2 e3 : Nat)
    (h : dbg = true ∨ c.sse = false ∨ c.avx = true) :
    XMVectorSwizzle c dbg V e0 e1 e2 e3 ≠ .outOfBounds := by
  have hl (V : V4 α) (e : Nat) : V.lane? (e % 4) = some (V.lane ⟨e % 4, Nat.mod_lt _ (by decide)⟩) :=
    lane?_fin V ⟨e % 4, Nat.mod_lt _ (by decide)⟩
  have hp (a b c d : Option α) : gather4 .panic a b c d ≠ .outOfBounds := by unfold gather4; split <;> simp
  unfold XMVectorSwizzle
  split
  · simp
  · rename_i hd
    split
    · split
      · simp [hl, gather4]
      · rcases h with h | h | h
        · simp [h] at hd
          have e0' := lane?_fin V ⟨e0, by omega⟩
          have e1' := lane?_fin V ⟨e1, by omega⟩
          have e2' := lane?_fin V ⟨e2, by omega⟩
          have e3' := lane?_fin V ⟨e3, by omega⟩
          simp only at e0' e1' e2' e3'
          simp [e0', e1', e2', e3', gather4]
        · simp_all
        · simp_all
    · exact hp _ _ _ _

/-- What an out-of-range swizzle does where it is safe: debug builds and the no-intrinsics build panic,
AVX release builds use the index modulo 4. -/
theorem C02_swizzle_out_of_range_partial (c : Cfg) (dbg : Bool) (V : V4 α) (e0 e1 e2 e3 : Nat)
    (h : 4 ≤ e0 ∨ 4 ≤ e1 ∨ 4 ≤ e2 ∨ 4 ≤ e3) :
    (dbg = true ∨ c.sse = false → XMVectorSwizzle c dbg V e0 e1 e2 e3 = .panic) ∧
    (dbg = false → c.sse = true → c.avx = true → XMVectorSwizzle c dbg V e0 e1 e2 e3 =
      .ok ⟨Spec.cyc V e0 0, Spec.cyc V e1 0, Spec.cyc V e2 0, Spec.cyc V e3 0⟩) := by
  have hl (V : V4 α) (e : Nat) : V.lane? (e % 4) = some (V.lane ⟨e % 4, Nat.mod_lt _ (by decide)⟩) :=
    lane?_fin V ⟨e % 4, Nat.mod_lt _ (by decide)⟩
  have hn (e : Nat) (he : 4 ≤ e) : V.lane? e = none := by
    match e, he with | e+4, _ => rfl
  constructor
  · intro hc
    unfold XMVectorSwizzle
    split
    · rfl
    · rename_i hd
      have : c.sse = false := by
        rcases hc with hc | hc
        · simp [hc] at hd; omega
        · exact hc
      simp [this]
      rcases h with h | h | h | h <;> simp only [hn _ h] <;> unfold gather4 <;> split <;> simp_all
  · intro h1 h2 h3
    simp [XMVectorSwizzle, h1, h2, h3, hl, gather4, Spec.cyc]

/-- Permute never reads out of bounds, whatever the indices. -/
theorem C02_permute [Lane α] (c : Cfg) (dbg : Bool) (V1 V2 : V4 α) (p0 p1 p2 p3 : Nat) :
    XMVectorPermute c dbg V1 V2 p0 p1 p2 p3 ≠ .outOfBounds := by
  have hl (V : V4 α) (e : Nat) : V.lane? (e % 4) = some (V.lane ⟨e % 4, Nat.mod_lt _ (by decide)⟩) :=
    lane?_fin V ⟨e % 4, Nat.mod_lt _ (by decide)⟩
  have hp (a b c d : Option α) : gather4 .panic a b c d ≠ .outOfBounds := by unfold gather4; split <;> simp
  unfold XMVectorPermute
  split
  · simp
  split
  · simp [permuteLaneAVX, hl, gather4]
  · exact hp _ _ _ _

/-- Without AVX, or in a debug build, a permute index above 7 panics. -/
theorem C02_permute_out_of_range [Lane α] (c : Cfg) (dbg : Bool) (V1 V2 : V4 α) (p0 p1 p2 p3 : Nat)
    (h : 8 ≤ p0 ∨ 8 ≤ p1 ∨ 8 ≤ p2 ∨ 8 ≤ p3) (hc : dbg = true ∨ c.sse = false ∨ c.avx = false) :
    XMVectorPermute c dbg V1 V2 p0 p1 p2 p3 = .panic := by
  have hn (p : Nat) (hp : 8 ≤ p) : permuteLane V1 V2 p = none := by
    unfold permuteLane
    have : 2 ≤ p / 4 := by omega
    match hq : p / 4, this with | q+2, _ => rfl
  unfold XMVectorPermute
  split
  · rfl
  · rename_i hd
    have : (c.sse && c.avx) = false := by
      rcases hc with hc | hc | hc
      · simp [hc] at hd; omega
      · simp [hc]
      · simp [hc]
    rw [this]
    rcases h with h | h | h | h <;> simp only [hn _ h] <;> unfold gather4 <;> split <;> simp_all

example : XMVectorPermute Cfg.sse2 false (⟨.num 0, .num 1, .num 2, .num 3⟩ : V4 E) ⟨.num 4, .num 5, .num 6, .num 7⟩ 0 9 0 0 = .panic := by
  exact C02_permute_out_of_range _ _ _ _ _ _ _ _ (by omega) (by simp [Cfg.sse2])
example : XMVectorSwizzle Cfg.avx2Build false (⟨10, 11, 12, 13⟩ : V4 Nat) 5 0 0 0 = .ok ⟨11, 10, 10, 10⟩ := by decide
example : XMVectorSwizzle Cfg.noIntrinsics false (⟨10, 11, 12, 13⟩ : V4 Nat) 5 0 0 0 = .panic := by decide

/-! ### C04 -/

/-- Splats, in every build. -/
theorem C04_splat (c : Cfg) (V : V4 α) :
    XMVectorSplatX c V = .splat V.x ∧ XMVectorSplatY c V = .splat V.y ∧
    XMVectorSplatZ c V = .splat V.z ∧ XMVectorSplatW c V = .splat V.w := by
  simp [XMVectorSplatX, XMVectorSplatY, XMVectorSplatZ, XMVectorSplatW]

/-- Merges interleave the low / high halves; both halves of both inputs can be read back. -/
theorem C04_merge (c : Cfg) (V1 V2 : V4 α) :
    XMVectorMergeXY c V1 V2 = ⟨V1.x, V2.x, V1.y, V2.y⟩ ∧ XMVectorMergeZW c V1 V2 = ⟨V1.z, V2.z, V1.w, V2.w⟩ := by
  simp [XMVectorMergeXY, XMVectorMergeZW]

/-- Merging loses nothing: two permutes of the merged vectors give the inputs back. -/
theorem C04_merge_lossless [Lane α] [LawfulLane α] (c : Cfg) (V1 V2 : V4 α) :
    XMVectorPermuteC c (XMVectorMergeXY c V1 V2) (XMVectorMergeZW c V1 V2) 0 2 4 6 = V1 ∧
    XMVectorPermuteC c (XMVectorMergeXY c V1 V2) (XMVectorMergeZW c V1 V2) 1 3 5 7 = V2 := by
  rw [(C04_merge c V1 V2).1, (C04_merge c V1 V2).2]; simp

/-- Shift left by `n ≤ 4` positions takes lanes `n..n+3` of the eight lanes `V1, V2`
(`n = 4` is rejected by the debug assertion, see `C04_shift_debug`). -/
theorem C04_shift [Lane α] [LawfulLane α] (c : Cfg) (dbg : Bool) (V1 V2 : V4 α) (n : Fin 4) :
    XMVectorShiftLeft c dbg V1 V2 n = .ok ⟨Spec.pick V1 V2 ⟨n, by omega⟩, Spec.pick V1 V2 ⟨n + 1, by omega⟩,
      Spec.pick V1 V2 ⟨n + 2, by omega⟩, Spec.pick V1 V2 ⟨n + 3, by omega⟩⟩ := by
  have := permute_fin c dbg V1 V2 ⟨n, by omega⟩ ⟨n + 1, by omega⟩ ⟨n + 2, by omega⟩ ⟨n + 3, by omega⟩
  simp only at this
  simp [XMVectorShiftLeft, this]

theorem C04_shift_debug [Lane α] (c : Cfg) (V1 V2 : V4 α) (n : Nat) (h : 4 ≤ n) :
    XMVectorShiftLeft c true V1 V2 n = .panic := by
  simp [XMVectorShiftLeft, h]

/-- Rotations move lane `k+n` (mod 4) to lane `k`, resp. lane `k-n` to lane `k`. -/
theorem C04_rotate (c : Cfg) (dbg : Bool) (V : V4 α) (n : Fin 4) :
    XMVectorRotateLeft c dbg V n = .ok ⟨Spec.cyc V 0 n, Spec.cyc V 1 n, Spec.cyc V 2 n, Spec.cyc V 3 n⟩ ∧
    XMVectorRotateRight c dbg V n =
      .ok ⟨Spec.cyc V 0 (4 - n), Spec.cyc V 1 (4 - n), Spec.cyc V 2 (4 - n), Spec.cyc V 3 (4 - n)⟩ := by
  constructor
  · match n with
    | 0 => cases dbg <;> exact swizzle_fin c _ V 0 1 2 3
    | 1 => cases dbg <;> exact swizzle_fin c _ V 1 2 3 0
    | 2 => cases dbg <;> exact swizzle_fin c _ V 2 3 0 1
    | 3 => cases dbg <;> exact swizzle_fin c _ V 3 0 1 2
  · match n with
    | 0 => cases dbg <;> exact swizzle_fin c _ V 0 1 2 3
    | 1 => cases dbg <;> exact swizzle_fin c _ V 3 0 1 2
    | 2 => cases dbg <;> exact swizzle_fin c _ V 2 3 0 1
    | 3 => cases dbg <;> exact swizzle_fin c _ V 1 2 3 0

/-- Rotating right by `n` undoes rotating left by `n`, and rotating left by `4 - n` is rotating right by `n`. -/
theorem C04_rotate_inverse (c : Cfg) (dbg : Bool) (V W : V4 α) (n : Fin 4) :
    (XMVectorRotateLeft c dbg V n = .ok W → XMVectorRotateRight c dbg W n = .ok V) ∧
    (n ≠ 0 → XMVectorRotateLeft c dbg V (4 - n) = XMVectorRotateRight c dbg V n) := by
  constructor
  · rw [(C04_rotate c dbg V n).1, (C04_rotate c dbg W n).2]
    intro h; cases h
    match n with | 0 => rfl | 1 => rfl | 2 => rfl | 3 => rfl
  · intro h
    match n with
    | 0 => exact absurd rfl h
    | 1 => exact ((C04_rotate c dbg V 3).1).trans ((C04_rotate c dbg V 1).2.symm)
    | 2 => exact ((C04_rotate c dbg V 2).1).trans ((C04_rotate c dbg V 2).2.symm)
    | 3 => exact ((C04_rotate c dbg V 1).1).trans ((C04_rotate c dbg V 3).2.symm)

/-- Insert: lane `k` comes from the rotated source where the `k`-th flag is set, else from the destination. -/
theorem C04_insert [Lane α] [LawfulLane α] (c : Cfg) (dbg : Bool) (VD VS : V4 α) (n : Fin 4) (s0 s1 s2 s3 : Bool) :
    XMVectorInsert c dbg VD VS n (if s0 then 1#32 else 0#32) (if s1 then 1#32 else 0#32) (if s2 then 1#32 else 0#32) (if s3 then 1#32 else 0#32)
      = .ok ⟨if s0 then Spec.cyc VS 0 n else VD.x, if s1 then Spec.cyc VS 1 n else VD.y,
             if s2 then Spec.cyc VS 2 n else VD.z, if s3 then Spec.cyc VS 3 n else VD.w⟩ := by
  unfold XMVectorInsert
  rw [(C04_rotate c dbg VS n).1]
  have hm : XMVectorSelectControl (α := α) c ((if s0 then 1#32 else 0#32) &&& 1) ((if s1 then 1#32 else 0#32) &&& 1)
      ((if s2 then 1#32 else 0#32) &&& 1) ((if s3 then 1#32 else 0#32) &&& 1) = .ok ⟨mask s0, mask s1, mask s2, mask s3⟩ := by
    cases s0 <;> cases s1 <;> cases s2 <;> cases s3 <;> cases h : c.sse <;> simp [XMVectorSelectControl, gather4, mask, h]
  rw [hm]
  simp [XMVectorSelect, select_mask]

-- rotating four distinct lanes by one; inserting two of them
example : XMVectorRotateLeft Cfg.sse2 true (⟨10, 11, 12, 13⟩ : V4 Nat) 1 = .ok ⟨11, 12, 13, 10⟩ := by decide
example : XMVectorRotateRight Cfg.sse2 true (⟨11, 12, 13, 10⟩ : V4 Nat) 1 = .ok ⟨10, 11, 12, 13⟩ := by decide
example (V1 V2 : V4 E) : XMVectorShiftLeft Cfg.sse2 true V1 V2 3 = .ok ⟨V1.w, V2.x, V2.y, V2.z⟩ := C04_shift _ _ V1 V2 3
example (VD VS : V4 E) : XMVectorInsert Cfg.sse2 true VD VS 1 1#32 0#32 0#32 1#32 = .ok ⟨VS.y, VD.y, VD.z, VS.x⟩ :=
  C04_insert _ _ VD VS 1 true false false true

/-! ### C05 -/

/-- One write through the API: by name or by index. -/
inductive Write (α : Type) where
  | setX (v : α) | setY (v : α) | setZ (v : α) | setW (v : α)
  | byIndex (i : Fin 4) (v : α)

/-- The lane a write addresses and the value it stores. -/
def Write.target : Write α → Fin 4 × α
  | .setX v => (0, v) | .setY v => (1, v) | .setZ v => (2, v) | .setW v => (3, v) | .byIndex i v => (i, v)

/-- Performing a write with the API. -/
def Write.run [Lane α] (c : Cfg) (V : V4 α) : Write α → Outcome (V4 α)
  | .setX v => .ok (XMVectorSetX c V v)
  | .setY v => .ok (XMVectorSetY c V v)
  | .setZ v => .ok (XMVectorSetZ c V v)
  | .setW v => .ok (XMVectorSetW c V v)
  | .byIndex i v => XMVectorSetByIndex V v i

/-- Performing a sequence of writes. -/
def Write.runAll [Lane α] (c : Cfg) : V4 α → List (Write α) → Outcome (V4 α)
  | V, [] => .ok V
  | V, w :: ws => match w.run c V with | .ok V' => runAll c V' ws | o => o

/-- The value lane `k` must hold after a history: that of the last write to `k`, else the initial one. -/
def lastWrite (k : Fin 4) (init : α) : List (Write α) → α
  | [] => init
  | w :: ws => lastWrite k (if w.target.1 = k then w.target.2 else init) ws

/-- Reading lane `k` through the API: the named getters, and by index. -/
def readLane (c : Cfg) (V : V4 α) (k : Fin 4) : α :=
  match k with | 0 => XMVectorGetX V | 1 => XMVectorGetY c V | 2 => XMVectorGetZ c V | 3 => XMVectorGetW c V

/-- The named getters and the indexed getter read the lane they name. -/
theorem C05_get (c : Cfg) (V : V4 α) (k : Fin 4) :
    readLane c V k = V.lane k ∧ XMVectorGetByIndex V k = .ok (V.lane k) := by
  match k with
  | 0 | 1 | 2 | 3 => simp [readLane, XMVectorGetX, XMVectorGetY, XMVectorGetZ, XMVectorGetW, XMVectorGetByIndex, V4.lane?]

/-- A write changes exactly its own lane. -/
theorem C05_set [Lane α] (c : Cfg) (V : V4 α) (w : Write α) :
    ∃ V', w.run c V = .ok V' ∧ ∀ k, V'.lane k = if w.target.1 = k then w.target.2 else V.lane k := by
  have key (i : Fin 4) (v : α) : ∀ k, (V.setLane i v).lane k = if i = k then v else V.lane k := by
    intro k; match i, k with
    | 0, 0 | 0, 1 | 0, 2 | 0, 3 | 1, 0 | 1, 1 | 1, 2 | 1, 3 | 2, 0 | 2, 1 | 2, 2 | 2, 3 | 3, 0 | 3, 1 | 3, 2 | 3, 3 => simp [V4.setLane]
  cases w with
  | setX v => exact ⟨V.setLane 0 v, by simp [Write.run, XMVectorSetX, V4.setLane], key 0 v⟩
  | setY v => exact ⟨V.setLane 1 v, by simp [Write.run, XMVectorSetY, V4.setLane], key 1 v⟩
  | setZ v => exact ⟨V.setLane 2 v, by simp [Write.run, XMVectorSetZ, V4.setLane], key 2 v⟩
  | setW v => exact ⟨V.setLane 3 v, by simp [Write.run, XMVectorSetW, V4.setLane], key 3 v⟩
  | byIndex i v => exact ⟨V.setLane i v, by match i with | 0 => rfl | 1 => rfl | 2 => rfl | 3 => rfl, key i v⟩

/-- After any history of writes, of any length, every lane reads back its last written value. -/
theorem C05_history [Lane α] (c : Cfg) (ws : List (Write α)) (V : V4 α) :
    ∃ V', Write.runAll c V ws = .ok V' ∧ ∀ k, readLane c V' k = lastWrite k (V.lane k) ws := by
  induction ws generalizing V with
  | nil => exact ⟨V, rfl, fun k => (C05_get c V k).1⟩
  | cons w ws ih =>
    obtain ⟨V1, h1, hl⟩ := C05_set c V w
    obtain ⟨V2, h2, hr⟩ := ih V1
    exact ⟨V2, by simp [Write.runAll, h1, h2], fun k => by rw [hr k, hl k]; rfl⟩

/-- Indices beyond the vector are rejected. -/
theorem C05_index_out_of_range (V : V4 α) (v : α) (i : Nat) (h : 4 ≤ i) :
    XMVectorGetByIndex V i = .panic ∧ XMVectorSetByIndex V v i = .panic := by
  match i, h with | i+4, _ => exact ⟨rfl, rfl⟩

-- three writes, two of them to the same lane
example : ∃ V', Write.runAll Cfg.sse2 (⟨.num 0, .num 0, .num 0, .num 0⟩ : V4 E) [.setY (.num 1), .byIndex 3 (.num 2), .setY .nan] = .ok V' ∧
    readLane Cfg.sse2 V' 1 = .nan ∧ readLane Cfg.sse2 V' 3 = .num 2 := by
  obtain ⟨V', h, r⟩ := C05_history Cfg.sse2 [.setY (.num 1), .byIndex 3 (.num 2), .setY .nan] (⟨.num 0, .num 0, .num 0, .num 0⟩ : V4 E)
  exact ⟨V', h, r 1, r 3⟩

end DXM.Props
