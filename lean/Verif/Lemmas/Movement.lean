import Verif.Model.Vector1
import Verif.Spec.Lanes

/-
Data movement for every lane type: run-time and compile-time swizzles and permutes.
-/

namespace DXM
open Lane
variable {α : Type}

theorem lane?_fin (V : V4 α) (e : Fin 4) : V.lane? e.val = some (V.lane e) := by
  match e with | 0 => rfl | 1 => rfl | 2 => rfl | 3 => rfl

theorem swizzle_fin (c : Cfg) (dbg : Bool) (V : V4 α) (e0 e1 e2 e3 : Fin 4) :
    XMVectorSwizzle c dbg V e0 e1 e2 e3 = .ok ⟨V.lane e0, V.lane e1, V.lane e2, V.lane e3⟩ := by
  simp [XMVectorSwizzle, Nat.mod_eq_of_lt, lane?_fin, gather4]

@[simp] theorem swizzleC_eq (c : Cfg) (V : V4 α) (e0 e1 e2 e3 : Fin 4) :
    XMVectorSwizzleC c V e0 e1 e2 e3 = ⟨V.lane e0, V.lane e1, V.lane e2, V.lane e3⟩ := by
  unfold XMVectorSwizzleC
  split
  · split
    · rename_i h; simp at h; obtain ⟨rfl, rfl, rfl, rfl⟩ := h; rfl
    split
    · rename_i h; simp at h; obtain ⟨rfl, rfl, rfl, rfl⟩ := h; rfl
    split
    · rename_i h; simp at h; obtain ⟨rfl, rfl, rfl, rfl⟩ := h; rfl
    split
    · rename_i h; simp at h; obtain ⟨rfl, rfl, rfl, rfl⟩ := h; rfl
    · rfl
  · rw [swizzle_fin]; rfl

@[simp] theorem pick_0 (V1 V2 : V4 α) : Spec.pick V1 V2 0 = V1.x := rfl
@[simp] theorem pick_1 (V1 V2 : V4 α) : Spec.pick V1 V2 1 = V1.y := rfl
@[simp] theorem pick_2 (V1 V2 : V4 α) : Spec.pick V1 V2 2 = V1.z := rfl
@[simp] theorem pick_3 (V1 V2 : V4 α) : Spec.pick V1 V2 3 = V1.w := rfl
@[simp] theorem pick_4 (V1 V2 : V4 α) : Spec.pick V1 V2 4 = V2.x := rfl
@[simp] theorem pick_5 (V1 V2 : V4 α) : Spec.pick V1 V2 5 = V2.y := rfl
@[simp] theorem pick_6 (V1 V2 : V4 α) : Spec.pick V1 V2 6 = V2.z := rfl
@[simp] theorem pick_7 (V1 V2 : V4 α) : Spec.pick V1 V2 7 = V2.w := rfl

variable [Lane α] [LawfulLane α]

omit [Lane α] [LawfulLane α] in
theorem pick_lt (V1 V2 : V4 α) (p : Fin 8) : 
  Spec.pick V1 V2 p = if decide (3 < p.val) = true then V2.lane (Fin.ofNat 4 p.val) else V1.lane (Fin.ofNat 4 p.val) := by
  match p with | 0 => rfl | 1 => rfl | 2 => rfl | 3 => rfl | 4 => rfl | 5 => rfl | 6 => rfl | 7 => rfl

theorem permuteLaneAVX_eq (V1 V2 : V4 α) (p : Fin 8) : permuteLaneAVX V1 V2 p.val = some (Spec.pick V1 V2 p) := by
  have h1 : decide (3 < (BitVec.ofNat 32 p.val).toInt) = decide (3 < p.val) := by revert p; decide
  have h2 (V : V4 α) : V.lane? (p.val % 4) = some (V.lane (Fin.ofNat 4 p.val)) := lane?_fin V (Fin.ofNat 4 p.val)
  simp only [permuteLaneAVX, h1, h2, select_mask', pick_lt]

omit [Lane α] [LawfulLane α] in
theorem permuteLane_eq (V1 V2 : V4 α) (p : Fin 8) : permuteLane V1 V2 p.val = some (Spec.pick V1 V2 p) := by
  match p with | 0 => rfl | 1 => rfl | 2 => rfl | 3 => rfl | 4 => rfl | 5 => rfl | 6 => rfl | 7 => rfl

theorem permute_fin (c : Cfg) (dbg : Bool) (V1 V2 : V4 α) (p0 p1 p2 p3 : Fin 8) :
    XMVectorPermute c dbg V1 V2 p0 p1 p2 p3 = .ok ⟨Spec.pick V1 V2 p0, Spec.pick V1 V2 p1, Spec.pick V1 V2 p2, Spec.pick V1 V2 p3⟩ := by
  have h (p : Fin 8) : p.val ≤ 7 := by omega
  simp [XMVectorPermute, h, permuteLane_eq, permuteLaneAVX_eq, gather4]

@[simp] theorem permuteC_eq (c : Cfg) (V1 V2 : V4 α) (p0 p1 p2 p3 : Fin 8) :
    XMVectorPermuteC c V1 V2 p0 p1 p2 p3 = ⟨Spec.pick V1 V2 p0, Spec.pick V1 V2 p1, Spec.pick V1 V2 p2, Spec.pick V1 V2 p3⟩ := by
  unfold XMVectorPermuteC
  split
  · split
    · rename_i h; simp at h; obtain ⟨rfl, rfl, rfl, rfl⟩ := h; rfl
    split
    · rename_i h; simp at h; obtain ⟨rfl, rfl, rfl, rfl⟩ := h; rfl
    split
    · rename_i h; simp at h; obtain ⟨rfl, rfl, rfl, rfl⟩ := h; rfl
    split
    · rename_i h; simp at h; obtain ⟨rfl, rfl, rfl, rfl⟩ := h; rfl
    · simp only [SSE.or, SSE.andnot, SSE.and, V4.map2, SSE.perm, select_mask', pick_lt]
  · rw [permute_fin]; rfl
end DXM
