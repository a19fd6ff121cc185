import Verif.Basic

/-
The SSE intrinsics used by the code, on four lanes (Intel Intrinsics Guide semantics).
Only lane movement happens here; lane arithmetic is `Lane`.
-/

namespace DXM
namespace SSE
variable {α : Type}

/-- `_mm_shuffle_ps(a, b, _MM_SHUFFLE(i3,i2,i1,i0))` (src/lib.rs:508-552 for `_MM_SHUFFLE`). -/
@[simp] def shuffle (a b : V4 α) (i3 i2 i1 i0 : Fin 4) : V4 α := ⟨a.lane i0, a.lane i1, b.lane i2, b.lane i3⟩
/-- `XM_PERMUTE_PS!(v, _MM_SHUFFLE(i3,i2,i1,i0))`: `_mm_permute_ps` or `_mm_shuffle_ps(v,v,·)`, same result (src/lib.rs:540-552). -/
@[simp] def perm (a : V4 α) (i3 i2 i1 i0 : Fin 4) : V4 α := ⟨a.lane i0, a.lane i1, a.lane i2, a.lane i3⟩
@[simp] def unpacklo (a b : V4 α) : V4 α := ⟨a.x, b.x, a.y, b.y⟩
@[simp] def unpackhi (a b : V4 α) : V4 α := ⟨a.z, b.z, a.w, b.w⟩
@[simp] def movelh (a b : V4 α) : V4 α := ⟨a.x, a.y, b.x, b.y⟩
@[simp] def movehl (a b : V4 α) : V4 α := ⟨b.z, b.w, a.z, a.w⟩
@[simp] def moveldup (a : V4 α) : V4 α := ⟨a.x, a.x, a.z, a.z⟩
/-- `_mm_move_ss(a, b)` -/
@[simp] def move_ss (a b : V4 α) : V4 α := ⟨b.x, a.y, a.z, a.w⟩
/-- `_mm_insert_ps(a, b, i << 4)`: lane 0 of `b` into lane `i` of `a`. -/
@[simp] def insert (a b : V4 α) (i : Fin 4) : V4 α := a.setLane i b.x

variable [Lane α]
open Lane

@[simp] def setzero : V4 α := .splat c0
/-- `_mm_set_ss` -/
@[simp] def set_ss (v : α) : V4 α := ⟨v, c0, c0, c0⟩
@[simp] def add (a b : V4 α) : V4 α := .map2 Lane.add a b
@[simp] def sub (a b : V4 α) : V4 α := .map2 Lane.sub a b
@[simp] def mul (a b : V4 α) : V4 α := .map2 Lane.mul a b
@[simp] def div (a b : V4 α) : V4 α := .map2 Lane.div a b
@[simp] def sqrt (a : V4 α) : V4 α := .map Lane.sqrt a
@[simp] def min (a b : V4 α) : V4 α := .map2 minps a b
@[simp] def max (a b : V4 α) : V4 α := .map2 maxps a b
@[simp] def and (a b : V4 α) : V4 α := .map2 band a b
@[simp] def or (a b : V4 α) : V4 α := .map2 bor a b
@[simp] def xor (a b : V4 α) : V4 α := .map2 bxor a b
/-- `_mm_andnot_ps(a, b) = !a & b` -/
@[simp] def andnot (a b : V4 α) : V4 α := .map2 bandn a b
@[simp] def cmpeq (a b : V4 α) : V4 α := .map2 (fun a b => mask (Lane.eq a b)) a b
@[simp] def cmpneq (a b : V4 α) : V4 α := .map2 (fun a b => mask (Lane.ne a b)) a b
@[simp] def cmplt (a b : V4 α) : V4 α := .map2 (fun a b => mask (Lane.lt a b)) a b
@[simp] def cmple (a b : V4 α) : V4 α := .map2 (fun a b => mask (Lane.le a b)) a b
@[simp] def cmpgt (a b : V4 α) : V4 α := .map2 (fun a b => mask (Lane.gt a b)) a b
@[simp] def cmpge (a b : V4 α) : V4 α := .map2 (fun a b => mask (Lane.ge a b)) a b
@[simp] def cmpeq_epi32 (a b : V4 α) : V4 α := .map2 (fun a b => mask (Lane.ieq a b)) a b
/-- `_mm_cmplt_epi32` -/
@[simp] def cmplt_epi32 (a b : V4 α) : V4 α := .map2 (fun a b => mask (Lane.ilt a b)) a b
/-- `_mm_hadd_ps` -/
@[simp] def hadd (a b : V4 α) : V4 α := ⟨Lane.add a.x a.y, Lane.add a.z a.w, Lane.add b.x b.y, Lane.add b.z b.w⟩
/-- `_mm_add_ss` -/
@[simp] def add_ss (a b : V4 α) : V4 α := { a with x := Lane.add a.x b.x }
@[simp] def sub_ss (a b : V4 α) : V4 α := { a with x := Lane.sub a.x b.x }
@[simp] def div_ss (a b : V4 α) : V4 α := { a with x := Lane.div a.x b.x }
@[simp] def sqrt_ss (a : V4 α) : V4 α := { a with x := Lane.sqrt a.x }
@[simp] def rsqrt_ss (a : V4 α) : V4 α := { a with x := Lane.rsqrtE a.x }
@[simp] def rsqrt (a : V4 α) : V4 α := .map Lane.rsqrtE a
@[simp] def rcp (a : V4 α) : V4 α := .map Lane.rcpE a
/-- `_mm_dp_ps(a, b, 0x3f)` -/
@[simp] def dp3f (a b : V4 α) : V4 α :=
  .splat (Lane.add (Lane.add (Lane.mul a.x b.x) (Lane.mul a.y b.y)) (Lane.add c0 c0))
/-- `_mm_dp_ps(a, b, 0x7f)` -/
@[simp] def dp7f (a b : V4 α) : V4 α :=
  .splat (Lane.add (Lane.add (Lane.mul a.x b.x) (Lane.mul a.y b.y)) (Lane.add (Lane.mul a.z b.z) c0))
/-- `_mm_dp_ps(a, b, 0xff)` -/
@[simp] def dpff (a b : V4 α) : V4 α :=
  .splat (Lane.add (Lane.add (Lane.mul a.x b.x) (Lane.mul a.y b.y)) (Lane.add (Lane.mul a.z b.z) (Lane.mul a.w b.w)))
/-- `XM_FMADD_PS!(a, b, c)` (src/lib.rs:508-530): fused under FMA3, else multiply then add. -/
def fmadd (c : Cfg) (x y z : V4 α) : V4 α := if c.fma then .map3 Lane.fma x y z else add (mul x y) z
/-- `XM_FNMADD_PS!(a, b, c)`: `c - a*b`. -/
def fnmadd (c : Cfg) (x y z : V4 α) : V4 α := if c.fma then .map3 Lane.fnma x y z else sub z (mul x y)

/-- The integer made of four bits. -/
def mm (p q r s : Bool) : Nat := p.toNat + 2 * q.toNat + 4 * r.toNat + 8 * s.toNat
/-- `_mm_movemask_ps` -/
def movemask (a : V4 α) : Nat := mm (sgn a.x) (sgn a.y) (sgn a.z) (sgn a.w)

theorem mm_eq_15 (p q r s : Bool) : (mm p q r s == 15) = (p && q && r && s) := by cases p <;> cases q <;> cases r <;> cases s <;> rfl
theorem mm_eq_0 (p q r s : Bool) : (mm p q r s == 0) = (!p && !q && !r && !s) := by cases p <;> cases q <;> cases r <;> cases s <;> rfl
theorem mm_ne_0 (p q r s : Bool) : (mm p q r s != 0) = (p || q || r || s) := by cases p <;> cases q <;> cases r <;> cases s <;> rfl
theorem mm_ne_15 (p q r s : Bool) : (mm p q r s != 15) = (!p || !q || !r || !s) := by cases p <;> cases q <;> cases r <;> cases s <;> rfl
theorem mm_and7_eq_7 (p q r s : Bool) : ((mm p q r s &&& 7) == 7) = (p && q && r) := by cases p <;> cases q <;> cases r <;> cases s <;> rfl
theorem mm_and7_eq_0 (p q r s : Bool) : ((mm p q r s &&& 7) == 0) = (!p && !q && !r) := by cases p <;> cases q <;> cases r <;> cases s <;> rfl
theorem mm_and7_ne_7 (p q r s : Bool) : ((mm p q r s &&& 7) != 7) = (!p || !q || !r) := by cases p <;> cases q <;> cases r <;> cases s <;> rfl
theorem mm_and7_ne_0 (p q r s : Bool) : ((mm p q r s &&& 7) != 0) = (p || q || r) := by cases p <;> cases q <;> cases r <;> cases s <;> rfl
theorem mm_and3_eq_3 (p q r s : Bool) : ((mm p q r s &&& 3) == 3) = (p && q) := by cases p <;> cases q <;> cases r <;> cases s <;> rfl
theorem mm_and3_eq_0 (p q r s : Bool) : ((mm p q r s &&& 3) == 0) = (!p && !q) := by cases p <;> cases q <;> cases r <;> cases s <;> rfl
theorem mm_and3_ne_3 (p q r s : Bool) : ((mm p q r s &&& 3) != 3) = (!p || !q) := by cases p <;> cases q <;> cases r <;> cases s <;> rfl
theorem mm_and3_ne_0 (p q r s : Bool) : ((mm p q r s &&& 3) != 0) = (p || q) := by cases p <;> cases q <;> cases r <;> cases s <;> rfl

end SSE

/-! Mask laws available for every lawful lane type. -/
namespace Lane
variable {α : Type} [Lane α] [LawfulLane α]
omit [LawfulLane α] in
@[simp] theorem mask_true : (mask true : α) = ofBits 0xFFFFFFFF#32 := rfl
omit [LawfulLane α] in
@[simp] theorem mask_false : (mask false : α) = ofBits 0#32 := rfl
@[simp] theorem sgn_mask (b : Bool) : sgn (mask b : α) = b := by
  cases b <;> simp [LawfulLane.sgn_ones, LawfulLane.sgn_zero]
theorem band_mask_left (b : Bool) (x : α) : band (mask b) x = if b then x else ofBits 0#32 := by
  cases b <;> simp [LawfulLane.band_ones_left, LawfulLane.band_zero_left]
theorem band_mask_right (b : Bool) (x : α) : band x (mask b) = if b then x else ofBits 0#32 := by
  cases b <;> simp [LawfulLane.band_ones_right, LawfulLane.band_zero_right]
theorem band_mask_mask (a b : Bool) : band (mask a : α) (mask b) = mask (a && b) := by
  cases a <;> cases b <;> simp [LawfulLane.band_ones_right, LawfulLane.band_zero_right]
theorem select_mask (b : Bool) (x y : α) : bor (bandn (mask b) x) (band y (mask b)) = if b then y else x := by
  cases b <;> simp [LawfulLane.band_ones_right, LawfulLane.band_zero_right, LawfulLane.bandn_ones_left,
    LawfulLane.bandn_zero_left, LawfulLane.bor_zero_left, LawfulLane.bor_zero_right]
theorem select_mask' (b : Bool) (x y : α) : bor (bandn (mask b) x) (band (mask b) y) = if b then y else x := by
  cases b <;> simp [LawfulLane.band_ones_left, LawfulLane.band_zero_left, LawfulLane.bandn_ones_left,
    LawfulLane.bandn_zero_left, LawfulLane.bor_zero_left, LawfulLane.bor_zero_right]
@[simp] theorem ieq_mask_ones (b : Bool) : ieq (mask b : α) (ofBits 0xFFFFFFFF#32) = b := by
  cases b <;> simp [LawfulLane.ieq_ones_ones, LawfulLane.ieq_zero_ones]
@[simp] theorem ieq_mask_zero (b : Bool) : ieq (mask b : α) (ofBits 0#32) = !b := by
  cases b <;> simp [LawfulLane.ieq_ones_zero, LawfulLane.ieq_zero_zero]
end Lane
end DXM
