import Mathlib.Tactic.FinCases
import Verif.Lemmas.IEEE
import Verif.Model.Matrix
import Verif.Model.Misc



/-
The lane operations of interpretation I unfolded, and lane-by-lane reading of vectors.
-/

set_option linter.all false

namespace DXM
open Lane

theorem V4.lane_map {α β : Type} (f : α → β) (a : V4 α) (i : Fin 4) : (V4.map f a).lane i = f (a.lane i) := by fin_cases i <;> rfl
theorem V4.lane_map2 {α β γ : Type} (f : α → β → γ) (a : V4 α) (b : V4 β) (i : Fin 4) : (V4.map2 f a b).lane i = f (a.lane i) (b.lane i) := by fin_cases i <;> rfl
theorem V4.lane_map3 {α β γ δ : Type} (f : α → β → γ → δ) (a : V4 α) (b : V4 β) (d : V4 γ) (i : Fin 4) : (V4.map3 f a b d).lane i = f (a.lane i) (b.lane i) (d.lane i) := by fin_cases i <;> rfl
theorem V4.lane_splat {α : Type} (a : α) (i : Fin 4) : (V4.splat a).lane i = a := by fin_cases i <;> rfl

namespace F32
variable {P : Env}
theorem add_eq (a b : F32 P) : Lane.add a b = ofBV (IEEE.add P a.bits b.bits) := rfl
theorem sub_eq (a b : F32 P) : Lane.sub a b = ofBV (IEEE.sub P a.bits b.bits) := rfl
theorem mul_eq (a b : F32 P) : Lane.mul a b = ofBV (IEEE.mul P a.bits b.bits) := rfl
theorem div_eq (a b : F32 P) : Lane.div a b = ofBV (IEEE.div P a.bits b.bits) := rfl
theorem fma_eq (a b c : F32 P) : Lane.fma a b c = ofBV (IEEE.fma P a.bits b.bits c.bits) := rfl
theorem fnma_eq (a b c : F32 P) : Lane.fnma a b c = ofBV (IEEE.fnma P a.bits b.bits c.bits) := rfl
theorem sqrt_eq (a : F32 P) : Lane.sqrt a = ofBV (IEEE.sqrt P a.bits) := rfl
theorem neg_eq (a : F32 P) : Lane.neg a = ofBV (IEEE.neg a.bits) := rfl
theorem abs_eq (a : F32 P) : Lane.abs a = ofBV (IEEE.abs a.bits) := rfl
theorem band_eq (a b : F32 P) : Lane.band a b = ofBV (a.bits &&& b.bits) := rfl
theorem bor_eq (a b : F32 P) : Lane.bor a b = ofBV (a.bits ||| b.bits) := rfl
theorem bxor_eq' (a b : F32 P) : Lane.bxor a b = ofBV (a.bits ^^^ b.bits) := rfl
theorem bandn_eq (a b : F32 P) : Lane.bandn a b = ofBV (~~~a.bits &&& b.bits) := rfl
theorem lt_eq (a b : F32 P) : Lane.lt a b = IEEE.lt a.bits b.bits := rfl
theorem le_eq (a b : F32 P) : Lane.le a b = IEEE.le a.bits b.bits := rfl
theorem eq_eq (a b : F32 P) : Lane.eq a b = IEEE.eq a.bits b.bits := rfl
theorem ieq_eq (a b : F32 P) : Lane.ieq a b = decide (a.bits = b.bits) := rfl
theorem ilt_eq (a b : F32 P) : Lane.ilt a b = BitVec.slt a.bits b.bits := rfl
theorem isNaN_eq (a : F32 P) : Lane.isNaN a = IEEE.isNaN a.bits := rfl
theorem isInf_eq (a : F32 P) : Lane.isInf a = IEEE.isInf a.bits := rfl
theorem rint_eq (a : F32 P) : Lane.rint a = ofBV (IEEE.rint P a.bits) := rfl
theorem trunc_eq (a : F32 P) : Lane.trunc a = ofBV (IEEE.trunc P a.bits) := rfl
theorem floor_eq (a : F32 P) : Lane.floor a = ofBV (IEEE.floor P a.bits) := rfl
theorem ceil_eq (a : F32 P) : Lane.ceil a = ofBV (IEEE.ceil P a.bits) := rfl
theorem magic_eq (a m : F32 P) : Lane.addSubMagic a m = ofBV (IEEE.sub P (IEEE.add P a.bits m.bits) m.bits) := rfl
theorem cvttI_eq (a : F32 P) : Lane.cvttI a = ofBV (IEEE.ofI32 (IEEE.cvtt a.bits)) := rfl
theorem castI_eq (a : F32 P) : Lane.castI a = ofBV (IEEE.ofI32 (IEEE.castI32 a.bits)) := rfl
theorem i2f_eq (a : F32 P) : Lane.i2f a = ofBV (IEEE.ofI32 a.bits) := rfl
theorem u2f_eq (a : F32 P) : Lane.u2f a = ofBV (IEEE.ofU32 a.bits) := rfl
theorem ofBits_eq' (b : BitVec 32) : (Lane.ofBits b : F32 P) = ofBV b := rfl
@[simp] theorem bits_ofBV (a : BitVec 32) : (ofBV a : F32 P).bits = a := rfl
@[simp] theorem ofBV_bits (a : F32 P) : ofBV a.bits = a := rfl
@[simp] theorem bits_mask (b : Bool) : (Lane.mask b : F32 P).bits = if b then 0xFFFFFFFF#32 else 0#32 := by cases b <;> rfl
theorem bits_ite (p : Prop) [Decidable p] (a b : F32 P) : (if p then a else b).bits = if p then a.bits else b.bits := by split_ifs <;> rfl
theorem bits_inj {a b : F32 P} (h : a.bits = b.bits) : a = b := h
end F32
end DXM
