import Verif.Lemmas.Geo
import Verif.Lemmas.RealGeo

/-
Rotations `rot q` of ℝ³ (unit q): linearity, isometry, and the change of frame `toLocal` that turns statements about oriented volumes
into statements about axis-aligned ones.
-/

set_option linter.all false

namespace DXM.RG
open DXM.E DXM.Spec Matrix

variable {q : Quaternion ℝ} (hq : Quaternion.normSq q = 1)
include hq

theorem nstar : Quaternion.normSq (star q) = 1 := by rw [Quaternion.normSq_star, hq]
theorem rot_eq (v : Pt) : rot q v = v ᵥ* rotM q := by
  have h := rotM_act q hq v
  ext i
  unfold rot
  rw [← h]
  fin_cases i <;> simp
theorem rot_pure (v : Pt) : pureQ (rot q v) = q * pureQ v * star q := by rw [rot_eq hq, rotM_act q hq]
theorem rot_add (u v : Pt) : rot q (u + v) = rot q u + rot q v := by simp only [rot_eq hq, Matrix.add_vecMul]
theorem rot_sub (u v : Pt) : rot q (u - v) = rot q u - rot q v := by simp only [rot_eq hq, Matrix.sub_vecMul]
theorem rot_neg (u : Pt) : rot q (-u) = -rot q u := by simp only [rot_eq hq, Matrix.neg_vecMul]
theorem rot_smul (t : ℝ) (u : Pt) : rot q (t • u) = t • rot q u := by simp only [rot_eq hq, Matrix.smul_vecMul]
theorem rot_zero : rot q 0 = 0 := by simp only [rot_eq hq, Matrix.zero_vecMul]
theorem rot_dot (u v : Pt) : rot q u ⬝ᵥ rot q v = u ⬝ᵥ v := by simp only [rot_eq hq, Props.rotM_dot q hq]
theorem rot_len (u : Pt) : len (rot q u) = len u := by unfold len; rw [rot_dot hq]
theorem rot_cross (u v : Pt) : rot q (crossProduct u v) = crossProduct (rot q u) (rot q v) := by simp only [rot_eq hq, Props.rotM_cross q hq]
theorem rot_star_rot (v : Pt) : rot (star q) (rot q v) = v := by
  refine pureQ_inj ?_
  have h : star q * q = 1 := by rw [Quaternion.star_mul_self, hq]; rfl
  rw [rot_pure (nstar hq), rot_pure hq, star_star]
  calc star q * (q * pureQ v * star q) * q = (star q * q) * pureQ v * (star q * q) := by simp only [mul_assoc]
    _ = _ := by rw [h, one_mul, mul_one]
theorem rot_rot_star (v : Pt) : rot q (rot (star q) v) = v := by
  have := rot_star_rot (nstar hq) v; rwa [star_star] at this
theorem rot_adj (u v : Pt) : rot q u ⬝ᵥ v = u ⬝ᵥ rot (star q) v := by
  conv_lhs => rw [← rot_rot_star hq v]
  rw [rot_dot hq]
theorem rot_mul {p : Quaternion ℝ} (hp : Quaternion.normSq p = 1) (v : Pt) : rot (p * q) v = rot p (rot q v) := by
  refine pureQ_inj ?_
  rw [rot_pure (by rw [map_mul, hp, hq, one_mul]), rot_pure hp, rot_pure hq, star_mul]
  simp only [mul_assoc]
theorem row_eq (i : Fin 3) : rotM q i = rot q (Pi.single i 1) := by
  rw [rot_eq hq, Matrix.single_one_vecMul]; rfl
theorem dot_row (i : Fin 3) (v : Pt) : rotM q i ⬝ᵥ v = rot (star q) v i := by
  rw [row_eq hq, rot_adj hq, single_one_dotProduct]

/-! change of frame -/

theorem mem_obox {a e p : Pt} : p ∈ obox a e q ↔ rot (star q) (p - a) ∈ box 0 e := by
  constructor
  · rintro ⟨u, hu, rfl⟩; rw [add_sub_cancel_left, rot_star_rot hq]; exact hu
  · intro h; exact ⟨_, h, by rw [rot_rot_star hq]; abel⟩
theorem mem_obox' {a e p : Pt} : p ∈ obox a e q ↔ ∀ i, |rot (star q) (p - a) i| ≤ e i := by
  rw [mem_obox hq]; unfold box; simp
theorem mem_ball_loc {a b p : Pt} {r : ℝ} : p ∈ ball b r ↔ rot (star q) (p - a) ∈ ball (rot (star q) (b - a)) r := by
  rw [mem_ball, mem_ball, ← rot_sub (nstar hq), rot_len (nstar hq), sub_sub_sub_cancel_right]
theorem mem_tri_loc {a v0 v1 v2 p : Pt} : p ∈ tri v0 v1 v2 ↔
    rot (star q) (p - a) ∈ tri (rot (star q) (v0 - a)) (rot (star q) (v1 - a)) (rot (star q) (v2 - a)) := by
  have hs := nstar hq
  have key : ∀ x y z : ℝ, x + y + z = 1 → x • rot (star q) (v0 - a) + y • rot (star q) (v1 - a) + z • rot (star q) (v2 - a)
      = rot (star q) (x • v0 + y • v1 + z • v2 - a) := by
    intro x y z h
    rw [← rot_smul hs, ← rot_smul hs, ← rot_smul hs, ← rot_add hs, ← rot_add hs]
    congr 1
    have : a = (x + y + z) • a := by rw [h, one_smul]
    conv_rhs => rw [this]
    module
  constructor
  · rintro ⟨x, y, z, hx, hy, hz, h, rfl⟩
    exact ⟨x, y, z, hx, hy, hz, h, (key x y z h).symm⟩
  · rintro ⟨x, y, z, hx, hy, hz, h, e⟩
    refine ⟨x, y, z, hx, hy, hz, h, ?_⟩
    rw [key x y z h] at e
    have := congrArg (rot q) e
    rw [rot_rot_star hq, rot_rot_star hq] at this
    exact sub_left_injective this
theorem mem_ray_loc {a o d p : Pt} : p ∈ ray o d ↔ rot (star q) (p - a) ∈ ray (rot (star q) (o - a)) (rot (star q) d) := by
  have hs := nstar hq
  have key : ∀ t : ℝ, rot (star q) (o - a) + t • rot (star q) d = rot (star q) (o + t • d - a) := by
    intro t; rw [← rot_smul hs, ← rot_add hs]; congr 1; abel
  constructor
  · rintro ⟨t, ht, rfl⟩; exact ⟨t, ht, (key t).symm⟩
  · rintro ⟨t, ht, e⟩
    refine ⟨t, ht, ?_⟩
    rw [key] at e
    have := congrArg (rot q) e
    rw [rot_rot_star hq, rot_rot_star hq] at this
    exact sub_left_injective this
/-- Every point is the local image of a point. -/
theorem loc_surj (a u : Pt) : ∃ p, rot (star q) (p - a) = u := ⟨a + rot q u, by rw [add_sub_cancel_left, rot_star_rot hq]⟩
theorem loc_nonempty {a : Pt} {S T S' T' : Set Pt} (hS : ∀ p, p ∈ S ↔ rot (star q) (p - a) ∈ S') (hT : ∀ p, p ∈ T ↔ rot (star q) (p - a) ∈ T') :
    (S ∩ T).Nonempty ↔ (S' ∩ T').Nonempty := by
  constructor
  · rintro ⟨p, h1, h2⟩; exact ⟨_, (hS p).1 h1, (hT p).1 h2⟩
  · rintro ⟨u, h1, h2⟩
    obtain ⟨p, rfl⟩ := loc_surj hq a u
    exact ⟨p, (hS p).2 h1, (hT p).2 h2⟩
theorem loc_subset {a : Pt} {S T S' T' : Set Pt} (hS : ∀ p, p ∈ S ↔ rot (star q) (p - a) ∈ S') (hT : ∀ p, p ∈ T ↔ rot (star q) (p - a) ∈ T') :
    S ⊆ T ↔ S' ⊆ T' := by
  constructor
  · intro h u hu
    obtain ⟨p, rfl⟩ := loc_surj hq a u
    exact (hT p).1 (h ((hS p).2 hu))
  · intro h p hp; exact (hT p).2 (h ((hS p).1 hp))
theorem plane_loc (a n p : Pt) (d : ℝ) : planeAt n d p = planeAt (rot (star q) n) (planeAt n d a) (rot (star q) (p - a)) := by
  unfold planeAt; rw [rot_dot (nstar hq), dotProduct_sub]; ring

omit hq in
theorem rot_one (v : Pt) : rot 1 v = v := by
  unfold rot; rw [star_one, one_mul, mul_one]; ext i; fin_cases i <;> simp
omit hq in
theorem obox_one (a e : Pt) : obox a e 1 = box a e := by
  ext p; rw [mem_obox' (by simp), star_one, rot_one]; unfold box; simp

end DXM.RG
