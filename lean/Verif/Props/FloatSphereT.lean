import Verif.Props.FloatConv
import Verif.Props.FloatMat

/-
C142: spheres moved by a matrix on binary32 lanes.
-/

set_option linter.all false

namespace DXM.Props
open DXM.Spec DXM.FErr DXM.IEEE DXM.RG Matrix
variable {P : Env}

/-- The linear part of a matrix of lanes: row `i`, column `j` for `i, j < 3`. -/
noncomputable def linOf (M : M4 (F32 P)) : Matrix (Fin 3) (Fin 3) ℝ := ![ptOf (xyz M.r0), ptOf (xyz M.r1), ptOf (xyz M.r2)]

namespace SphT
theorem vm (A : Matrix (Fin 3) (Fin 3) ℝ) (u : Pt) : u ᵥ* A = u 0 • A 0 + u 1 • A 1 + u 2 • A 2 := by
  ext j; simp [vecMul, dotProduct, Fin.sum_univ_three]
/-- Rows of length at most `s`, orthogonal up to `η s²`, stretch a vector by at most `s (1 + η)`. -/
theorem stretch (A : Matrix (Fin 3) (Fin 3) ℝ) (u : Pt) {s η : ℝ} (s0 : 0 ≤ s) (η0 : 0 ≤ η) (hs : ∀ i, len (A i) ≤ s) (ho : ∀ i j, i ≠ j → |A i ⬝ᵥ A j| ≤ η * (s * s)) :
    len (u ᵥ* A) ≤ s * (1 + η) * len u := by
  have n0 := len_nonneg u
  rw [len_le_iff (by positivity), vm]
  have d : ∀ i, A i ⬝ᵥ A i ≤ s * s := fun i => by rw [← len_sq]; exact mul_self_le_mul_self (len_nonneg _) (hs i)
  have k : ∀ i j, i ≠ j → u i * u j * (A i ⬝ᵥ A j) ≤ η * (s * s) * ((u i * u i + u j * u j) / 2) := fun i j h => by
    have h1 := ho i j h
    have h2 : |u i * u j| ≤ (u i * u i + u j * u j) / 2 := abs_le.2 ⟨by nlinarith [sq_nonneg (u i + u j)], by nlinarith [sq_nonneg (u i - u j)]⟩
    have h3 : u i * u j * (A i ⬝ᵥ A j) ≤ |u i * u j| * |A i ⬝ᵥ A j| := by rw [← abs_mul]; exact le_abs_self _
    have h4 := mul_le_mul h2 h1 (abs_nonneg _) ((abs_nonneg _).trans h2)
    linarith
  have e : u 0 * u 0 + u 1 * u 1 + u 2 * u 2 = len u * len u := by rw [len_sq]; simp [dotProduct, Fin.sum_univ_three]
  have q : ∀ i, u i * u i * (A i ⬝ᵥ A i) ≤ u i * u i * (s * s) := fun i => mul_le_mul_of_nonneg_left (d i) (mul_self_nonneg _)
  have ss : 0 ≤ s * s := by positivity
  have fin : s * s * (len u * len u) + 2 * (η * (s * s) * (len u * len u)) ≤ s * (1 + η) * len u * (s * (1 + η) * len u) := by
    have : s * (1 + η) * len u * (s * (1 + η) * len u) = s * s * (len u * len u) + 2 * (η * (s * s) * (len u * len u)) + η * η * (s * s) * (len u * len u) := by ring
    rw [this]
    have : 0 ≤ η * η * (s * s) * (len u * len u) := by positivity
    linarith
  refine le_trans ?_ fin
  rw [← e]
  simp only [add_dotProduct, dotProduct_add, smul_dotProduct, dotProduct_smul, smul_eq_mul]
  have k1 := k 0 1 (by decide); have k2 := k 0 2 (by decide); have k3 := k 1 2 (by decide)
  rw [dotProduct_comm (A 1) (A 0), dotProduct_comm (A 2) (A 0), dotProduct_comm (A 2) (A 1)]
  have q0 := q 0; have q1 := q 1; have q2 := q 2
  nlinarith [q0, q1, q2, k1, k2, k3]
end SphT

/-- C142: a sphere moved by a matrix of finite lanes whose upper rows have length at most `s`, one of them `s`, and are orthogonal up to `η s²`. -/
theorem C142_sphereTransform (c : Cfg) (S : BoundingSphere (F32 P)) (M : M4 (F32 P)) (h : FinSphere S) (h0 : 0 ≤ value S.Radius.bits) (hM : ∀ i, Fins 4 (M.row i))
    (s η W T : ℝ) (η0 : 0 ≤ η) (hs : ∀ i, len (linOf M i) ≤ s) (hs' : ∃ i, len (linOf M i) = s) (s1 : 1/2^40 ≤ s) (s2 : s ≤ 2^40)
    (ho : ∀ i j, i ≠ j → |linOf M i ⬝ᵥ linOf M j| ≤ η * (s * s))
    (b : ∀ i, |ptOf S.Center i| ≤ W) (w : value S.Radius.bits ≤ W) (hW : W ≤ 2^40) (hT : ∀ i, |ptOf (xyz M.r3) i| ≤ T) (hT' : T ≤ 2^80) :
    let D := BoundingSphere.TransformMatrix c S M
    let img := fun p : Pt => p ᵥ* linOf M + ptOf (xyz M.r3)
    let m := η * (value S.Radius.bits * s) + (W * s + T) / 2^18 + 1/2^100
    FinSphere D ∧ (∀ p ∈ ball (ptOf S.Center) (value S.Radius.bits), img p ∈ ball (ptOf D.Center) (value D.Radius.bits + m)) ∧
    ∀ (ρ : ℝ), (∀ p ∈ ball (ptOf S.Center) (value S.Radius.bits), img p ∈ ball (img (ptOf S.Center)) ρ) → value D.Radius.bits ≤ ρ + m := by
  intro D img m
  set A := linOf M with hA
  set r := value S.Radius.bits with hr
  set a := ptOf S.Center with ha
  set t := ptOf (xyz M.r3) with ht
  have W0 : 0 ≤ W := h0.trans w
  have T0 : 0 ≤ T := (abs_nonneg _).trans (hT 0)
  have s0 : 0 < s := lt_of_lt_of_le (by positivity) s1
  have tp := tiny_pos
  have t1 : tiny ≤ 1/2^110 := by unfold tiny; norm_num
  have Ws : W * s ≤ 2^80 := (mul_le_mul hW s2 s0.le (by positivity)).trans (by norm_num)
  have Ws0 : 0 ≤ W * s := by positivity
  have rs : r * s ≤ W * s := mul_le_mul_of_nonneg_right w s0.le
  have rs0 : 0 ≤ r * s := by positivity
  -- the center
  have cen : ∀ j : Fin 3, Fin' (F3.lane D.Center j) ∧ |ptOf D.Center j - img a j| ≤ 5/2^24 * (3 * (W * s) + T + 1/2^106) := by
    intro j
    have fV : Fins 3 (load3 S.Center : V4 (F32 P)) := fun k hk => by
      fin_cases k
      · exact h.1.1
      · exact h.1.2.1
      · exact h.1.2.2
      · exact absurd hk (by decide)
    have n := C94_transform3 c (load3 S.Center) M fV hM j.castSucc
    have ev : vals (load3 S.Center : V4 (F32 P)) 0 * vals M.r0 j.castSucc + vals (load3 S.Center : V4 (F32 P)) 1 * vals M.r1 j.castSucc + vals (load3 S.Center : V4 (F32 P)) 2 * vals M.r2 j.castSucc + vals M.r3 j.castSucc = img a j := by
      show _ = (a ᵥ* A + t) j
      rw [SphT.vm]
      fin_cases j <;> rfl
    have em : |vals (load3 S.Center : V4 (F32 P)) 0 * vals M.r0 j.castSucc| + |vals (load3 S.Center : V4 (F32 P)) 1 * vals M.r1 j.castSucc| + |vals (load3 S.Center : V4 (F32 P)) 2 * vals M.r2 j.castSucc| + |vals M.r3 j.castSucc| =
        |a 0 * A 0 j| + |a 1 * A 1 j| + |a 2 * A 2 j| + |t j| := by fin_cases j <;> rfl
    have mb : |a 0 * A 0 j| + |a 1 * A 1 j| + |a 2 * A 2 j| + |t j| ≤ 3 * (W * s) + T := by
      have k : ∀ i, |a i * A i j| ≤ W * s := fun i => by
        rw [abs_mul]; exact mul_le_mul (b i) ((abs_le_len (A i) j).trans (hs i)) (abs_nonneg _) W0
      linarith [k 0, k 1, k 2, hT j]
    rw [ev, em] at n
    obtain ⟨f, e⟩ := n (by linarith)
    have el : F3.lane D.Center j = (XMVector3Transform c (load3 S.Center) M).lane j.castSucc := by fin_cases j <;> rfl
    rw [ptOf_lane, el]
    refine ⟨f, e.trans ?_⟩
    have g4 : gam 4 ≤ 5/2^24 := by unfold gam ulp2; norm_num
    exact mul_le_mul g4 (by linarith) (by positivity) (by norm_num)
  have cl : len (ptOf D.Center - img a) ≤ 2 * (5/2^24 * (3 * (W * s) + T + 1/2^106)) :=
    BoxSph.len_small (by positivity) (fun j => (cen j).2)
  -- the radius
  have dts : ∀ i : Fin 3, ∀ V : V4 (F32 P), Fins 4 V → ptOf (xyz V) = A i → Fin' (XMVector3Dot c V V).x ∧ |val (XMVector3Dot c V V).x - A i ⬝ᵥ A i| ≤ gam 3 * (s * s + 3 * tiny) ∧ A i ⬝ᵥ A i ≤ s * s := by
    intro i V hV hi
    have fV : Fins 3 V := fun k hk => hV k (by omega)
    have n := (C93_lengthSq c V 0).2.1 fV
    have e : vals V 0 ^ 2 + vals V 1 ^ 2 + vals V 2 ^ 2 = A i ⬝ᵥ A i := by
      rw [← hi]; simp only [dotProduct, Fin.sum_univ_three, sq]; rfl
    have d : A i ⬝ᵥ A i ≤ s * s := by rw [← len_sq]; exact mul_self_le_mul_self (len_nonneg _) (hs i)
    have ss : s * s ≤ 2^80 := (mul_le_mul s2 s2 s0.le (by positivity)).trans (by norm_num)
    rw [e] at n
    obtain ⟨f, q⟩ := n (by linarith)
    exact ⟨f, q.trans (mul_le_mul_of_nonneg_left (by linarith) (gam_nonneg (by norm_num))), d⟩
  obtain ⟨f0, e0, d0⟩ := dts 0 M.r0 (hM 0) rfl
  obtain ⟨f1, e1, d1⟩ := dts 1 M.r1 (hM 1) rfl
  obtain ⟨f2, e2, d2⟩ := dts 2 M.r2 (hM 2) rfl
  obtain ⟨f3, e3⟩ := max_val f1 f2
  obtain ⟨f4, e4⟩ := max_val f0 f3
  set x := Lane.maxps (XMVector3Dot c M.r0 M.r0).x (Lane.maxps (XMVector3Dot c M.r1 M.r1).x (XMVector3Dot c M.r2 M.r2).x) with hx
  have near : |val x - s * s| ≤ gam 3 * (s * s + 3 * tiny) := by
    rw [e4, e3]
    have q0 := abs_le.1 e0; have q1 := abs_le.1 e1; have q2 := abs_le.1 e2
    refine abs_le.2 ⟨?_, ?_⟩
    · obtain ⟨i, hi⟩ := hs'
      have di : A i ⬝ᵥ A i = s * s := by rw [← len_sq, hi]
      have m1 := le_max_left (val (XMVector3Dot c M.r0 M.r0).x) (max (val (XMVector3Dot c M.r1 M.r1).x) (val (XMVector3Dot c M.r2 M.r2).x))
      have m2 := (le_max_left (val (XMVector3Dot c M.r1 M.r1).x) (val (XMVector3Dot c M.r2 M.r2).x)).trans (le_max_right (val (XMVector3Dot c M.r0 M.r0).x) _)
      have m3 := (le_max_right (val (XMVector3Dot c M.r1 M.r1).x) (val (XMVector3Dot c M.r2 M.r2).x)).trans (le_max_right (val (XMVector3Dot c M.r0 M.r0).x) _)
      fin_cases i
      · have : A 0 ⬝ᵥ A 0 = s * s := di
        linarith
      · have : A 1 ⬝ᵥ A 1 = s * s := di
        linarith
      · have : A 2 ⬝ᵥ A 2 = s * s := di
        linarith
    · have := max_le (show val (XMVector3Dot c M.r0 M.r0).x ≤ s * s + gam 3 * (s * s + 3 * tiny) by linarith)
        (max_le (show val (XMVector3Dot c M.r1 M.r1).x ≤ s * s + gam 3 * (s * s + 3 * tiny) by linarith) (show val (XMVector3Dot c M.r2 M.r2).x ≤ s * s + gam 3 * (s * s + 3 * tiny) by linarith))
      linarith
  have lsq : LSq 3 (s * s) x := by
    intro _
    refine ⟨?_, by norm_num, fun _ => ⟨f4, ?_⟩⟩
    · rw [abs_of_nonneg (by positivity)]; push_cast; linarith
    · push_cast; exact near
  have mid : Mid (s * s) := by
    have p : (0:ℝ) < 1/2^40 := by positivity
    have l := mul_le_mul s1 s1 p.le s0.le
    have u := mul_le_mul s2 s2 s0.le (by positivity)
    exact ⟨le_trans (by norm_num) l, u.trans (by norm_num)⟩
  have sq := lsq.sqrt mid (by norm_num)
  rw [Real.sqrt_mul_self s0.le] at sq
  have rad := (leaf h.2).mul sq (by
    show |r| ≤ _; rw [abs_of_nonneg h0]; linarith) (by linarith)
  obtain ⟨fR, eR⟩ := (rad (by norm_num)).2.2 (by
    show |r| * s + tiny ≤ _; rw [abs_of_nonneg h0]; linarith)
  have g6 : gam (0 + (3 + 2) + 1) ≤ 7/2^24 := by unfold gam ulp2; norm_num
  have eR' : |value D.Radius.bits - r * s| ≤ 7/2^24 * (r * s + tiny) := by
    have k : |val S.Radius| = r := abs_of_nonneg h0
    rw [k] at eR
    exact eR.trans (mul_le_mul_of_nonneg_right g6 (by positivity))
  have er := abs_le.1 eR'
  refine ⟨⟨⟨(cen 0).1, (cen 1).1, (cen 2).1⟩, fR⟩, fun p hp => ?_, fun ρ hρ => ?_⟩
  · rw [mem_ball] at *
    have st := SphT.stretch A (p - a) s0.le η0 hs ho
    have e : img p - img a = (p - a) ᵥ* A := by
      show p ᵥ* A + t - (a ᵥ* A + t) = _
      rw [sub_vecMul]; abel
    have tr := len_sub_le (img p) (img a) (ptOf D.Center)
    rw [e, len_sub_comm (img a)] at tr
    have st2 := mul_le_mul_of_nonneg_left hp (show 0 ≤ s * (1 + η) by positivity)
    have e2 : s * (1 + η) * r = r * s + η * (r * s) := by ring
    rw [e2] at st2
    show _ ≤ _ + (η * (r * s) + (W * s + T) / 2^18 + 1/2^100)
    linarith
  · obtain ⟨i, hi⟩ := hs'
    have hl : len (Pi.single i (1:ℝ) : Pt) = 1 := by
      unfold len; rw [single_one_dotProduct]; simp
    have := hρ (a + r • Pi.single i 1) (by rw [mem_ball, add_sub_cancel_left, len_smul, hl, abs_of_nonneg h0, mul_one])
    rw [mem_ball, show img (a + r • Pi.single i 1) - img a = r • A i by
      show (a + r • Pi.single i 1) ᵥ* A + t - (a ᵥ* A + t) = _
      rw [add_vecMul, smul_vecMul, single_one_vecMul]; abel, len_smul, abs_of_nonneg h0, hi] at this
    have η' : 0 ≤ η * (r * s) := by positivity
    show _ ≤ ρ + (η * (r * s) + (W * s + T) / 2^18 + 1/2^100)
    linarith

/-! The hypotheses are met: the sphere of radius 1/2 about the origin under scaling by 2 and a move by (1, 0, 0). -/
open Loc in
noncomputable def SphT.mx : M4 (F32 P) := ⟨⟨fl 0x40000000#32, fl 0#32, fl 0#32, fl 0#32⟩, ⟨fl 0#32, fl 0x40000000#32, fl 0#32, fl 0#32⟩, ⟨fl 0#32, fl 0#32, fl 0x40000000#32, fl 0#32⟩, ⟨fl 0x3F800000#32, fl 0#32, fl 0#32, fl 0x3F800000#32⟩⟩
open Loc in
example (c : Cfg) : let D := BoundingSphere.TransformMatrix c (⟨o3, fl 0x3F000000#32⟩ : BoundingSphere (F32 P)) SphT.mx
    FinSphere D ∧ value D.Radius.bits ≤ 1 + 1/2^16 ∧ ∀ p : Pt, len p ≤ 1/2 → (2:ℝ) • p + ![1, 0, 0] ∈ ball (ptOf D.Center) (value D.Radius.bits + 1/2^16) := by
  intro D
  have z : IsFinite 0#32 := by decide
  have o : IsFinite 0x3F800000#32 := by decide
  have t : IsFinite 0x40000000#32 := by decide
  have fM : ∀ i, Fins 4 ((SphT.mx : M4 (F32 P)).row i) := fun i k _ => by
    fin_cases i <;> fin_cases k
    exacts [t, z, z, z, z, t, z, z, z, z, t, z, o, z, z, o]
  have eA : linOf (SphT.mx : M4 (F32 P)) = (2:ℝ) • (1 : Matrix (Fin 3) (Fin 3) ℝ) := by
    funext i j
    have d2 : value (fl 0x40000000#32 : F32 P).bits = 2 * 1 := v2.trans (by norm_num)
    have d0 : value (fl 0#32 : F32 P).bits = 2 * 0 := v0.trans (by norm_num)
    fin_cases i <;> fin_cases j
    exacts [d2, d0, d0, d0, d2, d0, d0, d0, d2]
  have eT : ptOf (xyz (SphT.mx : M4 (F32 P)).r3) = ![1, 0, 0] := by
    funext k; fin_cases k
    exacts [v1, v0, v0]
  have rh : value (fl 0x3F000000#32 : F32 P).bits = 1/2 := vh
  have row : ∀ i, len (linOf (SphT.mx : M4 (F32 P)) i) = 2 := fun i => by
    have e : linOf (SphT.mx : M4 (F32 P)) i = (2:ℝ) • Pi.single i 1 := by
      rw [eA]; funext j; rw [Matrix.smul_apply, Matrix.one_apply, Pi.smul_apply, Pi.single_apply]; simp [eq_comm]
    have hl : len (Pi.single i (1:ℝ) : Pt) = 1 := by unfold len; rw [single_one_dotProduct]; simp
    rw [e, len_smul, hl]; norm_num
  obtain ⟨k1, k2, k3⟩ := C142_sphereTransform c (⟨o3, fl 0x3F000000#32⟩ : BoundingSphere (F32 P)) SphT.mx ⟨fo3, (by decide : IsFinite 0x3F000000#32)⟩ (by rw [rh]; norm_num) fM 2 0 (1/2) 1 le_rfl
    (fun i => (row i).le) ⟨0, row 0⟩ (by norm_num) (by norm_num) (fun i j hij => by
      rw [eA]; simp only [dotProduct, Fin.sum_univ_three, Matrix.smul_apply, Matrix.one_apply, smul_eq_mul]
      fin_cases i <;> fin_cases j <;> simp at hij ⊢)
    (fun i => by show |ptOf o3 i| ≤ _; rw [po3]; simp) (by rw [rh]) (by norm_num) (fun i => by rw [eT]; fin_cases i <;> simp) (by norm_num)
  have im : ∀ p : Pt, p ᵥ* linOf (SphT.mx : M4 (F32 P)) = (2:ℝ) • p := fun p => by rw [eA, vecMul_smul, vecMul_one]
  have cc : ptOf (⟨o3, fl 0x3F000000#32⟩ : BoundingSphere (F32 P)).Center = 0 := po3
  refine ⟨k1, ?_, fun p hp => ?_⟩
  · refine (k3 1 fun p hp => ?_).trans (by rw [rh]; norm_num)
    rw [mem_ball, cc, sub_zero, rh] at hp
    simp only [im, cc, mem_ball, add_sub_add_right_eq_sub, smul_zero, sub_zero]
    rw [len_smul, abs_of_pos (by norm_num)]; linarith
  · have := k2 p (by rw [mem_ball, cc, sub_zero, rh]; exact hp)
    simp only [im, eT, rh, mem_ball] at this ⊢
    exact this.trans (add_le_add le_rfl (by norm_num))
end DXM.Props
