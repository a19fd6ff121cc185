import Verif.Props.FloatInterp
import Verif.Lemmas.Integral

/-
C133: accumulation loops on binary32 lanes: sums and weighted sums of any number of vectors.
-/

set_option linter.all false

namespace DXM.Props
open DXM.Spec DXM.FErr DXM.IEEE
variable {P : Env}

/-- The loop `for v in vs { acc = XMVectorAdd(acc, v) }` around src/vector.rs:3856-3883. -/
def sumLoop (acc : V4 (F32 P)) (vs : List (V4 (F32 P))) : V4 (F32 P) := vs.foldl (fun a v => XMVectorAdd a v) acc
/-- The loop `for (w, v) in ws { acc = XMVectorMultiplyAdd(w, v, acc) }` around src/vector.rs:4159-4187: a blend of bones, samples or control points. -/
def blendLoop (c : Cfg) (acc : V4 (F32 P)) (ws : List (V4 (F32 P) × V4 (F32 P))) : V4 (F32 P) :=
  ws.foldl (fun a p => XMVectorMultiplyAdd c p.1 p.2 a) acc

namespace Accum
theorem add_lane (A B : V4 (F32 P)) (i : Fin 4) : (XMVectorAdd A B).lane i = Lane.add (A.lane i) (B.lane i) := by
  fin_cases i <;> rfl
theorem sum_ap (i : Fin 4) (vs : List (V4 (F32 P))) : ∀ (A : V4 (F32 P)) (v M : ℝ) (k : ℕ), Ap (A.lane i) v M k → (∀ V ∈ vs, Fin' (V.lane i)) →
    Ap ((sumLoop A vs).lane i) (v + (vs.map fun V => vals V i).sum) (M + (vs.map fun V => |vals V i|).sum) (k + vs.length) := by
  induction vs with
  | nil => intro A v M k h _; simpa [sumLoop] using h
  | cons V vs ih =>
    intro A v M k h hf
    have s := h.add (leaf (hf V (by simp)))
    rw [← add_lane] at s
    have r := ih _ _ _ _ s (fun W hW => hf W (by simp [hW]))
    refine r.le ?_ (le_of_eq ?_) (by simp; omega)
    · show _ = v + (List.map (fun V => vals V i) (V :: vs)).sum
      simp only [List.map_cons, List.sum_cons]; rw [← add_assoc]; rfl
    · show _ = M + (List.map (fun V => |vals V i|) (V :: vs)).sum
      simp only [List.map_cons, List.sum_cons]; rw [← add_assoc]; rfl
theorem blend_ap (c : Cfg) (i : Fin 4) (ws : List (V4 (F32 P) × V4 (F32 P))) : ∀ (A : V4 (F32 P)) (v M : ℝ) (k : ℕ), 1 ≤ k → Ap (A.lane i) v M k →
    (∀ p ∈ ws, Fin' (p.1.lane i) ∧ Fin' (p.2.lane i) ∧ |vals p.1 i| ≤ 2^127 ∧ |vals p.2 i| ≤ 2^127) →
    Ap ((blendLoop c A ws).lane i) (v + (ws.map fun p => vals p.1 i * vals p.2 i).sum) (M + (ws.map fun p => |vals p.1 i * vals p.2 i| + tiny).sum) (k + ws.length) := by
  induction ws with
  | nil => intro A v M k _ h _; exact h.le (by simp) (by simp) (by simp)
  | cons p ws ih =>
    intro A v M k hk h hf
    obtain ⟨f1, f2, b1, b2⟩ := hf p (by simp)
    have s := fmL_ap c (leaf f1) (leaf f2) h b1 b2
    rw [← madd_fmL c] at s
    have r := ih _ _ _ (k + 1) (by omega) (s.le rfl le_rfl (by omega)) (fun q hq => hf q (by simp [hq]))
    refine r.le ?_ (le_of_eq ?_) (by simp; omega)
    · show (val (p.1.lane i) * val (p.2.lane i) + v) + _ = v + (List.map (fun p => vals p.1 i * vals p.2 i) (p :: ws)).sum
      simp only [List.map_cons, List.sum_cons]
      show (vals p.1 i * vals p.2 i + v) + _ = _
      ring
    · show (|val (p.1.lane i)| * |val (p.2.lane i)| + M + tiny) + _ = M + (List.map (fun p => |vals p.1 i * vals p.2 i| + tiny) (p :: ws)).sum
      simp only [List.map_cons, List.sum_cons]
      rw [abs_mul]
      show (|vals p.1 i| * |vals p.2 i| + M + tiny) + _ = _
      ring
end Accum

/-- C133, sums: adding up to a million finite vectors one after the other gives, in every lane, the exact sum up to as many roundings of the sum of the
magnitudes as there are additions. -/
theorem C133_sum (acc : V4 (F32 P)) (vs : List (V4 (F32 P))) (hn : vs.length ≤ 2^20) (i : Fin 4) (ha : Fin' (acc.lane i)) (hv : ∀ V ∈ vs, Fin' (V.lane i)) :
    Spec.Near ((sumLoop acc vs).lane i).bits (vals acc i + (vs.map fun V => vals V i).sum) (|vals acc i| + (vs.map fun V => |vals V i|).sum) vs.length := by
  have h := Accum.sum_ap i vs acc _ _ 0 (leaf ha) hv
  rw [Nat.zero_add] at h
  exact h.near hn

/-- C133, weighted sums: accumulating up to a million products one after the other gives, in every lane and with or without fused operations, the
exact weighted sum up to one more rounding than there are products. -/
theorem C133_blend (c : Cfg) (acc : V4 (F32 P)) (ws : List (V4 (F32 P) × V4 (F32 P))) (hn : ws.length < 2^20) (i : Fin 4) (ha : Fin' (acc.lane i))
    (hw : ∀ p ∈ ws, Fin' (p.1.lane i) ∧ Fin' (p.2.lane i) ∧ |vals p.1 i| ≤ 2^127 ∧ |vals p.2 i| ≤ 2^127) :
    Spec.Near ((blendLoop c acc ws).lane i).bits (vals acc i + (ws.map fun p => vals p.1 i * vals p.2 i).sum)
      (|vals acc i| + (ws.map fun p => |vals p.1 i * vals p.2 i| + tiny).sum) (ws.length + 1) := by
  have h := Accum.blend_ap c i ws acc _ _ 1 le_rfl ((leaf ha).le rfl le_rfl (by norm_num)) hw
  rw [Nat.add_comm] at h
  exact h.near (by omega)

/-- C133, convex blends: when the weights in a lane are not negative and add up to at most 1 and every point has magnitude at most `B`, the blend of `n`
points started from zero is within `2 (n + 1) / 2^24` times `B` (and the smallest normal number) of the exact one. -/
theorem C133_convex (c : Cfg) (ws : List (V4 (F32 P) × V4 (F32 P))) (hn : ws.length < 2^20) (i : Fin 4) (B : ℝ) (hB : 0 ≤ B) (hB' : B ≤ 2^120)
    (hw : ∀ p ∈ ws, Fin' (p.1.lane i) ∧ Fin' (p.2.lane i) ∧ 0 ≤ vals p.1 i ∧ |vals p.2 i| ≤ B) (hs : (ws.map fun p => vals p.1 i).sum ≤ 1) :
    Fin' ((blendLoop c (V4.splat (Lane.ofBits 0#32)) ws).lane i) ∧
    |vals (blendLoop c (V4.splat (Lane.ofBits 0#32)) ws) i - (ws.map fun p => vals p.1 i * vals p.2 i).sum| ≤
      2 * (ws.length + 1) / 2^24 * (B + ws.length * tiny) := by
  have z : Ap ((V4.splat (Lane.ofBits 0#32) : V4 (F32 P)).lane i) 0 0 1 := by
    have := (zeroAp (P := P)).le rfl le_rfl (Nat.zero_le 1)
    fin_cases i <;> exact this
  have key : ∀ l : List (V4 (F32 P) × V4 (F32 P)), (∀ p ∈ l, 0 ≤ vals p.1 i ∧ |vals p.2 i| ≤ B) →
      0 ≤ (l.map fun p => vals p.1 i).sum ∧ (∀ p ∈ l, vals p.1 i ≤ (l.map fun p => vals p.1 i).sum) ∧
      (l.map fun p => |vals p.1 i * vals p.2 i| + tiny).sum ≤ (l.map fun p => vals p.1 i).sum * B + l.length * tiny := by
    intro l
    induction l with
    | nil => intro _; simp
    | cons p l ih =>
      intro h
      obtain ⟨i1, i2, i3⟩ := ih (fun q hq => h q (by simp [hq]))
      obtain ⟨h1, h2⟩ := h p (by simp)
      simp only [List.map_cons, List.sum_cons, List.length_cons, Nat.cast_add, Nat.cast_one]
      refine ⟨by linarith, ?_, ?_⟩
      · intro q hq
        rcases List.mem_cons.1 hq with rfl | hq
        · linarith
        · linarith [i2 q hq]
      · rw [abs_mul, abs_of_nonneg h1]
        nlinarith [mul_le_mul_of_nonneg_left h2 h1]
  obtain ⟨k1, k2, k3⟩ := key ws (fun p hp => (hw p hp).2.2)
  have t0 : 0 < tiny := by unfold tiny; positivity
  have t1 : tiny ≤ 1 := by unfold tiny; norm_num
  have nb' : ws.length ≤ 1048576 := by omega
  have nb : (ws.length : ℝ) ≤ 1048576 := by exact_mod_cast nb'
  have n0 : (0 : ℝ) ≤ ws.length := Nat.cast_nonneg _
  have S : (ws.map fun p => |vals p.1 i * vals p.2 i| + tiny).sum ≤ B + ws.length * tiny := by nlinarith
  have h := Accum.blend_ap c i ws _ _ _ 1 le_rfl z (fun p hp => ⟨(hw p hp).1, (hw p hp).2.1, by
    rw [abs_of_nonneg (hw p hp).2.2.1]; exact ((k2 p hp).trans hs).trans (by norm_num), (hw p hp).2.2.2.trans (hB'.trans (by norm_num))⟩)
  rw [zero_add, zero_add] at h
  obtain ⟨f, e⟩ := (h.le rfl S le_rfl).near (by omega) (by norm_num at hB' ⊢; nlinarith)
  refine ⟨f, e.trans (mul_le_mul_of_nonneg_right ?_ (by positivity))⟩
  unfold gam ulp2
  push_cast
  rw [div_le_iff₀ (by linarith)]
  have : (0:ℝ) ≤ 1 + ws.length := by linarith
  norm_num
  nlinarith

-- The hypotheses hold of the midpoint of two points: both weights are one half, the points are (1, 1, 1, 1) and (1/2, 1/2, 1/2, 1/2).
example : let h : V4 (F32 P) := V4.splat (Lane.ofBits 0x3F000000#32); let o : V4 (F32 P) := V4.splat (Lane.ofBits 0x3F800000#32)
    (∀ p ∈ [(h, o), (h, h)], Fin' (p.1.lane 0) ∧ Fin' (p.2.lane 0) ∧ 0 ≤ vals p.1 0 ∧ |vals p.2 0| ≤ 1) ∧ (([(h, o), (h, h)]).map fun p => vals p.1 0).sum ≤ 1 := by
  intro h o
  have e1 : vals h 0 = 1 / 2 := half_value
  have e2 : vals o 0 = 1 := value_one
  have f1 : Fin' (h.lane 0) := by show IsFinite 0x3F000000#32; decide
  have f2 : Fin' (o.lane 0) := fin_one
  constructor
  · intro p hp
    simp only [List.mem_cons, List.not_mem_nil, or_false] at hp
    rcases hp with rfl | rfl
    · exact ⟨f1, f2, by rw [e1]; norm_num, by rw [e2]; norm_num⟩
    · exact ⟨f1, f1, by rw [e1]; norm_num, by rw [e1, abs_of_pos (by norm_num)]; norm_num⟩
  · simp only [List.map_cons, List.map_nil, List.sum_cons, List.sum_nil, e1]; norm_num
end DXM.Props
