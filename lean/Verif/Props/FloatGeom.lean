import Verif.Props.FloatInterp
import Verif.Props.FloatMat
import Verif.Props.Vector

/-
C120: reflection, planes and projective points on binary32 lanes (interpretation I).
-/

set_option linter.all false

namespace DXM.Props
open DXM.Spec DXM.FErr DXM.IEEE
variable {P : Env}

/-- Turns per-lane rules into a statement about every lane. -/
theorem apLanes {A : V4 (F32 P)} {v M : Fin 4 → ℝ} {k : ℕ} (h : Ap A.x (v 0) (M 0) k ∧ Ap A.y (v 1) (M 1) k ∧ Ap A.z (v 2) (M 2) k ∧ Ap A.w (v 3) (M 3) k) (i : Fin 4) : Ap (A.lane i) (v i) (M i) k := by
  fin_cases i
  · exact h.1
  · exact h.2.1
  · exact h.2.2.1
  · exact h.2.2.2
/-- The lanes of a vector expression. -/
macro "lanesAp" "[" f:Lean.Parser.Tactic.simpLemma,* "]" : tactic => `(tactic| (
  refine apLanes ?_
  beta_reduce
  simp only [$f,*, SSE.fmadd, SSE.fnmadd, XMVectorMultiplyAdd, XMVectorNegativeMultiplySubtract, XMVectorMultiply, XMVectorSplatX, XMVectorSplatY, XMVectorSplatZ, XMVectorSplatW]
  split_ifs <;>
  simp only [SSE.perm, SSE.shuffle, SSE.add_ss, SSE.sub_ss, SSE.add, SSE.sub, SSE.mul, SSE.hadd, SSE.dp7f, SSE.dpff, SSE.dp3f, sum3ss, sum3ss', V4.splat, V4.map2, V4.map3, V4.lane,
    SSE.and, g_XMMask3, LawfulLane.band_ones_right, LawfulLane.band_zero_right] <;>
  refine ⟨?_, ?_, ?_, ?_⟩ <;> lane_ap))

/-- The exact dot product of the first `n` components, and the magnitude of its terms. -/
noncomputable def dotN (n : ℕ) (a b : Fin 4 → ℝ) : ℝ := ∑ i : Fin 4, if i.val < n then a i * b i else 0
noncomputable def magN' (n : ℕ) (a b : Fin 4 → ℝ) : ℝ := ∑ i : Fin 4, if i.val < n then |a i * b i| else 0
theorem dotN_2 (a b : Fin 4 → ℝ) : dotN 2 a b = a 0 * b 0 + a 1 * b 1 ∧ magN' 2 a b = |a 0 * b 0| + |a 1 * b 1| := by
  constructor <;> simp [dotN, magN', Fin.sum_univ_four]
theorem dotN_3 (a b : Fin 4 → ℝ) : dotN 3 a b = a 0 * b 0 + a 1 * b 1 + a 2 * b 2 ∧ magN' 3 a b = |a 0 * b 0| + |a 1 * b 1| + |a 2 * b 2| := by
  constructor <;> simp [dotN, magN', Fin.sum_univ_four]
theorem dotN_4 (a b : Fin 4 → ℝ) : dotN 4 a b = a 0 * b 0 + a 1 * b 1 + a 2 * b 2 + a 3 * b 3 ∧ magN' 4 a b = |a 0 * b 0| + |a 1 * b 1| + |a 2 * b 2| + |a 3 * b 3| := by
  constructor <;> simp [dotN, magN', Fin.sum_univ_four]

theorem dot2_ap (c : Cfg) (A B : V4 (F32 P)) (hA : Fins 2 A) (hB : Fins 2 B) : ∀ i : Fin 4, Ap ((XMVector2Dot c A B).lane i) (dotN 2 (vals A) (vals B)) (magN' 2 (vals A) (vals B) + 2 * tiny) 2 := by
  obtain ⟨h1, h2⟩ := fins2 hA; obtain ⟨g1, g2⟩ := fins2 hB
  rw [(dotN_2 _ _).1, (dotN_2 _ _).2]
  lanesAp [XMVector2Dot]
theorem dot3_ap (c : Cfg) (A B : V4 (F32 P)) (hA : Fins 3 A) (hB : Fins 3 B) : ∀ i : Fin 4, Ap ((XMVector3Dot c A B).lane i) (dotN 3 (vals A) (vals B)) (magN' 3 (vals A) (vals B) + 3 * tiny) 3 := by
  obtain ⟨h1, h2, h3⟩ := fins3 hA; obtain ⟨g1, g2, g3⟩ := fins3 hB
  rw [(dotN_3 _ _).1, (dotN_3 _ _).2]
  lanesAp [XMVector3Dot]
theorem dot4_ap (c : Cfg) (A B : V4 (F32 P)) (hA : Fins 4 A) (hB : Fins 4 B) : ∀ i : Fin 4, Ap ((XMVector4Dot c A B).lane i) (dotN 4 (vals A) (vals B)) (magN' 4 (vals A) (vals B) + 4 * tiny) 4 := by
  obtain ⟨h1, h2, h3, h4⟩ := fins4 hA; obtain ⟨g1, g2, g3, g4⟩ := fins4 hB
  rw [(dotN_4 _ _).1, (dotN_4 _ _).2]
  lanesAp [XMVector4Dot]

/-- One lane of a negative multiply-subtract. -/
def fnL (c : Cfg) (a b d : F32 P) : F32 P := if c.sse && c.fma then Lane.fnma a b d else Lane.sub d (Lane.mul a b)
theorem nmsub_fnL (c : Cfg) (A B D : V4 (F32 P)) (i : Fin 4) : (XMVectorNegativeMultiplySubtract c A B D).lane i = fnL c (A.lane i) (B.lane i) (D.lane i) := by
  cases h : c.sse <;> cases h' : c.fma <;> fin_cases i <;> simp [XMVectorNegativeMultiplySubtract, SSE.fnmadd, fnL, h, h', V4.lane, V4.map2, V4.map3, SSE.sub, SSE.mul]
theorem fnL_ap (c : Cfg) {a b d : F32 P} {v w z M N K : ℝ} {j k l : ℕ} (ha : Ap a v M j) (hb : Ap b w N k) (hd : Ap d z K l) (hM : M ≤ 2^127) (hN : N ≤ 2^127) :
    Ap (fnL c a b d) (z - v * w) (M * N + K + tiny) (max (j + k + 1) l + 1) := by
  unfold fnL; split_ifs
  · exact Ap.le (Ap.fnma ha hb hd hM hN) rfl le_rfl (by omega)
  · exact Ap.le (Ap.sub hd (Ap.mul ha hb hM hN)) rfl (by linarith) (by omega)

/-! ### reflection -/

theorem reflect_ap (c : Cfg) {D I N : V4 (F32 P)} {d m : ℝ} {k : ℕ} (i : Fin 4) (hD : Ap (D.lane i) d m k) (hI : Fin' (I.lane i)) (hN : Fin' (N.lane i)) (hm : 2 * m ≤ 2^127) (hn : |vals N i| ≤ 2^127) :
    Ap ((XMVectorNegativeMultiplySubtract c (XMVectorAdd D D) N I).lane i) (vals I i - 2 * d * vals N i) (|vals I i| + 2 * m * |vals N i| + tiny) (k + 3) := by
  rw [nmsub_fnL]
  have e : (XMVectorAdd D D).lane i = Lane.add (D.lane i) (D.lane i) := by fin_cases i <;> rfl
  rw [e]
  exact Ap.le (fnL_ap c (Ap.add hD hD) (leaf hN) (leaf hI) (by linarith) hn) (show val _ - _ * val _ = vals I i - 2 * d * vals N i by simp only [vals]; ring)
    (by show (m + m) * |vals N i| + |vals I i| + tiny ≤ _; linarith) (by omega)
/-- C120: reflecting a vector in a plane through the origin: I − 2 (I·N) N, component by component.  The hypotheses ask that the dot
product cannot overflow. -/
theorem C120_reflect2 (c : Cfg) (I N : V4 (F32 P)) (hI : Fins 2 I) (hN : Fins 2 N) (hm : magN' 2 (vals I) (vals N) ≤ 2^125) (i : Fin 4) (hi : i.val < 2) (hn : |vals N i| ≤ 2^127) :
    Spec.Near ((XMVector2Reflect c I N).lane i).bits (vals I i - 2 * dotN 2 (vals I) (vals N) * vals N i) (|vals I i| + 2 * (magN' 2 (vals I) (vals N) + 2 * tiny) * |vals N i| + tiny) 5 :=
  Ap.near (reflect_ap c i (dot2_ap c I N hI hN i) (hI i hi) (hN i hi) (by unfold tiny; norm_num at hm ⊢; linarith) hn) (by norm_num)
theorem C120_reflect3 (c : Cfg) (I N : V4 (F32 P)) (hI : Fins 3 I) (hN : Fins 3 N) (hm : magN' 3 (vals I) (vals N) ≤ 2^125) (i : Fin 4) (hi : i.val < 3) (hn : |vals N i| ≤ 2^127) :
    Spec.Near ((XMVector3Reflect c I N).lane i).bits (vals I i - 2 * dotN 3 (vals I) (vals N) * vals N i) (|vals I i| + 2 * (magN' 3 (vals I) (vals N) + 3 * tiny) * |vals N i| + tiny) 6 :=
  Ap.near (reflect_ap c i (dot3_ap c I N hI hN i) (hI i hi) (hN i hi) (by unfold tiny; norm_num at hm ⊢; linarith) hn) (by norm_num)
theorem C120_reflect4 (c : Cfg) (I N : V4 (F32 P)) (hI : Fins 4 I) (hN : Fins 4 N) (hm : magN' 4 (vals I) (vals N) ≤ 2^125) (i : Fin 4) (hn : |vals N i| ≤ 2^127) :
    Spec.Near ((XMVector4Reflect c I N).lane i).bits (vals I i - 2 * dotN 4 (vals I) (vals N) * vals N i) (|vals I i| + 2 * (magN' 4 (vals I) (vals N) + 4 * tiny) * |vals N i| + tiny) 7 :=
  Ap.near (reflect_ap c i (dot4_ap c I N hI hN i) (hI i i.isLt) (hN i i.isLt) (by unfold tiny; norm_num at hm ⊢; linarith) hn) (by norm_num)

/-! ### planes -/

/-- The homogeneous point of the first three components. -/
def pt (a : Fin 4 → ℝ) : Fin 4 → ℝ := fun i => if i.val < 3 then a i else 1
theorem sel1110 (A B : V4 (F32 P)) : XMVectorSelect A B g_XMSelect1110 = ⟨B.x, B.y, B.z, A.w⟩ := by
  simp only [XMVectorSelect, SSE.or, SSE.and, SSE.andnot, V4.map2, g_XMSelect1110, LawfulLane.band_ones_right, LawfulLane.band_zero_right, LawfulLane.bandn_ones_left, LawfulLane.bandn_zero_left,
    LawfulLane.bor_zero_left, LawfulLane.bor_zero_right]
theorem coord_vec (V : V4 (F32 P)) (h : Fins 3 V) : Fins 4 (XMVectorSelect g_XMOne V g_XMSelect1110) ∧ vals (XMVectorSelect g_XMOne V g_XMSelect1110) = pt (vals V) := by
  rw [sel1110]
  constructor
  · intro i _; fin_cases i
    · exact h 0 (by decide)
    · exact h 1 (by decide)
    · exact h 2 (by decide)
    · exact fin_one (P := P)
  · ext i; fin_cases i
    · rfl
    · rfl
    · rfl
    · exact value_one
/-- C120: the plane dot products. -/
theorem C120_planeDot (c : Cfg) (S V : V4 (F32 P)) (hS : Fins 4 S) (i : Fin 4) :
    (Fins 4 V → Spec.Near ((XMPlaneDot c S V).lane i).bits (dotN 4 (vals S) (vals V)) (magN' 4 (vals S) (vals V) + 4 * tiny) 4) ∧
    (Fins 3 V → Spec.Near ((XMPlaneDotCoord c S V).lane i).bits (dotN 4 (vals S) (pt (vals V))) (magN' 4 (vals S) (pt (vals V)) + 4 * tiny) 4) ∧
    (Fins 3 V → Spec.Near ((XMPlaneDotNormal c S V).lane i).bits (dotN 3 (vals S) (vals V)) (magN' 3 (vals S) (vals V) + 3 * tiny) 3) := by
  refine ⟨fun h => Ap.near (dot4_ap c S V hS h i) (by norm_num), fun h => ?_, fun h => Ap.near (dot3_ap c S V (fun i hi => hS i i.isLt) h i) (by norm_num)⟩
  obtain ⟨a, b⟩ := coord_vec V h
  have := dot4_ap c S _ hS a i
  rw [b] at this
  exact Ap.near this (by norm_num)
/-- C120: the plane through a point with a given normal: the normal is kept, the offset is minus their dot product. -/
theorem C120_planeFromPointNormal (c : Cfg) (Q N : V4 (F32 P)) (hQ : Fins 3 Q) (hN : Fins 3 N) :
    let r := XMPlaneFromPointNormal c Q N
    r.x = N.x ∧ r.y = N.y ∧ r.z = N.z ∧ Spec.Near r.w.bits (-dotN 3 (vals Q) (vals N)) (magN' 3 (vals Q) (vals N) + 3 * tiny) 4 := by
  intro r
  have e : r = ⟨N.x, N.y, N.z, (XMVectorNegate c (XMVector3Dot c Q N)).w⟩ := by simp only [r, XMPlaneFromPointNormal, sel1110]
  rw [e]
  refine ⟨rfl, rfl, rfl, ?_⟩
  have d := dot3_ap c Q N hQ hN 3
  refine Ap.near ?_ (by norm_num)
  unfold XMVectorNegate; split_ifs
  · exact Ap.le (Ap.sub zeroAp d) (by ring) (by linarith) (by norm_num)
  · exact Ap.le (Ap.neg d) rfl le_rfl (by norm_num)
/-- C120: transforming a plane by a matrix: the row vector times the matrix. -/
theorem C120_planeTransform (c : Cfg) (S : V4 (F32 P)) (M : M4 (F32 P)) (hS : Fins 4 S) (hM : ∀ i, Fins 4 (M.row i)) (j : Fin 4) :
    Spec.Near ((XMPlaneTransform c S M).lane j).bits (∑ k, vals S k * vals (M.row k) j) (∑ k, |vals S k * vals (M.row k) j| + 4 * tiny) 5 := by
  obtain ⟨h1, h2, h3, h4⟩ := fins4 hS
  obtain ⟨a1, a2, a3, a4⟩ := fins4 (hM 0); obtain ⟨b1, b2, b3, b4⟩ := fins4 (hM 1); obtain ⟨c1, c2, c3, c4⟩ := fins4 (hM 2); obtain ⟨d1, d2, d3, d4⟩ := fins4 (hM 3)
  simp only [M4.row] at a1 a2 a3 a4 b1 b2 b3 b4 c1 c2 c3 c4 d1 d2 d3 d4
  simp only [Fin.sum_univ_four, M4.row]
  revert j
  lanes [XMPlaneTransform]

/-! ### quotients -/

/-- The quotient of two approximate numbers. -/
theorem div_close {a b : F32 P} {n w en ew : ℝ} (ha : FClose a.bits n en) (hb : FClose b.bits w ew) (hw : w ≠ 0) (hew : 2 * ew ≤ |w|) (hr : |n / w| + 2 * (en + |n / w| * ew) / |w| ≤ 2^127) :
    FClose (Lane.div a b).bits (n / w) (3 * (en + |n / w| * ew) / |w| + ulp2 * (|n / w| + tiny)) := by
  obtain ⟨fa, ea⟩ := ha; obtain ⟨fb, eb⟩ := hb
  have hw' : 0 < |w| := abs_pos.2 hw
  have en0 : 0 ≤ en := (abs_nonneg _).trans ea
  have ew0 : 0 ≤ ew := (abs_nonneg _).trans eb
  have b1 : |w| / 2 ≤ |value b.bits| := by
    have := abs_sub_abs_le_abs_sub w (value b.bits)
    rw [abs_sub_comm] at this; linarith
  have b0 : 0 < |value b.bits| := by linarith
  have bn : value b.bits ≠ 0 := abs_pos.1 b0
  set q := n / w with hq
  have hn : n = q * w := by rw [hq]; field_simp
  have s0 : 0 ≤ en + |q| * ew := by positivity
  have e1 : |value a.bits / value b.bits - q| ≤ 2 * (en + |q| * ew) / |w| := by
    have : value a.bits / value b.bits - q = ((value a.bits - n) - q * (value b.bits - w)) / value b.bits := by
      rw [hn]; field_simp; ring
    rw [this, abs_div, div_le_div_iff₀ b0 hw']
    have h1 : |(value a.bits - n) - q * (value b.bits - w)| ≤ en + |q| * ew := by
      refine (abs_sub _ _).trans (add_le_add ea ?_)
      rw [abs_mul]; exact mul_le_mul_of_nonneg_left eb (abs_nonneg q)
    calc _ ≤ (en + |q| * ew) * |w| := mul_le_mul_of_nonneg_right h1 hw'.le
      _ ≤ (en + |q| * ew) * (2 * |value b.bits|) := mul_le_mul_of_nonneg_left (by linarith) s0
      _ = _ := by ring
  have e2 : |value a.bits / value b.bits| ≤ |q| + 2 * (en + |q| * ew) / |w| := by
    have := abs_add_le (value a.bits / value b.bits - q) q
    rw [sub_add_cancel] at this; linarith
  obtain ⟨fr, er⟩ := rounds_err (div_rounds P fa fb bn) (lt_of_le_of_lt (e2.trans hr) (by unfold overflow; norm_num))
  refine ⟨fr, ?_⟩
  have t := abs_add_le (value (IEEE.div P a.bits b.bits) - value a.bits / value b.bits) (value a.bits / value b.bits - q)
  rw [sub_add_sub_cancel] at t
  show |value (IEEE.div P a.bits b.bits) - q| ≤ _
  have u1 : ulp2 * (|value a.bits / value b.bits| + tiny) ≤ ulp2 * (|q| + 2 * (en + |q| * ew) / |w| + tiny) := mul_le_mul_of_nonneg_left (by linarith) (by unfold ulp2; norm_num)
  have z : 0 ≤ (en + |q| * ew) / |w| := by positivity
  have y1 : 2 * (en + |q| * ew) / |w| = 2 * ((en + |q| * ew) / |w|) := by ring
  have y2 : 3 * (en + |q| * ew) / |w| = 3 * ((en + |q| * ew) / |w|) := by ring
  have u2 : ulp2 * (2 * ((en + |q| * ew) / |w|)) ≤ 1 * ((en + |q| * ew) / |w|) := by
    unfold ulp2; linarith
  rw [y1] at u1 e1
  rw [y2]
  have : ulp2 * (|q| + 2 * ((en + |q| * ew) / |w|) + tiny) = ulp2 * (|q| + tiny) + ulp2 * (2 * ((en + |q| * ew) / |w|)) := by ring
  linarith

/-! ### projective points -/

/-- Component `j` of the row vector `(v, 1)` times the matrix, for a vector of `n` components; and the magnitude of its terms. -/
noncomputable def rowC (n : ℕ) (v : Fin 4 → ℝ) (M : M4 (F32 P)) (j : Fin 4) : ℝ := (∑ k : Fin 4, if k.val < n then v k * vals (M.row k) j else 0) + vals M.r3 j
noncomputable def rowMag (n : ℕ) (v : Fin 4 → ℝ) (M : M4 (F32 P)) (j : Fin 4) : ℝ := (∑ k : Fin 4, if k.val < n then |v k * vals (M.row k) j| else 0) + |vals M.r3 j| + n * tiny
theorem row3_ap (c : Cfg) (V : V4 (F32 P)) (M : M4 (F32 P)) (hV : Fins 3 V) (hM : ∀ i, Fins 4 (M.row i)) :
    ∀ j : Fin 4, Ap ((XMVectorMultiplyAdd c (XMVectorSplatX c V) M.r0 (XMVectorMultiplyAdd c (XMVectorSplatY c V) M.r1 (XMVectorMultiplyAdd c (XMVectorSplatZ c V) M.r2 M.r3))).lane j) (rowC 3 (vals V) M j) (rowMag 3 (vals V) M j) 4 := by
  obtain ⟨h1, h2, h3⟩ := fins3 hV
  obtain ⟨a1, a2, a3, a4⟩ := fins4 (hM 0); obtain ⟨b1, b2, b3, b4⟩ := fins4 (hM 1); obtain ⟨c1, c2, c3, c4⟩ := fins4 (hM 2); obtain ⟨d1, d2, d3, d4⟩ := fins4 (hM 3)
  simp only [M4.row] at a1 a2 a3 a4 b1 b2 b3 b4 c1 c2 c3 c4 d1 d2 d3 d4
  simp only [rowC, rowMag, Fin.sum_univ_four, M4.row]
  norm_num
  lanesAp [vals_0]
theorem row2_ap (c : Cfg) (V : V4 (F32 P)) (M : M4 (F32 P)) (hV : Fins 2 V) (hM : ∀ i, Fins 4 (M.row i)) :
    ∀ j : Fin 4, Ap ((XMVectorMultiplyAdd c (XMVectorSplatX c V) M.r0 (XMVectorMultiplyAdd c (XMVectorSplatY c V) M.r1 M.r3)).lane j) (rowC 2 (vals V) M j) (rowMag 2 (vals V) M j) 3 := by
  obtain ⟨h1, h2⟩ := fins2 hV
  obtain ⟨a1, a2, a3, a4⟩ := fins4 (hM 0); obtain ⟨b1, b2, b3, b4⟩ := fins4 (hM 1); obtain ⟨d1, d2, d3, d4⟩ := fins4 (hM 3)
  simp only [M4.row] at a1 a2 a3 a4 b1 b2 b3 b4 d1 d2 d3 d4
  simp only [rowC, rowMag, Fin.sum_univ_four, M4.row]
  norm_num
  lanesAp [vals_0]

theorem coord_close (c : Cfg) {R : V4 (F32 P)} {x m : Fin 4 → ℝ} {k : ℕ} (hk : k ≤ 2^20) (h : ∀ j, Ap (R.lane j) (x j) (m j) k) (j : Fin 4) (hj : m j ≤ 2^127) (h3 : m 3 ≤ 2^127) (hw : x 3 ≠ 0)
    (hew : 2 * (gam k * m 3) ≤ |x 3|) (hr : |x j / x 3| + 2 * (gam k * m j + |x j / x 3| * (gam k * m 3)) / |x 3| ≤ 2^127) :
    FClose ((XMVectorDivide R (XMVectorSplatW c R)).lane j).bits (x j / x 3) (3 * (gam k * m j + |x j / x 3| * (gam k * m 3)) / |x 3| + ulp2 * (|x j / x 3| + tiny)) := by
  have e : (XMVectorDivide R (XMVectorSplatW c R)).lane j = Lane.div (R.lane j) (R.lane 3) := by
    cases hs : c.sse <;> cases ha : c.avx <;> fin_cases j <;> simp [XMVectorDivide, XMVectorSplatW, hs, ha, V4.lane, SSE.perm, SSE.shuffle, SSE.div, V4.map2]
  rw [e]
  exact div_close (Ap.fclose (h j) hk hj rfl le_rfl) (Ap.fclose (h 3) hk h3 rfl le_rfl) hw hew hr
/-- C120: transforming a point by a matrix and dividing by the resulting fourth component `w`.  The terms of `w` must not cancel to
the point where rounding dominates: twice the rounding bound of `w` is at most |w|. -/
theorem C120_transformCoord3 (c : Cfg) (V : V4 (F32 P)) (M : M4 (F32 P)) (hV : Fins 3 V) (hM : ∀ i, Fins 4 (M.row i)) (j : Fin 4) :
    let x := rowC 3 (vals V) M; let m := rowMag 3 (vals V) M
    m j ≤ 2^127 → m 3 ≤ 2^127 → x 3 ≠ 0 → 2 * (gam 4 * m 3) ≤ |x 3| → |x j / x 3| + 2 * (gam 4 * m j + |x j / x 3| * (gam 4 * m 3)) / |x 3| ≤ 2^127 →
    FClose ((XMVector3TransformCoord c V M).lane j).bits (x j / x 3) (3 * (gam 4 * m j + |x j / x 3| * (gam 4 * m 3)) / |x 3| + ulp2 * (|x j / x 3| + tiny)) := by
  intro x m h1 h2 h3 h4 h5
  exact coord_close c (by norm_num) (row3_ap c V M hV hM) j h1 h2 h3 h4 h5
theorem C120_transformCoord2 (c : Cfg) (V : V4 (F32 P)) (M : M4 (F32 P)) (hV : Fins 2 V) (hM : ∀ i, Fins 4 (M.row i)) (j : Fin 4) :
    let x := rowC 2 (vals V) M; let m := rowMag 2 (vals V) M
    m j ≤ 2^127 → m 3 ≤ 2^127 → x 3 ≠ 0 → 2 * (gam 3 * m 3) ≤ |x 3| → |x j / x 3| + 2 * (gam 3 * m j + |x j / x 3| * (gam 3 * m 3)) / |x 3| ≤ 2^127 →
    FClose ((XMVector2TransformCoord c V M).lane j).bits (x j / x 3) (3 * (gam 3 * m j + |x j / x 3| * (gam 3 * m 3)) / |x 3| + ulp2 * (|x j / x 3| + tiny)) := by
  intro x m h1 h2 h3 h4 h5
  exact coord_close c (by norm_num) (row2_ap c V M hV hM) j h1 h2 h3 h4 h5

/-! ### components along and across a normal -/

/-- C120: the component along the normal is (V·N) N, the component across it the rest. -/
theorem C120_componentsFromNormal (c : Cfg) (V N : V4 (F32 P)) (hV : Fins 3 V) (hN : Fins 3 N) (hm : magN' 3 (vals V) (vals N) ≤ 2^126) (i : Fin 4) (hi : i.val < 3) (hn : |vals N i| ≤ 2^127) :
    Spec.Near ((XMVector3ComponentsFromNormal c V N).1.lane i).bits (dotN 3 (vals V) (vals N) * vals N i) ((magN' 3 (vals V) (vals N) + 3 * tiny) * |vals N i| + tiny) 4 ∧
    Spec.Near ((XMVector3ComponentsFromNormal c V N).2.lane i).bits (vals V i - dotN 3 (vals V) (vals N) * vals N i)
      (|vals V i| + (magN' 3 (vals V) (vals N) + 3 * tiny) * |vals N i| + tiny) 5 := by
  have d := dot3_ap c V N hV hN i
  have e1 : (XMVector3ComponentsFromNormal c V N).1.lane i = Lane.mul (N.lane i) ((XMVector3Dot c V N).lane i) := by fin_cases i <;> rfl
  have e2 : (XMVector3ComponentsFromNormal c V N).2.lane i = Lane.sub (V.lane i) (Lane.mul (N.lane i) ((XMVector3Dot c V N).lane i)) := by fin_cases i <;> rfl
  have p : Ap (Lane.mul (N.lane i) ((XMVector3Dot c V N).lane i)) (dotN 3 (vals V) (vals N) * vals N i) ((magN' 3 (vals V) (vals N) + 3 * tiny) * |vals N i| + tiny) 4 :=
    Ap.le (Ap.mul (leaf (hN i hi)) d hn (by unfold tiny; norm_num at hm ⊢; linarith)) (by show vals N i * _ = _; ring) (by show |vals N i| * _ + tiny ≤ _; linarith) (by norm_num)
  rw [e1, e2]
  refine ⟨Ap.near p (by norm_num), Ap.near (Ap.le (Ap.sub (leaf (hV i hi)) p) rfl ?_ (by norm_num)) (by norm_num)⟩
  show |vals V i| + _ ≤ _
  linarith

/-! ### four-dimensional cross product -/

theorem minor2_rel {a b d e f : F32 P} {x y z u v : E} {B : ℝ} (hB : B ≤ 2^127) (hD : B * B + tiny + (B * B + tiny) ≤ 2^127) (h1 : RAp a x B 0) (h2 : RAp b y B 0) (h3 : RAp d z B 0) (h4 : RAp e u B 0) (h5 : RAp f v B 0) :
    RAp (minor2 a b d e f) (minor2 x y z u v) (B * (B * B + tiny + (B * B + tiny)) + tiny) 3 :=
  RAp.le (RAp.mul (RAp.sub (RAp.mul h1 h2 hB hB) (RAp.mul h3 h4 hB hB)) h5 hD hB) (by linarith) (by norm_num)
theorem cross4_rel (c : Cfg) {A B D : V4 (F32 P)} {X Y Z : V4 E} {b : ℝ} (h1 : VR A X b 0) (h2 : VR B Y b 0) (h3 : VR D Z b 0) (hB : b ≤ 2^127) (hD : b * b + tiny + (b * b + tiny) ≤ 2^127) :
    VR (XMVector4Cross c A B D) (XMVector4Cross c X Y Z) (cofMag b) 5 := by
  unfold XMVector4Cross; split_ifs
  · refine VR.le (by vr) ?_ ?_
    · simp only [cofMag]; linarith
    · norm_num
  · have m := fun a b d e f x y z u v => @minor2_rel P a b d e f x y z u v _ hB hD
    have q0 := h1 0; have q1 := h1 1; have q2 := h1 2; have q3 := h1 3
    have r0 := h2 0; have r1 := h2 1; have r2 := h2 2; have r3 := h2 3
    have s0 := h3 0; have s1 := h3 1; have s2 := h3 2; have s3 := h3 3
    dsimp only [V4.lane] at q0 q1 q2 q3 r0 r1 r2 r3 s0 s1 s2 s3
    refine VR.mk ?_ ?_ ?_ ?_ <;>
    · refine RAp.le (RAp.add (RAp.sub (m _ _ _ _ _ _ _ _ _ _ ?_ ?_ ?_ ?_ ?_) (m _ _ _ _ _ _ _ _ _ _ ?_ ?_ ?_ ?_ ?_)) (m _ _ _ _ _ _ _ _ _ _ ?_ ?_ ?_ ?_ ?_)) ?_ ?_
      all_goals first | assumption | (norm_num; done) | (simp only [cofMag]; linarith)
/-- C120: the four-dimensional cross product: `r` is the vector whose dot product with any `x` is the determinant with rows `x`, `A`,
`B`, `D`; components of magnitude at most `b` give an error of at most 2e-6 b³. -/
theorem C120_cross4 (c : Cfg) (A B D : V4 (F32 P)) (b : ℝ) (hA : Fins 4 A) (hB : Fins 4 B) (hD : Fins 4 D) (bA : ∀ i, |vals A i| ≤ b) (bB : ∀ i, |vals B i| ≤ b) (bD : ∀ i, |vals D i| ≤ b)
    (h0 : 1/2^20 ≤ b) (h1 : b ≤ 2^20) :
    ∃ r : Fin 4 → ℝ, (∀ x, x ⬝ᵥ r = Matrix.det (Matrix.of ![x, vals A, vals B, vals D])) ∧ ∀ i, FClose ((XMVector4Cross c A B D).lane i).bits (r i) (2/10^6 * b^3) := by
  obtain ⟨m1, m2, m3, m4, m5⟩ := mags h0 h1
  have h := cross4_rel c (leaf4 hA bA) (leaf4 hB bB) (leaf4 hD bD) m1 m2
  obtain ⟨r, e, hr⟩ := C24_cross4 c (vals A) (vals B) (vals D)
  rw [e] at h
  have hp : 0 < b := lt_of_lt_of_le (by norm_num) h0
  refine ⟨r, hr, fun i => ?_⟩
  have hi : RAp ((XMVector4Cross c A B D).lane i) (E.num (r i)) (cofMag b) 5 := by
    have := h i
    fin_cases i <;> exact this
  refine RAp.fclose hi (by norm_num) m3 ?_
  calc gam 5 * cofMag b ≤ 3/10^7 * (601/100 * b^3) := mul_le_mul gam5M m4 ((abs_nonneg _).trans (RAp.mag hi (by norm_num))) (by norm_num)
    _ ≤ _ := by have : 0 < b^3 := by positivity
                linarith

/-! ### a line meeting a plane -/

theorem gam4G : gam 4 ≤ 24/10^8 := by unfold gam ulp2; norm_num
theorem abs_mul_le1 {x y b : ℝ} (hx : |x| ≤ 1) (hy : |y| ≤ b) : |x * y| ≤ b := by
  rw [abs_mul]; nlinarith [abs_nonneg x, abs_nonneg y]
/-- A lane whose difference from zero is not small is not near zero. -/
theorem not_near {d : F32 P} (hd : Fin' d) (h : 1/2^22 ≤ |val d|) (h' : |val d| ≤ 2^127) : ¬ Within (Lane.sub d Lane.c0).bits (g_XMEpsilon (α := F32 P)).x.bits := by
  have z : value (Lane.c0 : F32 P).bits = 0 := val_zero
  have zf : IsFinite (Lane.c0 : F32 P).bits := (by decide : IsFinite 0#32)
  have e0 : value d.bits - value (Lane.c0 : F32 P).bits = val d := by rw [z]; exact sub_zero _
  obtain ⟨f, e⟩ := rounds_err (sub_rounds P hd zf) (by rw [e0]; exact lt_of_le_of_lt h' (by unfold overflow; norm_num))
  rw [e0] at e
  have ev : value (g_XMEpsilon (α := F32 P)).x.bits = 1/2^23 := by
    show value 0x34000000#32 = _
    simp [value, expField, fracField, signBit]
  have ef : IsFinite (g_XMEpsilon (α := F32 P)).x.bits := (by decide : IsFinite 0x34000000#32)
  rintro ⟨-, -, a, b⟩
  have f' : IsFinite (Lane.sub d Lane.c0).bits := f
  rw [evalue_finite ef, evalue_finite f', ev] at a b
  norm_cast at a b
  have hle : |value (Lane.sub d Lane.c0).bits| ≤ 1/2^23 := abs_le.2 ⟨by norm_num at a ⊢; exact a, by norm_num at b ⊢; exact b⟩
  have := abs_sub_abs_le_abs_sub (val d) (value (Lane.sub d Lane.c0).bits)
  rw [abs_sub_comm] at this
  have e' : |value (Lane.sub d Lane.c0).bits - val d| ≤ ulp2 * (|val d| + tiny) := e
  unfold ulp2 tiny at e'
  norm_num at e' h hle
  linarith
/-- The point at an approximate position along a line. -/
theorem point_close (c : Cfg) {x y T : F32 P} {t b r : ℝ} (hx : Fin' x) (hy : Fin' y) (fv : Fin' T) (hpi : |val x| ≤ b) (hqi : |val y| ≤ b) (b0 : 0 < b) (hb : b ≤ 2^40) (tb : tiny ≤ b / 2^90)
    (r6 : 1/6 ≤ r) (rB : r ≤ 2^19) (tr : |t| * r ≤ 2^40) (ev : |val T - t| ≤ (3/10^6 + 9/2/10^6 * |t|) * r + ulp2 * (|t| + tiny)) :
    FClose (fmL c (Lane.sub y x) T x).bits (val x + t * (val y - val x)) (2/10^5 * b * (1 + |t|) * r) := by
  have r0 : 0 < r := lt_of_lt_of_le (by norm_num) r6
  have t0 := abs_nonneg t
  have tn : 0 < tiny := by unfold tiny; norm_num
  have u0 : ulp2 = 1/2^24 := by unfold ulp2; norm_num
  set et := (3/10^6 + 9/2/10^6 * |t|) * r + ulp2 * (|t| + tiny) with het
  have hti : tiny ≤ r / 10^10 := by
    have : tiny ≤ 1/6/10^10 := by unfold tiny; norm_num
    linarith
  have etr : et ≤ 5/10^6 * (1 + |t|) * r := by
    rw [het, u0]
    have : |t| ≤ 6 * (|t| * r) := by nlinarith
    nlinarith
  have vT : |val T| ≤ |t| + et := by
    have := abs_add_le (val T - t) t
    rw [sub_add_cancel] at this
    have h : |val T - t| ≤ et := ev
    linarith
  have hsub : Ap (Lane.sub y x) (val y - val x) (2 * b) 1 :=
    Ap.le (Ap.sub (leaf hy) (leaf hx)) rfl (by linarith) (by norm_num)
  have tr6 : |t| ≤ 6 * (|t| * r) := by nlinarith
  have trn : 0 ≤ |t| * r := by positivity
  have etr' : et ≤ 5/10^6 * r + 5/10^6 * (|t| * r) := by linarith
  have vTb : |val T| ≤ 2^127 := by norm_num at rB tr etr' ⊢; linarith
  have hap := fmL_ap c hsub (leaf (show Fin' T from fv)) (leaf hx) (by norm_num at hb ⊢; linarith) vTb
  have hM : 2 * b * |val T| + |val x| + tiny ≤ b * (13 * (1 + |t|) * r) := by
    have h1 : 2 * |val T| + 1 + 1/2^90 ≤ 13 * (1 + |t|) * r := by
      have : 13 * (1 + |t|) * r = 13 * r + 13 * (|t| * r) := by ring
      rw [this]; norm_num at etr' ⊢; linarith
    have := mul_le_mul_of_nonneg_left h1 b0.le
    linarith
  have hM0 : 0 ≤ 2 * b * |val T| + |val x| + tiny := by positivity
  have hF := Ap.fclose (e := 3/10^6 * b * (1 + |t|) * r) hap (by norm_num) (hM.trans (by
    have : b * (13 * (1 + |t|) * r) ≤ 2^40 * (13 * 2^19 + 13 * 2^40) := mul_le_mul hb (by norm_num at tr rB ⊢; linarith) (by positivity) (by norm_num)
    norm_num at this ⊢; linarith)) rfl (by
    have g : gam (max (1 + 0 + 1) 0 + 1) ≤ 2/10^7 := by unfold gam ulp2; norm_num
    calc _ ≤ 2/10^7 * (b * (13 * (1 + |t|) * r)) := mul_le_mul g hM hM0 (by norm_num)
      _ ≤ _ := by
        have : 0 ≤ b * (1 + |t|) * r := by positivity
        linarith)
  refine ⟨hF.1, ?_⟩
  have e1 := hF.2
  have e2 : |(val y - val x) * val T + val x - (val x + t * (val y - val x))| ≤ 2 * b * (5/10^6 * (1 + |t|) * r) := by
    have : (val y - val x) * val T + val x - (val x + t * (val y - val x)) = (val y - val x) * (val T - t) := by
      ring
    rw [this, abs_mul]
    have h : |val T - t| ≤ et := ev
    exact mul_le_mul ((abs_sub _ _).trans (by linarith)) (h.trans etr) (abs_nonneg _) (by linarith)
  have e3 := abs_add_le (value (fmL c (Lane.sub y x) T x).bits - ((val y - val x) * val T + val x)) ((val y - val x) * val T + val x - (val x + t * (val y - val x)))
  rw [sub_add_sub_cancel] at e3
  have : 0 ≤ b * (1 + |t|) * r := by positivity
  linarith
/-- C120: the point at which the line through `p` and `q` meets a plane whose normal has components of magnitude at most one.  `b`
bounds the components of the points and the offset of the plane; `den` is how much closer to the plane `p` is than `q`, `t` the
position along the line. -/
theorem C120_planeIntersectLine (c : Cfg) (S p q : V4 (F32 P)) (b : ℝ) (hS : Fins 4 S) (hp : Fins 3 p) (hq : Fins 3 q)
    (bS : ∀ i : Fin 4, i.val < 3 → |vals S i| ≤ 1) (bW : |vals S 3| ≤ b) (bp : ∀ i : Fin 4, i.val < 3 → |vals p i| ≤ b) (bq : ∀ i : Fin 4, i.val < 3 → |vals q i| ≤ b) (hb : b ≤ 2^40) :
    let den := dotN 3 (vals S) (vals p) - dotN 3 (vals S) (vals q)
    let t := dotN 4 (vals S) (pt (vals p)) / den
    1/2^21 ≤ |den| → 3/10^6 * b ≤ |den| →
    ∀ i : Fin 4, i.val < 3 → FClose ((XMPlaneIntersectLine c S p q).lane i).bits (vals p i + t * (vals q i - vals p i)) (2/10^5 * b * (1 + |t|) * (b / |den|)) := by
  intro den t h1 h2 i hi
  obtain ⟨cf, cv⟩ := coord_vec p hp
  have hS3 : Fins 3 S := fun i _ => hS i i.isLt
  have tn : 0 < tiny := by unfold tiny; norm_num
  -- sizes
  have s0 := bS 0 (by decide); have s1 := bS 1 (by decide); have s2 := bS 2 (by decide)
  have mp : magN' 3 (vals S) (vals p) ≤ 3 * b := by
    rw [(dotN_3 _ _).2]
    linarith [abs_mul_le1 s0 (bp 0 (by decide)), abs_mul_le1 s1 (bp 1 (by decide)), abs_mul_le1 s2 (bp 2 (by decide))]
  have mq : magN' 3 (vals S) (vals q) ≤ 3 * b := by
    rw [(dotN_3 _ _).2]
    linarith [abs_mul_le1 s0 (bq 0 (by decide)), abs_mul_le1 s1 (bq 1 (by decide)), abs_mul_le1 s2 (bq 2 (by decide))]
  have mc : magN' 4 (vals S) (pt (vals p)) ≤ 4 * b := by
    rw [(dotN_4 _ _).2]
    have e0 : pt (vals p) 0 = vals p 0 := rfl
    have e1 : pt (vals p) 1 = vals p 1 := rfl
    have e2 : pt (vals p) 2 = vals p 2 := rfl
    have e3 : pt (vals p) 3 = 1 := rfl
    rw [e0, e1, e2, e3, mul_one]
    linarith [abs_mul_le1 s0 (bp 0 (by decide)), abs_mul_le1 s1 (bp 1 (by decide)), abs_mul_le1 s2 (bp 2 (by decide))]
  have dle (x y : Fin 4 → ℝ) : |dotN 3 x y| ≤ magN' 3 x y := by
    rw [(dotN_3 _ _).1, (dotN_3 _ _).2]; exact abs_add_three _ _ _
  have dle4 (x y : Fin 4 → ℝ) : |dotN 4 x y| ≤ magN' 4 x y := by
    rw [(dotN_4 _ _).1, (dotN_4 _ _).2]
    exact (abs_add_le _ _).trans (by linarith [abs_add_three (x 0 * y 0) (x 1 * y 1) (x 2 * y 2)])
  have db : |den| ≤ 6 * b := (abs_sub _ _).trans (by linarith [dle (vals S) (vals p), dle (vals S) (vals q)])
  have dp : 0 < |den| := lt_of_lt_of_le (by norm_num) h1
  have dn : den ≠ 0 := abs_pos.1 dp
  have bp0 : 1/2^25 < b := by linarith
  have b0 : 0 < b := lt_trans (by norm_num) bp0
  have tb : tiny ≤ b / 2^90 := by
    have : tiny ≤ (1/2^25) / 2^90 := by unfold tiny; norm_num
    linarith
  set D := XMVectorSubtract (XMVector3Dot c S p) (XMVector3Dot c S q) with hD
  have apD : ∀ j : Fin 4, FClose (D.lane j).bits den (3/2/10^6 * b) := by
    intro j
    have e : D.lane j = Lane.sub ((XMVector3Dot c S p).lane j) ((XMVector3Dot c S q).lane j) := by fin_cases j <;> rfl
    rw [e]
    have := Ap.sub (dot3_ap c S p hS3 hp j) (dot3_ap c S q hS3 hq j)
    refine Ap.fclose this (by norm_num) (by norm_num at hb ⊢; linarith) rfl ?_
    have g4 : gam (max 3 3 + 1) ≤ 24/10^8 := gam4G
    calc _ ≤ 24/10^8 * (61/10 * b) := mul_le_mul g4 (by linarith) (by linarith [(abs_nonneg _).trans (dle (vals S) (vals p)), (abs_nonneg _).trans (dle (vals S) (vals q))]) (by norm_num)
      _ ≤ _ := by linarith
  have apN : ∀ j : Fin 4, FClose ((XMPlaneDotCoord c S p).lane j).bits (dotN 4 (vals S) (pt (vals p))) (1/10^6 * b) := by
    intro j
    have := dot4_ap c S _ hS cf j
    rw [cv] at this
    refine Ap.fclose this (by norm_num) (by norm_num at hb ⊢; linarith) rfl ?_
    calc _ ≤ 24/10^8 * (41/10 * b) := mul_le_mul gam4G (by linarith) (by linarith [(abs_nonneg _).trans (dle4 (vals S) (pt (vals p)))]) (by norm_num)
      _ ≤ _ := by linarith
  set r := b / |den| with hr
  have r0 : 0 < r := by positivity
  have rd : r * |den| = b := by rw [hr]; field_simp
  have r6 : 1/6 ≤ r := by rw [hr, le_div_iff₀ dp]; linarith
  have rB : r ≤ 2^19 := by
    rw [hr, div_le_iff₀ dp]; norm_num at h2 ⊢; linarith
  have t0 := abs_nonneg t
  have tB : |t| ≤ 4 * r := by
    show |_ / _| ≤ _
    rw [abs_div, hr, ← mul_div_assoc]
    exact div_le_div_of_nonneg_right ((dle4 _ _).trans mc) dp.le
  -- the parameter
  have eX : 3 * (1/10^6 * b + |t| * (3/2/10^6 * b)) / |den| = (3/10^6 + 9/2/10^6 * |t|) * r := by rw [hr]; ring
  have eY : 2 * (1/10^6 * b + |t| * (3/2/10^6 * b)) / |den| = (2/10^6 + 3/10^6 * |t|) * r := by rw [hr]; ring
  have tr : |t| * r ≤ 2^40 := by
    calc |t| * r ≤ (4 * r) * r := mul_le_mul_of_nonneg_right tB r0.le
      _ ≤ (4 * 2^19) * 2^19 := by
        apply mul_le_mul _ rB r0.le (by norm_num); linarith
      _ ≤ _ := by norm_num
  have vt : FClose ((XMVectorDivide (XMPlaneDotCoord c S p) D).lane i).bits t ((3/10^6 + 9/2/10^6 * |t|) * r + ulp2 * (|t| + tiny)) := by
    have e : (XMVectorDivide (XMPlaneDotCoord c S p) D).lane i = Lane.div ((XMPlaneDotCoord c S p).lane i) (D.lane i) := by fin_cases i <;> rfl
    rw [e, ← eX]
    refine div_close (apN i) (apD i) dn (by linarith) ?_
    show |t| + 2 * (1/10^6 * b + |t| * (3/2/10^6 * b)) / |den| ≤ _
    rw [eY]
    have : (2/10^6 + 3/10^6 * |t|) * r = 2/10^6 * r + 3/10^6 * (|t| * r) := by ring
    rw [this]; norm_num at tB rB tr ⊢; linarith
  obtain ⟨fv, ev⟩ := vt
  set T := (XMVectorDivide (XMPlaneDotCoord c S p) D).lane i with hT
  -- the point
  have dr : FClose (fmL c (Lane.sub (q.lane i) (p.lane i)) T (p.lane i)).bits (vals p i + t * (vals q i - vals p i)) (2/10^5 * b * (1 + |t|) * r) := by
    exact point_close c (hp i hi) (hq i hi) fv (bp i hi) (bq i hi) b0 hb tb r6 rB tr ev
  have e : (XMPlaneIntersectLine c S p q).lane i = fmL c (Lane.sub (q.lane i) (p.lane i)) T (p.lane i) := by
    have hz : (XMVectorNearEqual c D XMVectorZero g_XMEpsilon).lane i = Lane.c0 := by
      suffices h : ((XMVectorNearEqual c D XMVectorZero g_XMEpsilon).lane i).bits = 0#32 by
        generalize (XMVectorNearEqual c D XMVectorZero g_XMEpsilon).lane i = x at h
        cases x; cases h; rfl
      rw [(C11_masks c D XMVectorZero g_XMEpsilon i).1]
      have e1 : (XMVectorSubtract D XMVectorZero).lane i = Lane.sub (D.lane i) Lane.c0 := by fin_cases i <;> rfl
      have e2 : (g_XMEpsilon (α := F32 P)).lane i = (g_XMEpsilon (α := F32 P)).x := by fin_cases i <;> rfl
      obtain ⟨fD, eD⟩ := apD i
      have := abs_sub_abs_le_abs_sub den (val (D.lane i))
      rw [abs_sub_comm den (val (D.lane i))] at this
      have e3 : |val (D.lane i) - den| ≤ 3/2/10^6 * b := eD
      have e4 := abs_add_le (val (D.lane i) - den) den
      rw [sub_add_cancel] at e4
      have nn := not_near (d := D.lane i) fD (by linarith) (by norm_num at hb ⊢; linarith)
      rw [e1, e2]; unfold maskOf; rw [if_neg nn]
    have hs (A B C : V4 (F32 P)) (h : C.lane i = Lane.c0) : (XMVectorSelect A B C).lane i = A.lane i := by
      have : (XMVectorSelect A B C).lane i = Lane.bor (Lane.bandn (C.lane i) (A.lane i)) (Lane.band (B.lane i) (C.lane i)) := by fin_cases i <;> rfl
      rw [this, h, LawfulLane.bandn_zero_left, LawfulLane.band_zero_right, LawfulLane.bor_zero_right]
    unfold XMPlaneIntersectLine
    rw [hs _ _ _ hz, madd_fmL]
    have e1 : (XMVectorSubtract q p).lane i = Lane.sub (q.lane i) (p.lane i) := by fin_cases i <;> rfl
    rw [e1]
  rw [e]; exact dr

/-! ### cases meeting the hypotheses -/

theorem exV4 : vals (exV : V4 (F32 P)) = ![3, -2, 3/2, 1] := by
  obtain ⟨e0, e1, e2, e3⟩ := exV_vals (P := P)
  ext i; fin_cases i
  · exact e0
  · exact e1
  · exact e2
  · exact e3
theorem r2_fin : Fins 4 (g_XMIdentityR2 : V4 (F32 P)) := exA3_fin 2
theorem r2_vals : vals (g_XMIdentityR2 : V4 (F32 P)) = ![0, 0, 1, 0] := by
  ext i; fin_cases i
  · exact val_zero
  · exact val_zero
  · exact value_one
  · exact val_zero
theorem zero_fin : Fins 4 (XMVectorZero : V4 (F32 P)) := by
  intro i _; fin_cases i <;> exact (by decide : IsFinite 0#32)
theorem zero_vals : vals (XMVectorZero : V4 (F32 P)) = ![0, 0, 0, 0] := by
  ext i; fin_cases i <;> exact val_zero
theorem f3 {V : V4 (F32 P)} (h : Fins 4 V) : Fins 3 V := fun i _ => h i i.isLt
theorem f2 {V : V4 (F32 P)} (h : Fins 4 V) : Fins 2 V := fun i _ => h i i.isLt
macro "exn" : tactic => `(tactic| (simp only [(dotN_2 _ _).1, (dotN_2 _ _).2, (dotN_3 _ _).1, (dotN_3 _ _).2, (dotN_4 _ _).1, (dotN_4 _ _).2, exV4, r2_vals, zero_vals, pt, Matrix.cons_val] <;> norm_num [abs_of_pos, tiny]))
-- (3, -2, 1.5) reflected in z = 0 has z = -1.5
example (c : Cfg) : Spec.Near ((XMVector3Reflect c (exV : V4 (F32 P)) g_XMIdentityR2).lane 2).bits (-3/2) 5 6 := by
  have h := C120_reflect3 c (exV : V4 (F32 P)) g_XMIdentityR2 (exV_fin 3) (f3 r2_fin) (by exn) 2 (by decide) (by exn)
  have e : vals (exV : V4 (F32 P)) 2 - 2 * dotN 3 (vals (exV : V4 (F32 P))) (vals (g_XMIdentityR2 : V4 (F32 P))) * vals (g_XMIdentityR2 : V4 (F32 P)) 2 = -3/2 := by exn
  rw [e] at h
  intro _
  obtain ⟨f, h⟩ := h (by exn)
  exact ⟨f, h.trans (mul_le_mul_of_nonneg_left (by exn) (gam_nonneg (by norm_num)))⟩
-- the plane through (3, -2, 1.5) with that normal has offset -15.25
example (c : Cfg) : Spec.Near (XMPlaneFromPointNormal c (exV : V4 (F32 P)) exV).w.bits (-61/4) 16 4 := by
  obtain ⟨-, -, -, h⟩ := C120_planeFromPointNormal c (exV : V4 (F32 P)) exV (exV_fin 3) (exV_fin 3)
  have e : -dotN 3 (vals (exV : V4 (F32 P))) (vals (exV : V4 (F32 P))) = -61/4 := by exn
  rw [e] at h
  intro _
  obtain ⟨f, h⟩ := h (by exn)
  exact ⟨f, h.trans (mul_le_mul_of_nonneg_left (by exn) (gam_nonneg (by norm_num)))⟩
-- the line from (3, -2, 1.5) through the origin meets z = 0 at the origin
example (c : Cfg) : FClose ((XMPlaneIntersectLine c (g_XMIdentityR2 : V4 (F32 P)) exV XMVectorZero).lane 0).bits 0 (3/10^4) := by
  have h := C120_planeIntersectLine c (g_XMIdentityR2 : V4 (F32 P)) exV XMVectorZero 3 r2_fin (exV_fin 3) (f3 zero_fin)
    (by intro i hi; fin_cases i <;> exn) (by exn) (by intro i hi; fin_cases i <;> exn) (by intro i hi; fin_cases i <;> exn) (by norm_num) (by exn) (by exn) 0 (by decide)
  have e1 : dotN 3 (vals (g_XMIdentityR2 : V4 (F32 P))) (vals (exV : V4 (F32 P))) - dotN 3 (vals (g_XMIdentityR2 : V4 (F32 P))) (vals (XMVectorZero : V4 (F32 P))) = 3/2 := by exn
  have e2 : dotN 4 (vals (g_XMIdentityR2 : V4 (F32 P))) (pt (vals (exV : V4 (F32 P)))) = 3/2 := by exn
  rw [e1, e2] at h
  have e3 : vals (exV : V4 (F32 P)) 0 + 3/2 / (3/2) * (vals (XMVectorZero : V4 (F32 P)) 0 - vals (exV : V4 (F32 P)) 0) = 0 := by exn
  rw [e3] at h
  exact FClose.le h (by norm_num [abs_of_pos])
-- (3, -2, 1.5) by a matrix with rows (3, -2, 1.5, 1), (0, 1, 0, 0), (0, 0, 1, 0), (0, 0, 0, 1): x = 9 and w = 4
example (c : Cfg) : FClose ((XMVector3TransformCoord c (exV : V4 (F32 P)) exA3).lane 0).bits (9/4) (1/10^5) := by
  have hr (i j : Fin 4) : vals ((exA3 : M4 (F32 P)).row i) j = (!![3, -2, 3/2, 1; 0, 1, 0, 0; 0, 0, 1, 0; 0, 0, 0, 1] : Matrix (Fin 4) (Fin 4) ℝ) i j := by
    rw [← exA3_mat (P := P)]; rfl
  have h3 (j : Fin 4) : vals (exA3 : M4 (F32 P)).r3 j = (!![3, -2, 3/2, 1; 0, 1, 0, 0; 0, 0, 1, 0; 0, 0, 0, 1] : Matrix (Fin 4) (Fin 4) ℝ) 3 j := hr 3 j
  have x0 : rowC 3 (vals (exV : V4 (F32 P))) (exA3 : M4 (F32 P)) 0 = 9 := by
    simp only [rowC, Fin.sum_univ_four, hr, h3, exV4]; simp; norm_num
  have x3 : rowC 3 (vals (exV : V4 (F32 P))) (exA3 : M4 (F32 P)) 3 = 4 := by
    simp only [rowC, Fin.sum_univ_four, hr, h3, exV4]; simp; norm_num
  have m0 : rowMag 3 (vals (exV : V4 (F32 P))) (exA3 : M4 (F32 P)) 0 = 9 + 3 * tiny := by
    simp only [rowMag, Fin.sum_univ_four, hr, h3, exV4]; simp; norm_num
  have m3 : rowMag 3 (vals (exV : V4 (F32 P))) (exA3 : M4 (F32 P)) 3 = 4 + 3 * tiny := by
    simp only [rowMag, Fin.sum_univ_four, hr, h3, exV4]; simp; norm_num
  have h := C120_transformCoord3 c (exV : V4 (F32 P)) exA3 (exV_fin 3) exA3_fin 0
  simp only [x0, x3, m0, m3] at h
  refine FClose.le (h ?_ ?_ ?_ ?_ ?_) ?_ <;> norm_num [tiny, gam, ulp2, abs_of_pos]
-- the y and z axes and (3, -2, 1.5, 1): the fourth component is 3 up to sign
example (c : Cfg) : ∃ r : Fin 4 → ℝ, |r 3| = 3 ∧ ∀ i, FClose ((XMVector4Cross c ((exA3 : M4 (F32 P)).row 1) ((exA3 : M4 (F32 P)).row 2) exV).lane i).bits (r i) (1/10^4) := by
  have hr (i j : Fin 4) : vals ((exA3 : M4 (F32 P)).row i) j = (!![3, -2, 3/2, 1; 0, 1, 0, 0; 0, 0, 1, 0; 0, 0, 0, 1] : Matrix (Fin 4) (Fin 4) ℝ) i j := by
    rw [← exA3_mat (P := P)]; rfl
  have e1 : vals ((exA3 : M4 (F32 P)).row 1) = ![0, 1, 0, 0] := by ext j; rw [hr]; fin_cases j <;> rfl
  have e2 : vals ((exA3 : M4 (F32 P)).row 2) = ![0, 0, 1, 0] := by ext j; rw [hr]; fin_cases j <;> rfl
  obtain ⟨r, hd, h⟩ := C120_cross4 c ((exA3 : M4 (F32 P)).row 1) ((exA3 : M4 (F32 P)).row 2) exV 3 (exA3_fin 1) (exA3_fin 2) (exV_fin 4)
    (by intro i; rw [e1]; fin_cases i <;> simp) (by intro i; rw [e2]; fin_cases i <;> simp) (by intro i; fin_cases i <;> exn) (by norm_num) (by norm_num)
  refine ⟨r, ?_, fun i => FClose.le (h i) (by norm_num)⟩
  have := hd ![0, 0, 0, 1]
  rw [e1, e2, exV4] at this
  simp [dotProduct, Fin.sum_univ_four, Matrix.det_succ_row_zero, Fin.sum_univ_succ, Matrix.submatrix, Fin.succAbove] at this
  rw [this]; norm_num
end DXM.Props
