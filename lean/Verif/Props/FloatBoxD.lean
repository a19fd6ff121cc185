import Verif.Props.FloatObbD
import Verif.Props.FloatInterp

/-
C145: axis-aligned boxes moved by a matrix, or by a scale, a rotation and a translation, on binary32 lanes.
-/

set_option linter.all false

namespace DXM.Props
open DXM.Spec DXM.FErr DXM.IEEE DXM.RG Matrix
open scoped Quaternion
variable {P : Env}

namespace BoxD
/-- The loop over the corners: its results bound every corner, lane by lane, and are attained. -/
theorem fold (corner : V4 (F32 P) → V4 (F32 P)) (l : List (V4 (F32 P))) : ∀ (m M : V4 (F32 P)) (ps : List (V4 (F32 P))), Fin3 (xyz m) → Fin3 (xyz M) → (∀ o ∈ l, Fin3 (xyz (corner o))) →
    (∀ i, (∀ o ∈ ps, ptOf (xyz m) i ≤ ptOf (xyz (corner o)) i ∧ ptOf (xyz (corner o)) i ≤ ptOf (xyz M) i) ∧
      (∃ o ∈ ps, ptOf (xyz m) i = ptOf (xyz (corner o)) i) ∧ ∃ o ∈ ps, ptOf (xyz M) i = ptOf (xyz (corner o)) i) →
    let r := l.foldl (fun (m : V4 (F32 P) × V4 (F32 P)) o => (XMVectorMin m.1 (corner o), XMVectorMax m.2 (corner o))) (m, M)
    Fin3 (xyz r.1) ∧ Fin3 (xyz r.2) ∧ ∀ i, (∀ o ∈ ps ++ l, ptOf (xyz r.1) i ≤ ptOf (xyz (corner o)) i ∧ ptOf (xyz (corner o)) i ≤ ptOf (xyz r.2) i) ∧
      (∃ o ∈ ps ++ l, ptOf (xyz r.1) i = ptOf (xyz (corner o)) i) ∧ ∃ o ∈ ps ++ l, ptOf (xyz r.2) i = ptOf (xyz (corner o)) i := by
  induction l with
  | nil => intro m M ps f1 f2 _ h; rw [List.append_nil]; exact ⟨f1, f2, h⟩
  | cons q l ih =>
    intro m M ps f1 f2 fl h
    have fq := fl q (by simp)
    obtain ⟨m1, m2⟩ := xyz_min f1 fq
    obtain ⟨M1, M2⟩ := xyz_max f2 fq
    have := ih (XMVectorMin m (corner q)) (XMVectorMax M (corner q)) (ps ++ [q]) m1 M1 (fun o ho => fl o (by simp [ho])) (fun i => by
      obtain ⟨h1, ⟨o1, p1, e1⟩, o2, p2, e2⟩ := h i
      rw [m2, M2]
      refine ⟨fun o ho => ?_, ?_, ?_⟩
      · rcases List.mem_append.1 ho with ho | ho
        · exact ⟨(min_le_left _ _).trans (h1 o ho).1, (h1 o ho).2.trans (le_max_left _ _)⟩
        · rw [List.mem_singleton.1 ho]
          exact ⟨min_le_right _ _, le_max_right _ _⟩
      · rcases min_choice (ptOf (xyz m) i) (ptOf (xyz (corner q)) i) with g | g <;> rw [g]
        · exact ⟨o1, by simp [p1], e1⟩
        · exact ⟨q, by simp, rfl⟩
      · rcases max_choice (ptOf (xyz M) i) (ptOf (xyz (corner q)) i) with g | g <;> rw [g]
        · exact ⟨o2, by simp [p2], e2⟩
        · exact ⟨q, by simp, rfl⟩)
    rw [List.append_assoc, List.singleton_append] at this
    exact this
theorem n1 : val (Lane.c1 : F32 P) = 1 := Loc.v1
theorem nn : val (Lane.cNeg1 : F32 P) = -1 := Loc.vn
/-- The offsets are the eight sign vectors. -/
theorem signs_eq : signs = (g_BoxOffset : List (V4 (F32 P))).map fun o => ptOf (xyz o) := by
  have e : ∀ x y z : F32 P, ∀ w, ptOf (xyz (⟨x, y, z, w⟩ : V4 (F32 P))) = ![val x, val y, val z] := fun x y z w => by ext i; fin_cases i <;> rfl
  simp only [signs, g_BoxOffset, g_BoxOffset0, g_BoxOffset1, List.map_cons, List.map_nil, e, n1, nn]
theorem off_signs {o : V4 (F32 P)} (ho : o ∈ (g_BoxOffset : List (V4 (F32 P)))) : ptOf (xyz o) ∈ signs ∧ Fin3 (xyz o) := by
  refine ⟨by rw [signs_eq (P := P)]; exact List.mem_map.2 ⟨o, ho, rfl⟩, ?_⟩
  have p : Fin' (Lane.c1 : F32 P) := (by decide : IsFinite 0x3F800000#32)
  have n : Fin' (Lane.cNeg1 : F32 P) := (by decide : IsFinite 0xBF800000#32)
  simp only [g_BoxOffset, g_BoxOffset0, g_BoxOffset1, List.mem_cons, List.not_mem_nil, or_false] at ho
  rcases ho with rfl | rfl | rfl | rfl | rfl | rfl | rfl | rfl
  exacts [⟨n, n, p⟩, ⟨p, n, p⟩, ⟨p, p, p⟩, ⟨n, p, p⟩, ⟨n, n, n⟩, ⟨p, n, n⟩, ⟨p, p, n⟩, ⟨n, p, n⟩]
theorem signs_off {s : Pt} (hs : s ∈ signs) : ∃ o ∈ (g_BoxOffset : List (V4 (F32 P))), ptOf (xyz o) = s := by
  rw [signs_eq (P := P)] at hs
  obtain ⟨o, h1, h2⟩ := List.mem_map.1 hs
  exact ⟨o, h1, h2⟩
/-- A box built from corners known up to `δ`. -/
theorem corners (c : Cfg) (corner : V4 (F32 P) → V4 (F32 P)) (a e : Pt) (he : ∀ i, 0 ≤ e i) (A : Matrix (Fin 3) (Fin 3) ℝ) (t : Pt) (δ R : ℝ) (hR : R ≤ 2^125)
    (hc : ∀ o ∈ (g_BoxOffset : List (V4 (F32 P))), Fin3 (xyz (corner o)) ∧ ∀ i, |ptOf (xyz (corner o)) i - ((a + e * ptOf (xyz o)) ᵥ* A + t) i| ≤ δ ∧ |ptOf (xyz (corner o)) i| ≤ R) :
    let D := BoundingBox.ofCorners c corner
    let m := δ + 5/2^24 * (R + tiny)
    FinBox D ∧ (∀ p ∈ box a e, p ᵥ* A + t ∈ box (ptOf D.Center) (fun i => ptOf D.Extents i + m)) ∧
      ∀ b f, (∀ p ∈ box a e, p ᵥ* A + t ∈ box b f) → box (ptOf D.Center) (ptOf D.Extents) ⊆ box b (fun i => f i + m) := by
  intro D m
  have h0 := hc g_BoxOffset0 (by simp [g_BoxOffset])
  have R0 : 0 ≤ R := (abs_nonneg _).trans (h0.2 0).2
  have tp := tiny_pos
  obtain ⟨f1, f2, k⟩ := fold corner g_BoxOffset1 (corner g_BoxOffset0) (corner g_BoxOffset0) [g_BoxOffset0] h0.1 h0.1 (fun o ho => (hc o (by simp [g_BoxOffset, ho])).1)
    (fun i => ⟨fun o ho => by rw [List.mem_singleton.1 ho]; exact ⟨le_rfl, le_rfl⟩, ⟨_, List.mem_singleton.2 rfl, rfl⟩, ⟨_, List.mem_singleton.2 rfl, rfl⟩⟩)
  rw [List.singleton_append] at k
  change ∀ i, (∀ o ∈ (g_BoxOffset : List (V4 (F32 P))), _) ∧ (∃ o ∈ (g_BoxOffset : List (V4 (F32 P))), _) ∧ ∃ o ∈ (g_BoxOffset : List (V4 (F32 P))), _ at k
  set mm := (g_BoxOffset1 : List (V4 (F32 P))).foldl (fun (m : V4 (F32 P) × V4 (F32 P)) o => (XMVectorMin m.1 (corner o), XMVectorMax m.2 (corner o))) (corner g_BoxOffset0, corner g_BoxOffset0) with hmm
  obtain ⟨fD, eD⟩ := mid_err c mm.1 mm.2 f1 f2 R hR (fun i => by obtain ⟨-, ⟨o, ho, e⟩, -⟩ := k i; rw [e]; exact ((hc o ho).2 i).2) (fun i => by obtain ⟨-, -, o, ho, e⟩ := k i; rw [e]; exact ((hc o ho).2 i).2)
  have g2 : gam 2 * (R + tiny) ≤ 5/2 / 2^24 * (R + tiny) := mul_le_mul_of_nonneg_right (by unfold gam ulp2; norm_num) (by positivity)
  have hi : ∀ p : Pt, ∀ i, (p ᵥ* A + t) i = (fun j => A j i) ⬝ᵥ p + t i := by
    intro p i
    rw [Pi.add_apply, dotProduct_comm]; rfl
  have cr : ∀ s ∈ signs, ∀ i, ptOf (xyz mm.1) i - δ ≤ ((a + e * s) ᵥ* A + t) i ∧ ((a + e * s) ᵥ* A + t) i ≤ ptOf (xyz mm.2) i + δ := fun s hs i => by
    obtain ⟨o, ho, rfl⟩ := signs_off (P := P) hs
    have h1 := (k i).1 o ho
    have h2 := abs_le.1 ((hc o ho).2 i).1
    exact ⟨by linarith [h2.2], by linarith [h2.1]⟩
  refine ⟨fD, fun p hp => ?_, fun b f h p hp => ?_⟩
  · rw [mem_box]
    intro i
    have q1 := abs_le.1 (eD i).1; have q2 := abs_le.1 (eD i).2
    have l1 : ptOf (xyz mm.1) i - δ ≤ (p ᵥ* A + t) i := by
      have := affine_box a e (-fun j => A j i) (-t i) (-(ptOf (xyz mm.1) i - δ)) he (fun s hs => by
        have := (cr s hs i).1
        rw [hi] at this; rw [neg_dotProduct]; linarith) hp
      rw [hi]; rw [neg_dotProduct] at this; linarith
    have l2 : (p ᵥ* A + t) i ≤ ptOf (xyz mm.2) i + δ := by
      rw [hi]
      exact affine_box a e _ _ _ he (fun s hs => by rw [← hi]; exact (cr s hs i).2) hp
    show ptOf D.Center i - (ptOf D.Extents i + (δ + 5/2^24 * (R + tiny))) ≤ _ ∧ _ ≤ ptOf D.Center i + (ptOf D.Extents i + (δ + 5/2^24 * (R + tiny)))
    change _ ≤ ptOf D.Center i - _ ∧ ptOf D.Center i - _ ≤ _ at q1
    change _ ≤ ptOf D.Extents i - _ ∧ ptOf D.Extents i - _ ≤ _ at q2
    constructor <;> linarith [q1.1, q1.2, q2.1, q2.2]
  · rw [mem_box] at hp ⊢
    intro i
    have q1 := abs_le.1 (eD i).1; have q2 := abs_le.1 (eD i).2
    obtain ⟨-, ⟨o1, p1, e1⟩, o2, p2, e2⟩ := k i
    have b1 := (mem_box.1 (h _ (corner_mem a e _ he (off_signs p1).1)) i).1
    have b2 := (mem_box.1 (h _ (corner_mem a e _ he (off_signs p2).1)) i).2
    have d1 := abs_le.1 ((hc o1 p1).2 i).1; have d2 := abs_le.1 ((hc o2 p2).2 i).1
    rw [← e1] at d1; rw [← e2] at d2
    have hpi := hp i
    change _ ≤ ptOf D.Center i - _ ∧ ptOf D.Center i - _ ≤ _ at q1
    change _ ≤ ptOf D.Extents i - _ ∧ ptOf D.Extents i - _ ≤ _ at q2
    show b i - (f i + (δ + 5/2^24 * (R + tiny))) ≤ _ ∧ _ ≤ b i + (f i + (δ + 5/2^24 * (R + tiny)))
    constructor <;> linarith [q1.1, q1.2, q2.1, q2.2, d1.1, d1.2, d2.1, d2.2, hpi.1, hpi.2]
/-- One corner of the box. -/
theorem corner_ap (c : Cfg) (S : BoundingBox (F32 P)) (h : FinBox S) (W : ℝ) (b : ∀ i, |ptOf S.Center i| ≤ W) (w : ∀ i, |ptOf S.Extents i| ≤ W) {o : V4 (F32 P)}
    (ho : o ∈ (g_BoxOffset : List (V4 (F32 P)))) (j : Fin 3) :
    Ap (F3.lane (xyz (XMVectorMultiplyAdd c (load3 S.Extents) o (load3 S.Center))) j) ((ptOf S.Center + ptOf S.Extents * ptOf (xyz o)) j) (2 * W + tiny) 2 ∧
    |(ptOf S.Center + ptOf S.Extents * ptOf (xyz o)) j| ≤ 2 * W := by
  obtain ⟨hs, fo⟩ := off_signs ho
  have e : F3.lane (xyz (XMVectorMultiplyAdd c (load3 S.Extents) o (load3 S.Center))) j = Lane.fma (F3.lane S.Extents j) (F3.lane (xyz o) j) (F3.lane S.Center j) ∨
      F3.lane (xyz (XMVectorMultiplyAdd c (load3 S.Extents) o (load3 S.Center))) j = Lane.add (Lane.mul (F3.lane S.Extents j) (F3.lane (xyz o) j)) (F3.lane S.Center j) := by
    cases h : c.sse <;> cases h' : c.fma <;> fin_cases j <;> simp [XMVectorMultiplyAdd, SSE.fmadd, h, h', F3.lane, V4.map2, V4.map3, SSE.add, SSE.mul, load3]
  have va : ∀ A : F3 (F32 P), val (F3.lane A j) = ptOf A j := fun A => (ptOf_lane _ _).symm
  have so : |ptOf (xyz o) j| = 1 := by rcases mem_signs.1 hs j with g | g <;> rw [g] <;> simp
  have ab : |ptOf S.Extents j * ptOf (xyz o) j| ≤ W := by rw [abs_mul, so, mul_one]; exact w j
  have fe := fin3_lane h.2 j; have fc := fin3_lane h.1 j; have foj := fin3_lane fo j
  have bj := b j
  constructor
  · rcases e with e | e <;> rw [e]
    · refine (fmaL fe foj (leaf fc)).le ?_ ?_ (by norm_num)
      · rw [va, va, va, Pi.add_apply, Pi.mul_apply, add_comm]
      · rw [va, va, va]; linarith
    · refine ((mulL fe foj).add (leaf fc)).le ?_ ?_ (by norm_num)
      · rw [va, va, va, Pi.add_apply, Pi.mul_apply, add_comm]
      · rw [va, va, va]; linarith
  · rw [Pi.add_apply, Pi.mul_apply]
    exact (abs_add_le _ _).trans (by linarith)
end BoxD

/-- C145: a box moved by a scale, a rotation and a translation holds the images of its points up to the margin, and is no larger than any box that does, up to the margin. -/
theorem C145_boxDecomposed (c : Cfg) (S : BoundingBox (F32 P)) (s : F32 P) (Q T : V4 (F32 P)) (u : ℍ[ℝ]) (h : FinBox S) (h0 : ∀ i, 0 ≤ ptOf S.Extents i)
    (fs : IsFinite s.bits) (s0 : 0 < value s.bits) (hQ : Fins 4 Q) (hT : Fins 3 T) (nu : Quaternion.normSq u = 1) (hu : QClose (quatOf Q) u (1/10^6))
    (W B : ℝ) (b : ∀ i, |ptOf S.Center i| ≤ W) (w : ∀ i, |ptOf S.Extents i| ≤ W) (hW : W ≤ 2^38) (hs : value s.bits ≤ 2^40) (hB : ∀ i, |ptOf (xyz T) i| ≤ B) (hB' : B ≤ 2^80) :
    let D := BoundingBox.TransformDecomposed c S s Q T
    let img := fun p : Pt => rot u (value s.bits • p) + ptOf (xyz T)
    let m := 40/10^6 * (W * value s.bits) + B / 2^20 + 1/10^20
    FinBox D ∧ (∀ p ∈ box (ptOf S.Center) (ptOf S.Extents), img p ∈ box (ptOf D.Center) (fun i => ptOf D.Extents i + m)) ∧
      ∀ b f, (∀ p ∈ box (ptOf S.Center) (ptOf S.Extents), img p ∈ box b f) → box (ptOf D.Center) (ptOf D.Extents) ⊆ box b (fun i => f i + m) := by
  intro D img m
  set k := value s.bits with hk
  set a := ptOf S.Center with ha
  set e := ptOf S.Extents with he
  have W0 : 0 ≤ W := (abs_nonneg _).trans (b 0)
  have B0 : 0 ≤ B := (abs_nonneg _).trans (hB 0)
  have Wk : W * k ≤ 2^78 := (mul_le_mul hW hs s0.le (by positivity)).trans (by norm_num)
  have Wk0 : 0 ≤ W * k := by positivity
  have tp := tiny_pos
  have t1 : tiny ≤ 1/10^35 := by unfold tiny; norm_num
  have tk : tiny * k ≤ 1/10^35 * 2^40 := mul_le_mul t1 hs s0.le (by norm_num)
  have tk0 : 0 ≤ tiny * k := by positivity
  have him : ∀ p : Pt, img p = p ᵥ* (k • rotM u) + ptOf (xyz T) := fun p => by
    show rot u (k • p) + _ = _
    rw [rot_eq nu, smul_vecMul, vecMul_smul]
  have vk : val s = k := rfl
  set N := 2 * (W * k) + tiny * k with hN
  have key : ∀ o ∈ (g_BoxOffset : List (V4 (F32 P))), Fin3 (xyz (XMVectorAdd (XMVector3Rotate c (XMVectorMultiply (XMVectorMultiplyAdd c (load3 S.Extents) o (load3 S.Center)) (XMVectorReplicate s)) Q) T)) ∧
      ∀ i, |ptOf (xyz (XMVectorAdd (XMVector3Rotate c (XMVectorMultiply (XMVectorMultiplyAdd c (load3 S.Extents) o (load3 S.Center)) (XMVectorReplicate s)) Q) T)) i - ((a + e * ptOf (xyz o)) ᵥ* (k • rotM u) + ptOf (xyz T)) i| ≤ 19/10^6 * N + 1/2^22 * B + 1/10^34 ∧
        |ptOf (xyz (XMVectorAdd (XMVector3Rotate c (XMVectorMultiply (XMVectorMultiplyAdd c (load3 S.Extents) o (load3 S.Center)) (XMVectorReplicate s)) Q) T)) i| ≤ 21/10 * N + 2 * B + 1/10^33 := by
    intro o ho
    have ca := BoxD.corner_ap c S h W b w ho
    set C := XMVectorMultiplyAdd c (load3 S.Extents) o (load3 S.Center) with hC
    set V := XMVectorMultiply C (XMVectorReplicate s) with hV
    set v := a + e * ptOf (xyz o) with hv
    have kv : ∀ i, |(k • v) i| ≤ N := fun i => by
      rw [Pi.smul_apply, smul_eq_mul, abs_mul, abs_of_pos s0]
      have := mul_le_mul_of_nonneg_left (ca i).2 s0.le
      linarith
    have sc : ∀ j : Fin 3, Fin' (F3.lane (xyz V) j) ∧ |axisOf V j - (k • v) j| ≤ 4/2^24 * (N + 1/10^35) := by
      intro j
      have el : F3.lane (xyz V) j = Lane.mul (F3.lane (xyz C) j) s := by fin_cases j <;> rfl
      have q := (ca j).1.mul (leaf fs) (by have := (ca j).2; linarith) (by rw [vk, abs_of_pos s0]; linarith)
      rw [vk, abs_of_pos s0] at q
      obtain ⟨f, q⟩ := (q.le rfl (show _ ≤ N + 1/10^35 by linarith) (le_refl _) (by norm_num)).2.2 (by linarith)
      rw [Loc.axis_lane, Pi.smul_apply, smul_eq_mul, el, mul_comm k]
      refine ⟨f, q.trans (mul_le_mul_of_nonneg_right ?_ (by positivity))⟩
      unfold gam ulp2; norm_num
    have fV : Fins 3 V := fun i hi => by
      fin_cases i
      · exact (sc 0).1
      · exact (sc 1).1
      · exact (sc 2).1
      · exact absurd hi (by decide)
    obtain ⟨fC, eC⟩ := SphD.move c V Q T (k • v) u N B fV hQ hT nu hu kv (fun i => (sc i).2) (by linarith) hB hB'
    refine ⟨fC, fun i => ?_⟩
    rw [← him]
    refine ⟨eC i, ?_⟩
    have rl := abs_le.1 (Loc.rot_le (u := star u) (by rw [Quaternion.normSq_star]; exact nu) (v := k • v) (by positivity) kv i)
    rw [star_star] at rl
    have e1 := abs_le.1 (eC i)
    rw [Pi.add_apply] at e1
    have b1 := abs_le.1 (hB i)
    have N0 : 0 ≤ N := by positivity
    exact abs_le.2 ⟨by linarith [e1.1], by linarith [e1.2]⟩
  obtain ⟨r1, r2, r3⟩ := BoxD.corners c _ a e h0 (k • rotM u) (ptOf (xyz T)) _ _ (show 21/10 * N + 2 * B + 1/10^33 ≤ 2^125 by linarith) key
  have hm : 19/10^6 * N + 1/2^22 * B + 1/10^34 + 5/2^24 * (21/10 * N + 2 * B + 1/10^33 + tiny) ≤ m := by
    show _ ≤ 40/10^6 * (W * k) + B / 2^20 + 1/10^20
    linarith
  simp only [← him] at r2 r3
  refine ⟨r1, fun p hp i => (r2 p hp i).trans (add_le_add le_rfl hm), fun b f hb p hp i => (r3 b f hb hp i).trans (add_le_add le_rfl hm)⟩

/-- C145: the same for a matrix whose upper three rows have entries of size at most `s`. -/
theorem C145_boxTransform (c : Cfg) (S : BoundingBox (F32 P)) (M : M4 (F32 P)) (h : FinBox S) (h0 : ∀ i, 0 ≤ ptOf S.Extents i) (hM : ∀ i, Fins 4 (M.row i))
    (s W T : ℝ) (hs : ∀ i j, |linOf M i j| ≤ s) (s2 : s ≤ 2^40) (b : ∀ i, |ptOf S.Center i| ≤ W) (w : ∀ i, |ptOf S.Extents i| ≤ W) (hW : W ≤ 2^38) (hT : ∀ i, |ptOf (xyz M.r3) i| ≤ T) (hT' : T ≤ 2^80) :
    let D := BoundingBox.TransformMatrix c S M
    let img := fun p : Pt => p ᵥ* linOf M + ptOf (xyz M.r3)
    let m := (W * s + T) / 2^17 + 1/10^20
    FinBox D ∧ (∀ p ∈ box (ptOf S.Center) (ptOf S.Extents), img p ∈ box (ptOf D.Center) (fun i => ptOf D.Extents i + m)) ∧
      ∀ b f, (∀ p ∈ box (ptOf S.Center) (ptOf S.Extents), img p ∈ box b f) → box (ptOf D.Center) (ptOf D.Extents) ⊆ box b (fun i => f i + m) := by
  intro D img m
  set A := linOf M with hA
  set a := ptOf S.Center with ha
  set e := ptOf S.Extents with he
  set t := ptOf (xyz M.r3) with ht
  have W0 : 0 ≤ W := (abs_nonneg _).trans (b 0)
  have T0 : 0 ≤ T := (abs_nonneg _).trans (hT 0)
  have s0 : 0 ≤ s := (abs_nonneg _).trans (hs 0 0)
  have Ws : W * s ≤ 2^78 := (mul_le_mul hW s2 s0 (by positivity)).trans (by norm_num)
  have Ws0 : 0 ≤ W * s := by positivity
  have tp := tiny_pos
  have t1 : tiny ≤ 1/10^35 := by unfold tiny; norm_num
  have ts : tiny * s ≤ 1/10^35 * 2^40 := mul_le_mul t1 s2 s0 (by norm_num)
  have ts0 : 0 ≤ tiny * s := by positivity
  set N := 2 * (W * s) + tiny * s with hN
  have key : ∀ o ∈ (g_BoxOffset : List (V4 (F32 P))), Fin3 (xyz (XMVector3Transform c (XMVectorMultiplyAdd c (load3 S.Extents) o (load3 S.Center)) M)) ∧
      ∀ i, |ptOf (xyz (XMVector3Transform c (XMVectorMultiplyAdd c (load3 S.Extents) o (load3 S.Center)) M)) i - ((a + e * ptOf (xyz o)) ᵥ* A + t) i| ≤ 25/2^24 * N + 5/2^24 * T + 1/10^34 ∧
        |ptOf (xyz (XMVector3Transform c (XMVectorMultiplyAdd c (load3 S.Extents) o (load3 S.Center)) M)) i| ≤ 31/10 * N + 2 * T + 1/10^33 := by
    intro o ho
    have ca := BoxD.corner_ap c S h W b w ho
    set C := XMVectorMultiplyAdd c (load3 S.Extents) o (load3 S.Center) with hC
    set v := a + e * ptOf (xyz o) with hv
    have cl : ∀ j : Fin 3, Fin' (F3.lane (xyz C) j) ∧ |axisOf C j - v j| ≤ 3/2^24 * (2 * W + tiny) := fun j => by
      obtain ⟨f, q⟩ := ((ca j).1 (by norm_num)).2.2 (by linarith)
      rw [Loc.axis_lane]
      exact ⟨f, q.trans (mul_le_mul_of_nonneg_right (by unfold gam ulp2; norm_num) (by positivity))⟩
    have fC : Fins 3 C := fun i hi => by
      fin_cases i
      · exact (cl 0).1
      · exact (cl 1).1
      · exact (cl 2).1
      · exact absurd hi (by decide)
    have cs : ∀ i j : Fin 3, |(axisOf C i - v i) * A i j| ≤ 3/2^24 * N := fun i j => by
      rw [abs_mul]
      have := mul_le_mul (cl i).2 (hs i j) (abs_nonneg _) (by positivity)
      linarith
    have vs : ∀ i j : Fin 3, |v i * A i j| ≤ N := fun i j => by
      rw [abs_mul]
      have := mul_le_mul (ca i).2 (hs i j) (abs_nonneg _) (by positivity)
      linarith
    have N0 : 0 ≤ N := by positivity
    have xs : ∀ i j : Fin 3, |axisOf C i * A i j| ≤ 101/100 * N := fun i j => by
      have e1 : axisOf C i * A i j = (axisOf C i - v i) * A i j + v i * A i j := by ring
      rw [e1]
      refine (abs_add_le _ _).trans ?_
      linarith [cs i j, vs i j]
    have main : ∀ j : Fin 3, Fin' (F3.lane (xyz (XMVector3Transform c C M)) j) ∧ |ptOf (xyz (XMVector3Transform c C M)) j - (axisOf C 0 * A 0 j + axisOf C 1 * A 1 j + axisOf C 2 * A 2 j + t j)| ≤ 5/2^24 * (31/10 * N + T + 3 * tiny) := fun j => by
      have q := C94_transform3 c C M fC hM j.castSucc
      have e0 : vals M.r0 j.castSucc = A 0 j := by fin_cases j <;> rfl
      have e1 : vals M.r1 j.castSucc = A 1 j := by fin_cases j <;> rfl
      have e2 : vals M.r2 j.castSucc = A 2 j := by fin_cases j <;> rfl
      have e3 : vals M.r3 j.castSucc = t j := by fin_cases j <;> rfl
      have c0 : vals C 0 = axisOf C 0 := rfl
      have c1 : vals C 1 = axisOf C 1 := rfl
      have c2 : vals C 2 = axisOf C 2 := rfl
      rw [e0, e1, e2, e3, c0, c1, c2] at q
      have bd : |axisOf C 0 * A 0 j| + |axisOf C 1 * A 1 j| + |axisOf C 2 * A 2 j| + |t j| + 3 * tiny ≤ 31/10 * N + T + 3 * tiny := by
        linarith [xs 0 j, xs 1 j, xs 2 j, hT j]
      have el : F3.lane (xyz (XMVector3Transform c C M)) j = (XMVector3Transform c C M).lane j.castSucc := by fin_cases j <;> rfl
      obtain ⟨f, q⟩ := q (by linarith)
      rw [ptOf_lane, el]
      exact ⟨f, q.trans (mul_le_mul (by unfold gam ulp2; norm_num) bd (by positivity) (by norm_num))⟩
    have ev : ∀ j : Fin 3, (v ᵥ* A + t) j = v 0 * A 0 j + v 1 * A 1 j + v 2 * A 2 j + t j := fun j => by
      simp [vecMul, dotProduct, Fin.sum_univ_three]
    refine ⟨⟨(main 0).1, (main 1).1, (main 2).1⟩, fun j => ?_⟩
    have m1 := abs_le.1 (main j).2
    rw [ev]
    have p0 := abs_le.1 (cs 0 j); have p1 := abs_le.1 (cs 1 j); have p2 := abs_le.1 (cs 2 j)
    have v0 := abs_le.1 (vs 0 j); have v1 := abs_le.1 (vs 1 j); have v2 := abs_le.1 (vs 2 j)
    have tj := abs_le.1 (hT j)
    exact ⟨abs_le.2 ⟨by linarith, by linarith⟩, abs_le.2 ⟨by linarith, by linarith⟩⟩
  obtain ⟨r1, r2, r3⟩ := BoxD.corners c _ a e h0 A t _ _ (show 31/10 * N + 2 * T + 1/10^33 ≤ 2^125 by linarith) key
  have hm : 25/2^24 * N + 5/2^24 * T + 1/10^34 + 5/2^24 * (31/10 * N + 2 * T + 1/10^33 + tiny) ≤ m := by
    show _ ≤ (W * s + T) / 2^17 + 1/10^20
    linarith
  refine ⟨r1, fun p hp i => (r2 p hp i).trans (add_le_add le_rfl hm), fun b f hb p hp i => (r3 b f hb hp i).trans (add_le_add le_rfl hm)⟩

/-! The hypotheses are met: the box of half side 1 about the origin under scaling by 2, and under scaling by 2 and a move by (1, 0, 0). -/
open Loc in
noncomputable def BoxD.one : BoundingBox (F32 P) := ⟨o3, ⟨fl 0x3F800000#32, fl 0x3F800000#32, fl 0x3F800000#32⟩⟩
open Loc in
theorem BoxD.one_ext (i : Fin 3) : ptOf (BoxD.one : BoundingBox (F32 P)).Extents i = 1 := by
  fin_cases i
  exacts [v1, v1, v1]
open Loc in
theorem BoxD.one_cen : ptOf (BoxD.one : BoundingBox (F32 P)).Center = 0 := po3
open Loc in
theorem BoxD.one_fin : FinBox (BoxD.one : BoundingBox (F32 P)) := ⟨fo3, (by decide : IsFinite 0x3F800000#32), (by decide : IsFinite 0x3F800000#32), (by decide : IsFinite 0x3F800000#32)⟩
open Loc in
example (c : Cfg) : let D := BoundingBox.TransformDecomposed c (BoxD.one : BoundingBox (F32 P)) (fl 0x40000000#32) ⟨fl 0#32, fl 0#32, fl 0#32, fl 0x3F800000#32⟩ ⟨fl 0#32, fl 0#32, fl 0#32, fl 0#32⟩
    FinBox D ∧ ∀ p : Pt, (∀ i, |p i| ≤ 1) → (2:ℝ) • p ∈ box (ptOf D.Center) (fun i => ptOf D.Extents i + 1/10^4) := by
  intro D
  have z : IsFinite 0#32 := by decide
  have r2 : value (fl 0x40000000#32 : F32 P).bits = 2 := v2
  have eT : ptOf (xyz (⟨fl 0#32, fl 0#32, fl 0#32, fl 0#32⟩ : V4 (F32 P))) = 0 := po3
  obtain ⟨k1, k2, -⟩ := C145_boxDecomposed c (BoxD.one : BoundingBox (F32 P)) (fl 0x40000000#32) ⟨fl 0#32, fl 0#32, fl 0#32, fl 0x3F800000#32⟩ ⟨fl 0#32, fl 0#32, fl 0#32, fl 0#32⟩ 1
    BoxD.one_fin (fun i => by rw [BoxD.one_ext]; norm_num) (by decide : IsFinite 0x40000000#32) (by rw [r2]; norm_num) fidq (fun k _ => by
      fin_cases k
      exacts [z, z, z, z]) (by simp) idq 1 0
    (fun i => by rw [BoxD.one_cen]; simp) (fun i => by rw [BoxD.one_ext]; simp) (by norm_num) (by rw [r2]; norm_num) (fun i => by rw [eT]; simp) (by norm_num)
  refine ⟨k1, fun p hp i => ?_⟩
  have := k2 p (fun i => by rw [BoxD.one_cen, BoxD.one_ext, Pi.zero_apply, sub_zero]; exact hp i) i
  simp only [eT, r2, rot_one, add_zero] at this
  exact this.trans (add_le_add le_rfl (by norm_num))
open Loc in
example (c : Cfg) : let D := BoundingBox.TransformMatrix c (BoxD.one : BoundingBox (F32 P)) SphT.mx
    FinBox D ∧ ∀ p : Pt, (∀ i, |p i| ≤ 1) → p ᵥ* linOf (SphT.mx : M4 (F32 P)) + ![1, 0, 0] ∈ box (ptOf D.Center) (fun i => ptOf D.Extents i + 1/2^15) := by
  intro D
  have z : IsFinite 0#32 := by decide
  have o : IsFinite 0x3F800000#32 := by decide
  have t : IsFinite 0x40000000#32 := by decide
  have fM : ∀ i, Fins 4 ((SphT.mx : M4 (F32 P)).row i) := fun i k _ => by
    fin_cases i <;> fin_cases k
    exacts [t, z, z, z, z, t, z, z, z, z, t, z, o, z, z, o]
  have d2 : |value (fl 0x40000000#32 : F32 P).bits| ≤ 2 := by rw [v2]; norm_num
  have d0 : |value (fl 0#32 : F32 P).bits| ≤ 2 := by rw [v0]; norm_num
  have eA : ∀ i j, |linOf (SphT.mx : M4 (F32 P)) i j| ≤ 2 := fun i j => by
    fin_cases i <;> fin_cases j
    exacts [d2, d0, d0, d0, d2, d0, d0, d0, d2]
  have eT : ptOf (xyz (SphT.mx : M4 (F32 P)).r3) = ![1, 0, 0] := by
    funext k; fin_cases k
    exacts [v1, v0, v0]
  obtain ⟨k1, k2, -⟩ := C145_boxTransform c (BoxD.one : BoundingBox (F32 P)) SphT.mx BoxD.one_fin (fun i => by rw [BoxD.one_ext]; norm_num) fM 2 1 1 eA (by norm_num)
    (fun i => by rw [BoxD.one_cen]; simp) (fun i => by rw [BoxD.one_ext]; simp) (by norm_num) (fun i => by rw [eT]; fin_cases i <;> simp) (by norm_num)
  refine ⟨k1, fun p hp i => ?_⟩
  have := k2 p (fun i => by rw [BoxD.one_cen, BoxD.one_ext, Pi.zero_apply, sub_zero]; exact hp i) i
  simp only [eT] at this
  exact this.trans (add_le_add le_rfl (by norm_num))
end DXM.Props
