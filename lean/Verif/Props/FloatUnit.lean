import Verif.Props.FloatSphere
import Verif.Props.FloatLen

/-
C104: the unit-length checks guarding the collision functions, on binary32 lanes, and normalized values passing them.
-/

set_option linter.all false

namespace DXM.Props
open DXM.Spec DXM.FErr DXM.IEEE DXM.RG Matrix
variable {P : Env}

theorem gam7 : gam 7 ≤ 8 * ulp2 := by unfold gam ulp2; norm_num
theorem val_eps : val (Lane.ofBits 0x38D1B717#32 : F32 P) = 13743895 / 2^37 := by
  have e1 : signBit 0x38D1B717#32 = false := by decide
  have e2 : expField 0x38D1B717#32 = 113 := by decide
  have e3 : fracField 0x38D1B717#32 = 5355287 := by decide
  show value 0x38D1B717#32 = _
  unfold value; rw [e1, e2, e3]; norm_num
theorem fin_eps : Fin' (Lane.ofBits 0x38D1B717#32 : F32 P) := by show IsFinite 0x38D1B717#32; decide

/-- One lane of the check. -/
theorem unit_lane {l : F32 P} {s : ℝ} {k : ℕ} (hk : k ≤ 6) (h : RelNear l.bits s k) (hs : 0 < s) (hb : s ≤ 2^63) :
    Fin' (Lane.sub l (Lane.ofBits 0x3F800000#32)) ∧ |val (Lane.sub l (Lane.ofBits 0x3F800000#32)) - (s - 1)| ≤ 10 * ulp2 * (s + 1) := by
  have hf : Fin' l := h.1
  have h2 : |val l - s| ≤ 8 * ulp2 * s := by
    refine h.2.trans ?_
    rw [abs_of_pos hs]
    exact mul_le_mul_of_nonneg_right ((gam_mono (by omega : k ≤ 7) (by norm_num)).trans gam7) hs.le
  have hu : ulp2 = 1/2^24 := rfl
  have h3 := abs_le.1 h2
  have h4 : |val l - val (Lane.ofBits 0x3F800000#32 : F32 P)| ≤ 2 * (s + 1) := by
    rw [val_one, abs_le]; rw [hu] at h3; constructor <;> linarith [h3.1, h3.2]
  have h5 := sub_rel hf (fin_one (P := P)) (h4.trans (by norm_num at hb ⊢; linarith))
  rw [val_one] at h5 h4
  refine ⟨h5.1, ?_⟩
  have e : val (Lane.sub l (Lane.ofBits 0x3F800000#32)) - (s - 1) = (val (Lane.sub l (Lane.ofBits 0x3F800000#32)) - (val l - 1)) + (val l - s) := by ring
  rw [e]
  refine (abs_add_le _ _).trans ?_
  have h6 : |val l - 1| ≤ (1 + 8 * ulp2) * (s + 1) - 0 := by
    rw [abs_le]; rw [hu] at h3 ⊢; constructor <;> linarith [h3.1, h3.2]
  have h7 := h5.2
  rw [hu] at h2 h6 h7 ⊢
  norm_num at h2 h6 h7 ⊢
  linarith

/-- The whole check: true when the length is within 9.8e-5 of one, and then certainly within 1.02e-4. -/
theorem unit_check (c : Cfg) (L : V4 (F32 P)) {s : ℝ} {k : ℕ} (hk : k ≤ 6) (h : ∀ i, RelNear (L.lane i).bits s k) (hs : 0 < s) (hb : s ≤ 2^63) :
    (|s - 1| ≤ 98 / 10^6 → XMVector4Less c (XMVectorAbs c (XMVectorSubtract L (XMVectorSplatOne c))) g_UnitEpsilon = true) ∧
    (XMVector4Less c (XMVectorAbs c (XMVectorSubtract L (XMVectorSplatOne c))) g_UnitEpsilon = true → |s - 1| ≤ 102 / 10^6) := by
  have e : ∀ i, (XMVectorSubtract L (XMVectorSplatOne c)).lane i = Lane.sub (L.lane i) (Lane.ofBits 0x3F800000#32) := by
    intro i
    have : (XMVectorSplatOne c : V4 (F32 P)) = .splat (Lane.ofBits 0x3F800000#32) := by unfold XMVectorSplatOne; first | rfl | (split_ifs <;> rfl)
    rw [this]; fin_cases i <;> rfl
  have hl := fun i => unit_lane hk (h i) hs hb
  have ha := fun i => abs_lanes c (XMVectorSubtract L (XMVectorSplatOne c)) i (by rw [e]; exact (hl i).1)
  have hq : ∀ i, FLt ((XMVectorAbs c (XMVectorSubtract L (XMVectorSplatOne c))).lane i).bits ((g_UnitEpsilon : V4 (F32 P)).lane i).bits ↔
      |val (Lane.sub (L.lane i) (Lane.ofBits 0x3F800000#32))| < 13743895 / 2^37 := by
    intro i
    have eg : (g_UnitEpsilon : V4 (F32 P)).lane i = Lane.ofBits 0x38D1B717#32 := by fin_cases i <;> rfl
    rw [eg, ← lt_iff', flt_val (ha i).1 fin_eps, (ha i).2, val_eps, e]
  have hu : ulp2 = 1/2^24 := rfl
  rw [(C09_vector4 c _ _).2.2.2.1]
  constructor
  · intro h1 i _
    rw [hq]
    have h2 := abs_le.1 (hl i).2
    have h3 := abs_le.1 h1
    rw [hu] at h2
    norm_num at h2 h3
    rw [abs_lt]; norm_num; constructor <;> linarith [h2.1, h2.2, h3.1, h3.2]
  · intro h1
    have h1 := (hq 0).1 (h1 0 (by norm_num))
    have h2 := abs_le.1 (hl 0).2
    have h3 := abs_lt.1 h1
    rw [hu] at h2
    norm_num at h2 h3
    rw [abs_le]; norm_num; constructor <;> linarith [h2.1, h2.2, h3.1, h3.2]

/-- C104: the unit checks for vectors, planes and quaternions accept lengths within 9.8e-5 of one and only lengths within 1.02e-4. -/
theorem C104_unit (c : Cfg) (V : V4 (F32 P)) :
    (Fins 3 V → Mid (sqs 3 V) →
      (|Real.sqrt (sqs 3 V) - 1| ≤ 98 / 10^6 → XMVector3IsUnit c V = true ∧ XMPlaneIsUnit c V = true) ∧
      (XMVector3IsUnit c V = true → |Real.sqrt (sqs 3 V) - 1| ≤ 102 / 10^6) ∧
      (XMPlaneIsUnit c V = true → |Real.sqrt (sqs 3 V) - 1| ≤ 102 / 10^6)) ∧
    (Fins 4 V → Mid (sqs 4 V) →
      (|Real.sqrt (sqs 4 V) - 1| ≤ 98 / 10^6 → XMQuaternionIsUnit c V = true) ∧
      (XMQuaternionIsUnit c V = true → |Real.sqrt (sqs 4 V) - 1| ≤ 102 / 10^6)) := by
  refine ⟨fun h hm => ?_, fun h hm => ?_⟩
  · have hk := unit_check c (XMVector3Length c V) (by norm_num) (C95_length3 c V h hm) (Real.sqrt_pos.2 hm.pos) hm.sqrt_le
    exact ⟨fun h => ⟨hk.1 h, hk.1 h⟩, hk.2, hk.2⟩
  · exact unit_check c (XMVector4Length c V) (by norm_num) (C95_length4 c V h hm) (Real.sqrt_pos.2 hm.pos) hm.sqrt_le

theorem gam17 {k : ℕ} (hk : k ≤ 16) : gam k ≤ 98 / 10^6 := by
  refine (gam_mono hk (by norm_num)).trans ?_
  unfold gam ulp2; norm_num
theorem mid_one {s : ℝ} (hs : 0 ≤ s) (h : |Real.sqrt s - 1| ≤ 98 / 10^6) : Mid s := by
  have h1 := abs_le.1 h
  have h2 := Real.mul_self_sqrt hs
  constructor <;> · norm_num at h1 ⊢; nlinarith
theorem sqs_nonneg (n : ℕ) (A : V4 (F32 P)) : 0 ≤ sqs n A := by
  unfold sqs; positivity

/-- C104: normalized vectors and quaternions pass the checks. -/
theorem C104_normalized (c : Cfg) (V : V4 (F32 P)) :
    (Fins 3 V → Mid (sqs 3 V) → XMVector3IsUnit c (XMVector3Normalize c V) = true) ∧
    (Fins 4 V → Mid (sqs 4 V) → XMQuaternionIsUnit c (XMQuaternionNormalize c V) = true) := by
  refine ⟨fun h hm => ?_, fun h hm => ?_⟩
  · obtain ⟨h1, h2⟩ := (C95_normalize_unit c V).2.1 h hm
    have h3 := h2.trans (gam17 (by norm_num))
    exact (((C104_unit c _).1 h1 (mid_one (sqs_nonneg _ _) h3)).1 h3).1
  · obtain ⟨h1, h2⟩ := C95_quaternionNormalize c V h hm
    have h3 := h2.trans (gam17 (by norm_num))
    exact ((C104_unit c _).2 h1 (mid_one (sqs_nonneg _ _) h3)).1 h3

/-- C104: accuracy of plane normalization, and normalized planes pass the check. -/
theorem C104_planeNormalize (c : Cfg) (A : V4 (F32 P)) (h : Fins 4 A) (hm : Mid (sqs 3 A)) (hw : |vals A 3| ≤ 2^127) (i : Fin 4) :
    Spec.Near ((XMPlaneNormalize c A).lane i).bits (vals A i / Real.sqrt (sqs 3 A)) (|vals A i| / Real.sqrt (sqs 3 A) + tiny) 13 := by
  have hl := lsq3 (fun j hj => h j (by omega)) c
  rw [← sqs3] at hl
  obtain ⟨l1, l2, l3, l4, l5⟩ := hl
  have hf := h i i.isLt
  have hb : |vals A i| ≤ 2^127 := by
    by_cases hi : i.val < 3
    · exact hm.comp' hi
    · have : i = 3 := by omega
      rw [this]; exact hw
  by_cases hs : c.sse = true
  · have h1 := pos_lane ((l1 i).ap hm (by norm_num)) (by omega) hm.pos (hm.2.trans (by norm_num))
    have h2 := ne_inf h1.1
    have e : (XMPlaneNormalize c A).lane i = Lane.div (A.lane i) (Lane.sqrt ((SSE.dp7f A A).lane i)) := by
      unfold XMPlaneNormalize; rw [if_pos hs]
      have : ∀ x : F32 P, Lane.band x (Lane.mask (Lane.ne ((SSE.dp7f A A).lane i) (Lane.ofBits 0x7F800000#32))) = x := by
        intro x; rw [h2, Lane.mask_true, LawfulLane.band_ones_right]
      fin_cases i <;> exact this _
    rw [e]
    exact Ap.near ((l1 i).quo hm (by norm_num) hf hb) (by norm_num)
  · have hx := l5 0
    have hss : ∀ S, LSq 3 S (Lane.add (Lane.add (Lane.mul A.x A.x) (Lane.mul A.y A.y)) (Lane.mul A.z A.z)) → S = sqs 3 A →
        Spec.Near ((XMPlaneNormalize c A).lane i).bits (vals A i / Real.sqrt (sqs 3 A)) (|vals A i| / Real.sqrt (sqs 3 A) + tiny) 13 := by
      rintro S hS rfl
      have h2 := pos_lane (hS.sqrt hm (by norm_num)) (by omega) (Real.sqrt_pos.2 hm.pos) (hm.sqrt_le.trans (by norm_num))
      have h3 := (ne_zero_pos h2.1 h2.2).2
      have e : (XMPlaneNormalize c A).lane i = Lane.mul (A.lane i) (Lane.div (Lane.ofBits 0x3F800000#32) (Lane.sqrt (Lane.add (Lane.add (Lane.mul A.x A.x) (Lane.mul A.y A.y)) (Lane.mul A.z A.z)))) := by
        unfold XMPlaneNormalize; rw [if_neg hs]
        have : (if Lane.gt (Lane.sqrt (Lane.add (Lane.add (Lane.mul A.x A.x) (Lane.mul A.y A.y)) (Lane.mul A.z A.z))) (Lane.ofBits 0#32 : F32 P) then
            Lane.div (Lane.ofBits 0x3F800000#32) (Lane.sqrt (Lane.add (Lane.add (Lane.mul A.x A.x) (Lane.mul A.y A.y)) (Lane.mul A.z A.z)))
            else Lane.sqrt (Lane.add (Lane.add (Lane.mul A.x A.x) (Lane.mul A.y A.y)) (Lane.mul A.z A.z))) = _ := if_pos h3
        fin_cases i <;> exact congrArg (Lane.mul _) this
      rw [e]
      exact Ap.near (hS.quo' hm (by norm_num) hf hb) (by norm_num)
    obtain ⟨g1, g2, g3⟩ := fins3 (fun j hj => h j (by omega) : Fins 3 A)
    exact hss (val A.x ^ 2 + val A.y ^ 2 + val A.z ^ 2) (by unfold LSq; lsq) (sqs3 A).symm

theorem C104_planeUnit (c : Cfg) (A : V4 (F32 P)) (h : Fins 4 A) (hm : Mid (sqs 3 A)) (hw : |vals A 3| ≤ 2^127) :
    XMPlaneIsUnit c (XMPlaneNormalize c A) = true := by
  obtain ⟨h1, h2⟩ := unit_of_near (n := 3) (k := 13) (by norm_num) hm (fun i _ => C104_planeNormalize c A h hm hw i)
  have h3 := h2.trans (gam17 (by norm_num))
  exact (((C104_unit c _).1 h1 (mid_one (sqs_nonneg _ _) h3)).1 h3).2

/-- The hypotheses of C104 on (3, -2, 1.5, 1). -/
example : Fins 4 (exV : V4 (F32 P)) ∧ Mid (sqs 3 (exV : V4 (F32 P))) ∧ |vals (exV : V4 (F32 P)) 3| ≤ 2^127 := by
  obtain ⟨e0, e1, e2, e3⟩ := exV_vals (P := P)
  have : sqs 3 (exV : V4 (F32 P)) = 61/4 := by
    rw [sqs3, ← vals_0, ← vals_1, ← vals_2, e0, e1, e2]; norm_num
  refine ⟨exV_fin 4, ?_, ?_⟩
  · rw [this]; constructor <;> norm_num
  · rw [e3]; norm_num

end DXM.Props
