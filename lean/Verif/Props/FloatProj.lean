import Verif.Lemmas.FRel
import Verif.Props.FloatGeom

/-
C121: projection matrices on binary32 lanes (interpretation I).
-/

set_option linter.all false

namespace DXM.Props
open DXM.Spec DXM.FErr DXM.IEEE
variable {P : Env}

/-- Every entry of `M` is the entry of `A` up to the relative error of `k` roundings; in particular zero where `A` is zero. -/
def MRel (M : M4 (F32 P)) (A : Matrix (Fin 4) (Fin 4) ℝ) (k : ℕ) : Prop := ∀ i j, RelNear ((M.row i).lane j).bits (A i j) k

theorem rel0 {k : ℕ} : RelNear (Lane.c0 : F32 P).bits 0 k := ⟨(by decide : IsFinite 0#32), by
  have : value (Lane.c0 : F32 P).bits = 0 := val_zero
  rw [this]; simp⟩
theorem relc1 : RelNear (Lane.c1 : F32 P).bits 1 0 := by
  have := rel_leaf (a := (Lane.c1 : F32 P)) (by show IsFinite 0x3F800000#32; decide)
  rwa [show val (Lane.c1 : F32 P) = 1 from value_one] at this
theorem relc2 : RelNear (Lane.c2 : F32 P).bits 2 0 := by
  have := rel_leaf (a := (Lane.c2 : F32 P)) (by show IsFinite 0x40000000#32; decide)
  rwa [show val (Lane.c2 : F32 P) = 2 by show value 0x40000000#32 = 2; simp [value, expField, fracField, signBit]] at this
theorem relcN1 : RelNear (Lane.cNeg1 : F32 P).bits (-1) 0 := by
  have := rel_leaf (a := (Lane.cNeg1 : F32 P)) (by show IsFinite 0xBF800000#32; decide)
  rwa [show val (Lane.cNeg1 : F32 P) = -1 by show value 0xBF800000#32 = -1; simp [value, expField, fracField, signBit]] at this
theorem MRel.mk {r0 r1 r2 r3 : V4 (F32 P)} {A : Matrix (Fin 4) (Fin 4) ℝ} {k : ℕ}
    (h0 : RelNear r0.x.bits (A 0 0) k ∧ RelNear r0.y.bits (A 0 1) k ∧ RelNear r0.z.bits (A 0 2) k ∧ RelNear r0.w.bits (A 0 3) k)
    (h1 : RelNear r1.x.bits (A 1 0) k ∧ RelNear r1.y.bits (A 1 1) k ∧ RelNear r1.z.bits (A 1 2) k ∧ RelNear r1.w.bits (A 1 3) k)
    (h2 : RelNear r2.x.bits (A 2 0) k ∧ RelNear r2.y.bits (A 2 1) k ∧ RelNear r2.z.bits (A 2 2) k ∧ RelNear r2.w.bits (A 2 3) k)
    (h3 : RelNear r3.x.bits (A 3 0) k ∧ RelNear r3.y.bits (A 3 1) k ∧ RelNear r3.z.bits (A 3 2) k ∧ RelNear r3.w.bits (A 3 3) k) : MRel ⟨r0, r1, r2, r3⟩ A k := by
  intro i j
  fin_cases i <;> fin_cases j <;> tauto

theorem tail_eq (a b d e l : F32 P) : perspTail ⟨a, b, d, e⟩ ⟨Lane.c0, Lane.c0, Lane.c0, l⟩ = ⟨⟨a, Lane.c0, Lane.c0, Lane.c0⟩, ⟨Lane.c0, b, Lane.c0, Lane.c0⟩, ⟨Lane.c0, Lane.c0, d, l⟩, ⟨Lane.c0, Lane.c0, e, Lane.c0⟩⟩ := by
  simp [perspTail, SSE.move_ss, SSE.setzero, SSE.and, SSE.shuffle, g_XMMaskY, V4.map2, V4.lane, Lane.c0, LawfulLane.band_ones_right, LawfulLane.band_zero_right]
theorem perspLH_eq (c : Cfg) (w h n f : F32 P) : XMMatrixPerspectiveLH c w h n f =
    ⟨⟨Lane.div (Lane.add n n) w, Lane.c0, Lane.c0, Lane.c0⟩, ⟨Lane.c0, Lane.div (Lane.add n n) h, Lane.c0, Lane.c0⟩,
     ⟨Lane.c0, Lane.c0, Lane.div f (Lane.sub f n), Lane.c1⟩, ⟨Lane.c0, Lane.c0, Lane.mul (Lane.neg (Lane.div f (Lane.sub f n))) n, Lane.c0⟩⟩ := by
  unfold XMMatrixPerspectiveLH
  split_ifs
  · exact tail_eq _ _ _ _ _
  · rfl
theorem perspRH_eq (c : Cfg) (w h n f : F32 P) : XMMatrixPerspectiveRH c w h n f =
    ⟨⟨Lane.div (Lane.add n n) w, Lane.c0, Lane.c0, Lane.c0⟩, ⟨Lane.c0, Lane.div (Lane.add n n) h, Lane.c0, Lane.c0⟩,
     ⟨Lane.c0, Lane.c0, Lane.div f (Lane.sub n f), Lane.cNeg1⟩, ⟨Lane.c0, Lane.c0, Lane.mul (Lane.div f (Lane.sub n f)) n, Lane.c0⟩⟩ := by
  unfold XMMatrixPerspectiveRH
  split_ifs
  · exact tail_eq _ _ _ _ _
  · rfl

/-- Twice a number is exact up to one rounding. -/
theorem twice_rel {n : F32 P} (hn : IsFinite n.bits) (rn : Rng 30 (value n.bits)) : RelNear (Lane.add n n).bits (2 * value n.bits) 1 := by
  have := rel_add hn hn (by
    have := rn.2; rw [show value n.bits + value n.bits = 2 * value n.bits by ring, abs_mul, abs_two]; norm_num at this ⊢; linarith)
  rwa [show val n + val n = 2 * val n by ring] at this
theorem rng_sub {x y : ℝ} (h : Rng 30 (x - y)) : Rng 30 (y - x) := by rw [← neg_sub]; exact h.neg
/-- The scale of an axis. -/
theorem scale_rel {n w : F32 P} (hn : IsFinite n.bits) (hw : IsFinite w.bits) (rn : Rng 30 (value n.bits)) (rw : Rng 30 (value w.bits)) :
    RelNear (Lane.div (Lane.add n n) w).bits (2 * value n.bits / value w.bits) 2 := by
  have r := ((Rng.two).mul rn).div rw
  exact rel_div (twice_rel hn rn) (rel_leaf hw) rw.ne (r.low (by norm_num)) (r.high (by norm_num))
/-- The depth scale and offset. -/
theorem depth_rel {f d : F32 P} (hf : IsFinite f.bits) (rf : Rng 30 (value f.bits)) {v : ℝ} (hd : RelNear d.bits v 1) (rv : Rng 30 v) : RelNear (Lane.div f d).bits (value f.bits / v) 3 := by
  have r := rf.div rv
  exact rel_div (rel_leaf hf) hd rv.ne (r.low (by norm_num)) (r.high (by norm_num))
theorem diff_rel {a b : F32 P} (ha : IsFinite a.bits) (hb : IsFinite b.bits) (r : Rng 30 (value a.bits - value b.bits)) : RelNear (Lane.sub a b).bits (value a.bits - value b.bits) 1 :=
  rel_sub ha hb (r.high (by norm_num))

/-- C121: the symmetric left-handed perspective: relative error of at most four roundings in each entry, zeros and ones exact. -/
theorem C121_perspectiveLH (c : Cfg) (w h n f : F32 P) (hw : IsFinite w.bits) (hh : IsFinite h.bits) (hn : IsFinite n.bits) (hf : IsFinite f.bits)
    (rw : Rng 30 (value w.bits)) (rh : Rng 30 (value h.bits)) (rn : Rng 30 (value n.bits)) (rf : Rng 30 (value f.bits)) (rd : Rng 30 (value f.bits - value n.bits)) :
    let w' := value w.bits; let h' := value h.bits; let n' := value n.bits; let f' := value f.bits
    MRel (XMMatrixPerspectiveLH c w h n f) !![2 * n' / w', 0, 0, 0; 0, 2 * n' / h', 0, 0; 0, 0, f' / (f' - n'), 1; 0, 0, -(f' / (f' - n')) * n', 0] 4 := by
  intro w' h' n' f'
  rw [perspLH_eq]
  have d := depth_rel hf rf (diff_rel hf hn rd) rd
  have rr := ((rf.div rd).neg).mul rn
  have e := rel_mul (rel_neg d) (rel_leaf hn) (rr.low (by norm_num)) (rr.high (by norm_num))
  refine MRel.mk ⟨rel_le (scale_rel hn hw rn rw) (by norm_num), rel0, rel0, rel0⟩ ⟨rel0, rel_le (scale_rel hn hh rn rh) (by norm_num), rel0, rel0⟩
    ⟨rel0, rel0, rel_le d (by norm_num), rel_le relc1 (by norm_num)⟩ ⟨rel0, rel0, e, rel0⟩
/-- C121: the symmetric right-handed perspective. -/
theorem C121_perspectiveRH (c : Cfg) (w h n f : F32 P) (hw : IsFinite w.bits) (hh : IsFinite h.bits) (hn : IsFinite n.bits) (hf : IsFinite f.bits)
    (rw : Rng 30 (value w.bits)) (rh : Rng 30 (value h.bits)) (rn : Rng 30 (value n.bits)) (rf : Rng 30 (value f.bits)) (rd : Rng 30 (value f.bits - value n.bits)) :
    let w' := value w.bits; let h' := value h.bits; let n' := value n.bits; let f' := value f.bits
    MRel (XMMatrixPerspectiveRH c w h n f) !![2 * n' / w', 0, 0, 0; 0, 2 * n' / h', 0, 0; 0, 0, f' / (n' - f'), -1; 0, 0, f' / (n' - f') * n', 0] 4 := by
  intro w' h' n' f'
  rw [perspRH_eq]
  have rd := rng_sub rd
  have d := depth_rel hf rf (diff_rel hn hf rd) rd
  have rr := (rf.div rd).mul rn
  have e := rel_mul d (rel_leaf hn) (rr.low (by norm_num)) (rr.high (by norm_num))
  refine MRel.mk ⟨rel_le (scale_rel hn hw rn rw) (by norm_num), rel0, rel0, rel0⟩ ⟨rel0, rel_le (scale_rel hn hh rn rh) (by norm_num), rel0, rel0⟩
    ⟨rel0, rel0, rel_le d (by norm_num), rel_le relcN1 (by norm_num)⟩ ⟨rel0, rel0, e, rel0⟩

/-! ### off-centre perspectives -/

theorem offLH_eq (c : Cfg) (l r b t n f : F32 P) : XMMatrixPerspectiveOffCenterLH c l r b t n f =
    ⟨⟨Lane.mul (Lane.add n n) (Lane.div Lane.c1 (Lane.sub r l)), Lane.c0, Lane.c0, Lane.c0⟩, ⟨Lane.c0, Lane.mul (Lane.add n n) (Lane.div Lane.c1 (Lane.sub t b)), Lane.c0, Lane.c0⟩,
     ⟨Lane.mul (Lane.neg (Lane.add l r)) (Lane.div Lane.c1 (Lane.sub r l)), Lane.mul (Lane.neg (Lane.add t b)) (Lane.div Lane.c1 (Lane.sub t b)), Lane.div f (Lane.sub f n), Lane.c1⟩,
     ⟨Lane.c0, Lane.c0, Lane.mul (Lane.neg (Lane.div f (Lane.sub f n))) n, Lane.c0⟩⟩ := by
  unfold XMMatrixPerspectiveOffCenterLH
  split_ifs
  · simp [SSE.move_ss, SSE.setzero, SSE.and, g_XMMaskY, g_XMMaskZ, V4.map2, Lane.c0, LawfulLane.band_ones_right, LawfulLane.band_zero_right]
  · rfl
theorem offRH_eq (c : Cfg) (l r b t n f : F32 P) : XMMatrixPerspectiveOffCenterRH c l r b t n f =
    ⟨⟨Lane.mul (Lane.add n n) (Lane.div Lane.c1 (Lane.sub r l)), Lane.c0, Lane.c0, Lane.c0⟩, ⟨Lane.c0, Lane.mul (Lane.add n n) (Lane.div Lane.c1 (Lane.sub t b)), Lane.c0, Lane.c0⟩,
     ⟨Lane.mul (Lane.add l r) (Lane.div Lane.c1 (Lane.sub r l)), Lane.mul (Lane.add t b) (Lane.div Lane.c1 (Lane.sub t b)), Lane.div f (Lane.sub n f), Lane.cNeg1⟩,
     ⟨Lane.c0, Lane.c0, Lane.mul (Lane.div f (Lane.sub n f)) n, Lane.c0⟩⟩ := by
  unfold XMMatrixPerspectiveOffCenterRH
  split_ifs
  · simp [SSE.move_ss, SSE.setzero, SSE.and, g_XMMaskY, g_XMMaskZ, V4.map2, Lane.c0, LawfulLane.band_ones_right, LawfulLane.band_zero_right]
  · rfl
theorem recip_rel {r l : F32 P} (hr : IsFinite r.bits) (hl : IsFinite l.bits) (rd : Rng 30 (value r.bits - value l.bits)) :
    RelNear (Lane.div Lane.c1 (Lane.sub r l)).bits (1 / (value r.bits - value l.bits)) 3 := by
  have r := Rng.one.div rd
  exact rel_div relc1 (diff_rel hr hl rd) rd.ne (r.low (by norm_num)) (r.high (by norm_num))
theorem offScale_rel {n r l : F32 P} (hn : IsFinite n.bits) (rn : Rng 30 (value n.bits)) (hr : IsFinite r.bits) (hl : IsFinite l.bits) (rd : Rng 30 (value r.bits - value l.bits)) :
    RelNear (Lane.mul (Lane.add n n) (Lane.div Lane.c1 (Lane.sub r l))).bits (2 * value n.bits / (value r.bits - value l.bits)) 5 := by
  have rr := (Rng.two.mul rn).mul (Rng.one.div rd)
  have := rel_mul (twice_rel hn rn) (recip_rel hr hl rd) (rr.low (by norm_num)) (rr.high (by norm_num))
  rwa [mul_one_div] at this
theorem centre_rel {r s : F32 P} {v z : ℝ} (hs : RelNear s.bits v 1) (hv : v = 0 ∨ Rng 60 v) (hr : RelNear r.bits (1 / z) 3) (rz : Rng 30 z) : RelNear (Lane.mul s r).bits (v / z) 5 := by
  rw [← mul_one_div]
  rcases hv with rfl | hv
  · exact rel_mul hs hr (by simp) (by simp)
  · have rr := hv.mul (Rng.one.div rz)
    exact rel_mul hs hr (rr.low (by norm_num)) (rr.high (by norm_num))
theorem sum_rel {a b : F32 P} (ha : IsFinite a.bits) (hb : IsFinite b.bits) (r : value a.bits + value b.bits = 0 ∨ Rng 60 (value a.bits + value b.bits)) :
    RelNear (Lane.add a b).bits (value a.bits + value b.bits) 1 :=
  rel_add ha hb (by
    rcases r with r | r
    · show |value a.bits + value b.bits| ≤ _; rw [r]; simp
    · exact r.high (by norm_num))
/-- C121: the off-centre left-handed perspective: at most five roundings in each entry; a view volume symmetric about an axis has exact
zeros in the third row. -/
theorem C121_perspectiveOffCenterLH (c : Cfg) (l r b t n f : F32 P) (hl : IsFinite l.bits) (hr : IsFinite r.bits) (hb : IsFinite b.bits) (ht : IsFinite t.bits) (hn : IsFinite n.bits) (hf : IsFinite f.bits)
    (rw : Rng 30 (value r.bits - value l.bits)) (rh : Rng 30 (value t.bits - value b.bits)) (sw : value l.bits + value r.bits = 0 ∨ Rng 60 (value l.bits + value r.bits))
    (sh : value t.bits + value b.bits = 0 ∨ Rng 60 (value t.bits + value b.bits)) (rn : Rng 30 (value n.bits)) (rf : Rng 30 (value f.bits)) (rd : Rng 30 (value f.bits - value n.bits)) :
    let l' := value l.bits; let r' := value r.bits; let b' := value b.bits; let t' := value t.bits; let n' := value n.bits; let f' := value f.bits
    MRel (XMMatrixPerspectiveOffCenterLH c l r b t n f) !![2 * n' / (r' - l'), 0, 0, 0; 0, 2 * n' / (t' - b'), 0, 0; -(l' + r') / (r' - l'), -(t' + b') / (t' - b'), f' / (f' - n'), 1; 0, 0, -(f' / (f' - n')) * n', 0] 5 := by
  intro l' r' b' t' n' f'
  rw [offLH_eq]
  have d := depth_rel hf rf (diff_rel hf hn rd) rd
  have rr := ((rf.div rd).neg).mul rn
  have e := rel_mul (rel_neg d) (rel_leaf hn) (rr.low (by norm_num)) (rr.high (by norm_num))
  have n0 : ∀ {v : ℝ}, v = 0 ∨ Rng 60 v → -v = 0 ∨ Rng 60 (-v) := fun h => h.imp (fun h => by rw [h, neg_zero]) Rng.neg
  have c1 := centre_rel (rel_neg (sum_rel hl hr sw)) (n0 sw) (recip_rel hr hl rw) rw
  have c2 := centre_rel (rel_neg (sum_rel ht hb sh)) (n0 sh) (recip_rel ht hb rh) rh
  refine MRel.mk ⟨offScale_rel hn rn hr hl rw, rel0, rel0, rel0⟩ ⟨rel0, offScale_rel hn rn ht hb rh, rel0, rel0⟩
    ⟨c1, c2, rel_le d (by norm_num), rel_le relc1 (by norm_num)⟩ ⟨rel0, rel0, rel_le e (by norm_num), rel0⟩
/-- C121: the off-centre right-handed perspective. -/
theorem C121_perspectiveOffCenterRH (c : Cfg) (l r b t n f : F32 P) (hl : IsFinite l.bits) (hr : IsFinite r.bits) (hb : IsFinite b.bits) (ht : IsFinite t.bits) (hn : IsFinite n.bits) (hf : IsFinite f.bits)
    (rw : Rng 30 (value r.bits - value l.bits)) (rh : Rng 30 (value t.bits - value b.bits)) (sw : value l.bits + value r.bits = 0 ∨ Rng 60 (value l.bits + value r.bits))
    (sh : value t.bits + value b.bits = 0 ∨ Rng 60 (value t.bits + value b.bits)) (rn : Rng 30 (value n.bits)) (rf : Rng 30 (value f.bits)) (rd : Rng 30 (value f.bits - value n.bits)) :
    let l' := value l.bits; let r' := value r.bits; let b' := value b.bits; let t' := value t.bits; let n' := value n.bits; let f' := value f.bits
    MRel (XMMatrixPerspectiveOffCenterRH c l r b t n f) !![2 * n' / (r' - l'), 0, 0, 0; 0, 2 * n' / (t' - b'), 0, 0; (l' + r') / (r' - l'), (t' + b') / (t' - b'), f' / (n' - f'), -1; 0, 0, f' / (n' - f') * n', 0] 5 := by
  intro l' r' b' t' n' f'
  rw [offRH_eq]
  have rd := rng_sub rd
  have d := depth_rel hf rf (diff_rel hn hf rd) rd
  have rr := (rf.div rd).mul rn
  have e := rel_mul d (rel_leaf hn) (rr.low (by norm_num)) (rr.high (by norm_num))
  have c1 := centre_rel (sum_rel hl hr sw) sw (recip_rel hr hl rw) rw
  have c2 := centre_rel (sum_rel ht hb sh) sh (recip_rel ht hb rh) rh
  refine MRel.mk ⟨offScale_rel hn rn hr hl rw, rel0, rel0, rel0⟩ ⟨rel0, offScale_rel hn rn ht hb rh, rel0, rel0⟩
    ⟨c1, c2, rel_le d (by norm_num), rel_le relcN1 (by norm_num)⟩ ⟨rel0, rel0, rel_le e (by norm_num), rel0⟩

/-! ### orthographic views -/

theorem orthoTail_eq (a b d e : F32 P) : orthoTail ⟨a, b, d, e⟩ = ⟨⟨a, Lane.c0, Lane.c0, Lane.c0⟩, ⟨Lane.c0, b, Lane.c0, Lane.c0⟩, ⟨Lane.c0, Lane.c0, d, Lane.c0⟩, ⟨Lane.c0, Lane.c0, e, Lane.c1⟩⟩ := by
  simp [orthoTail, SSE.move_ss, SSE.setzero, SSE.and, SSE.shuffle, g_XMMaskY, g_XMIdentityR3, V4.map2, V4.lane, Lane.c0, Lane.c1, LawfulLane.band_ones_right, LawfulLane.band_zero_right]
theorem orthoLH_eq (c : Cfg) (w h n f : F32 P) : XMMatrixOrthographicLH c w h n f =
    ⟨⟨Lane.div Lane.c2 w, Lane.c0, Lane.c0, Lane.c0⟩, ⟨Lane.c0, Lane.div Lane.c2 h, Lane.c0, Lane.c0⟩, ⟨Lane.c0, Lane.c0, Lane.div Lane.c1 (Lane.sub f n), Lane.c0⟩,
     ⟨Lane.c0, Lane.c0, Lane.mul (Lane.neg (Lane.div Lane.c1 (Lane.sub f n))) n, Lane.c1⟩⟩ := by
  unfold XMMatrixOrthographicLH
  split_ifs
  · exact orthoTail_eq _ _ _ _
  · rfl
theorem orthoRH_eq (c : Cfg) (w h n f : F32 P) : XMMatrixOrthographicRH c w h n f =
    ⟨⟨Lane.div Lane.c2 w, Lane.c0, Lane.c0, Lane.c0⟩, ⟨Lane.c0, Lane.div Lane.c2 h, Lane.c0, Lane.c0⟩, ⟨Lane.c0, Lane.c0, Lane.div Lane.c1 (Lane.sub n f), Lane.c0⟩,
     ⟨Lane.c0, Lane.c0, Lane.mul (Lane.div Lane.c1 (Lane.sub n f)) n, Lane.c1⟩⟩ := by
  unfold XMMatrixOrthographicRH
  split_ifs
  · exact orthoTail_eq _ _ _ _
  · rfl
theorem two_rel {w : F32 P} (hw : IsFinite w.bits) (rw : Rng 30 (value w.bits)) : RelNear (Lane.div Lane.c2 w).bits (2 / value w.bits) 1 := by
  have r := Rng.two.div rw
  exact rel_div relc2 (rel_leaf hw) rw.ne (r.low (by norm_num)) (r.high (by norm_num))
/-- C121: the left-handed orthographic projection.  The near distance may be zero. -/
theorem C121_orthographicLH (c : Cfg) (w h n f : F32 P) (hw : IsFinite w.bits) (hh : IsFinite h.bits) (hn : IsFinite n.bits) (hf : IsFinite f.bits)
    (rw : Rng 30 (value w.bits)) (rh : Rng 30 (value h.bits)) (rn : value n.bits = 0 ∨ Rng 60 (value n.bits)) (rd : Rng 30 (value f.bits - value n.bits)) :
    let w' := value w.bits; let h' := value h.bits; let n' := value n.bits; let f' := value f.bits
    MRel (XMMatrixOrthographicLH c w h n f) !![2 / w', 0, 0, 0; 0, 2 / h', 0, 0; 0, 0, 1 / (f' - n'), 0; 0, 0, -(1 / (f' - n')) * n', 1] 4 := by
  intro w' h' n' f'
  rw [orthoLH_eq]
  have d := recip_rel hf hn rd
  have e : RelNear (Lane.mul (Lane.neg (Lane.div Lane.c1 (Lane.sub f n))) n).bits (-(1 / (f' - n')) * n') 4 := by
    rcases rn with rn | rn
    · exact rel_mul (rel_neg d) (rel_leaf hn) (Or.inl (by show _ * value n.bits = 0; rw [rn, mul_zero])) (by show |_ * value n.bits| ≤ _; rw [rn]; simp)
    · have rr := (Rng.one.div rd).neg.mul rn
      exact rel_mul (rel_neg d) (rel_leaf hn) (rr.low (by norm_num)) (rr.high (by norm_num))
  refine MRel.mk ⟨rel_le (two_rel hw rw) (by norm_num), rel0, rel0, rel0⟩ ⟨rel0, rel_le (two_rel hh rh) (by norm_num), rel0, rel0⟩
    ⟨rel0, rel0, rel_le d (by norm_num), rel0⟩ ⟨rel0, rel0, e, rel_le relc1 (by norm_num)⟩
/-- C121: the right-handed orthographic projection. -/
theorem C121_orthographicRH (c : Cfg) (w h n f : F32 P) (hw : IsFinite w.bits) (hh : IsFinite h.bits) (hn : IsFinite n.bits) (hf : IsFinite f.bits)
    (rw : Rng 30 (value w.bits)) (rh : Rng 30 (value h.bits)) (rn : value n.bits = 0 ∨ Rng 60 (value n.bits)) (rd : Rng 30 (value f.bits - value n.bits)) :
    let w' := value w.bits; let h' := value h.bits; let n' := value n.bits; let f' := value f.bits
    MRel (XMMatrixOrthographicRH c w h n f) !![2 / w', 0, 0, 0; 0, 2 / h', 0, 0; 0, 0, 1 / (n' - f'), 0; 0, 0, 1 / (n' - f') * n', 1] 4 := by
  intro w' h' n' f'
  rw [orthoRH_eq]
  have rd := rng_sub rd
  have d := recip_rel hn hf rd
  have e : RelNear (Lane.mul (Lane.div Lane.c1 (Lane.sub n f)) n).bits (1 / (n' - f') * n') 4 := by
    rcases rn with rn | rn
    · exact rel_mul d (rel_leaf hn) (Or.inl (by show _ * value n.bits = 0; rw [rn, mul_zero])) (by show |_ * value n.bits| ≤ _; rw [rn]; simp)
    · have rr := (Rng.one.div rd).mul rn
      exact rel_mul d (rel_leaf hn) (rr.low (by norm_num)) (rr.high (by norm_num))
  refine MRel.mk ⟨rel_le (two_rel hw rw) (by norm_num), rel0, rel0, rel0⟩ ⟨rel0, rel_le (two_rel hh rh) (by norm_num), rel0, rel0⟩
    ⟨rel0, rel0, rel_le d (by norm_num), rel0⟩ ⟨rel0, rel0, e, rel_le relc1 (by norm_num)⟩

/-! ### field of view -/

theorem fovLH_eq (c : Cfg) (a r n f : F32 P) : XMMatrixPerspectiveFovLH c a r n f =
    let sc := XMScalarSinCos (Lane.mul Lane.cHalf a)
    ⟨⟨Lane.div (Lane.div sc.2 sc.1) r, Lane.c0, Lane.c0, Lane.c0⟩, ⟨Lane.c0, Lane.div sc.2 sc.1, Lane.c0, Lane.c0⟩,
     ⟨Lane.c0, Lane.c0, Lane.div f (Lane.sub f n), Lane.c1⟩, ⟨Lane.c0, Lane.c0, Lane.mul (Lane.neg (Lane.div f (Lane.sub f n))) n, Lane.c0⟩⟩ := by
  unfold XMMatrixPerspectiveFovLH
  split_ifs
  · exact tail_eq _ _ _ _ _
  · rfl
theorem fovRH_eq (c : Cfg) (a r n f : F32 P) : XMMatrixPerspectiveFovRH c a r n f =
    let sc := XMScalarSinCos (Lane.mul Lane.cHalf a)
    ⟨⟨Lane.div (Lane.div sc.2 sc.1) r, Lane.c0, Lane.c0, Lane.c0⟩, ⟨Lane.c0, Lane.div sc.2 sc.1, Lane.c0, Lane.c0⟩,
     ⟨Lane.c0, Lane.c0, Lane.div f (Lane.sub n f), Lane.cNeg1⟩, ⟨Lane.c0, Lane.c0, Lane.mul (Lane.div f (Lane.sub n f)) n, Lane.c0⟩⟩ := by
  unfold XMMatrixPerspectiveFovRH
  split_ifs
  · exact tail_eq _ _ _ _ _
  · rfl
/-- The cotangent of half an angle, and the bound on its error. -/
noncomputable def cotH (a : ℝ) : ℝ := Real.cos (a / 2) / Real.sin (a / 2)
noncomputable def cotErr (a : ℝ) : ℝ := 6/10^6 * (1 + cotH a) / Real.sin (a / 2)
theorem sin_low {a : ℝ} (h0 : 1/1000 ≤ a) (h1 : a ≤ 314/100) : 3/10000 ≤ Real.sin (a / 2) ∧ 0 < Real.cos (a / 2) := by
  have hp := Real.pi_gt_d2
  have hq := Real.pi_lt_d2
  refine ⟨?_, Real.cos_pos_of_mem_Ioo ⟨by linarith, by linarith⟩⟩
  have h := Real.mul_le_sin (x := a / 2) (by linarith) (by linarith)
  refine le_trans ?_ h
  rw [div_mul_eq_mul_div, le_div_iff₀ (by linarith)]
  linarith
theorem cot_close (a : F32 P) (ha : IsFinite a.bits) (h0 : 1/1000 ≤ value a.bits) (h1 : value a.bits ≤ 314/100) :
    FClose (Lane.div (XMScalarSinCos (Lane.mul Lane.cHalf a)).2 (XMScalarSinCos (Lane.mul Lane.cHalf a)).1).bits (cotH (value a.bits)) (cotErr (value a.bits)) := by
  have hb : |val a| ≤ 10^6 := by rw [abs_of_pos (by linarith : 0 < val a)]; exact h1.trans (by norm_num)
  obtain ⟨m1, m2, m3⟩ := half_mul ha hb halfL.1 halfL.2 (m := Lane.mul Lane.cHalf a) (Or.inr rfl)
  have g := (sc_scalar _ m1 m3).half m2
  obtain ⟨s0, k0⟩ := sin_low h0 h1
  set θ := value a.bits / 2 with hθ
  have he : halfErr (val a) ≤ 18/10^7 := by
    unfold halfErr; rw [abs_of_pos (by linarith : 0 < val a)]; show _ + _ * value a.bits ≤ _; linarith
  have sp : 0 < Real.sin θ := by linarith
  have q0 : 0 ≤ cotH (value a.bits) := div_nonneg k0.le sp.le
  have q1 : cotH (value a.bits) ≤ 4000 := by
    unfold cotH; rw [div_le_iff₀ sp]; have := Real.cos_le_one θ; linarith
  have hs : FClose (XMScalarSinCos (Lane.mul Lane.cHalf a)).1.bits (Real.sin θ) (18/10^7) := ⟨g.fs, g.es.trans he⟩
  have hk : FClose (XMScalarSinCos (Lane.mul Lane.cHalf a)).2.bits (Real.cos θ) (18/10^7) := ⟨g.fk, g.ek.trans he⟩
  have e : Real.cos θ / Real.sin θ = cotH (value a.bits) := rfl
  have sa : |Real.sin θ| = Real.sin θ := abs_of_pos sp
  have qa : |cotH (value a.bits)| = cotH (value a.bits) := abs_of_nonneg q0
  have h := div_close hk hs sp.ne' (by rw [sa]; linarith) (by
    rw [e, sa, qa]
    have : 2 * (18/10^7 + cotH (value a.bits) * (18/10^7)) / Real.sin θ ≤ 10^6 := by
      rw [div_le_iff₀ sp]; linarith
    norm_num at this ⊢; linarith)
  rw [e, sa, qa] at h
  refine FClose.le h ?_
  unfold cotErr
  rw [← hθ]
  have t : ulp2 * (cotH (value a.bits) + tiny) ≤ (6/10^7 * (1 + cotH (value a.bits))) / Real.sin θ := by
    rw [le_div_iff₀ sp]
    have t1 : ulp2 * (cotH (value a.bits) + tiny) ≤ 6/10^7 * (1 + cotH (value a.bits)) := by unfold ulp2 tiny; norm_num; linarith
    have t2 := Real.sin_le_one θ
    have t3 : 0 ≤ ulp2 * (cotH (value a.bits) + tiny) := mul_nonneg (by unfold ulp2; norm_num) (add_nonneg q0 tiny0)
    nlinarith
  have t4 : 3 * (18/10^7 + cotH (value a.bits) * (18/10^7)) / Real.sin θ = 54/10^7 * (1 + cotH (value a.bits)) / Real.sin θ := by ring
  rw [t4]
  refine (add_le_add le_rfl t).trans ?_
  rw [← add_div]
  exact div_le_div_of_nonneg_right (by linarith) sp.le
theorem width_close (a r : F32 P) (ha : IsFinite a.bits) (h0 : 1/1000 ≤ value a.bits) (h1 : value a.bits ≤ 314/100) (hr : IsFinite r.bits) (rr : Rng 30 (value r.bits)) :
    FClose (Lane.div (Lane.div (XMScalarSinCos (Lane.mul Lane.cHalf a)).2 (XMScalarSinCos (Lane.mul Lane.cHalf a)).1) r).bits (cotH (value a.bits) / value r.bits) (4 * cotErr (value a.bits) / |value r.bits|) := by
  obtain ⟨s0, k0⟩ := sin_low h0 h1
  have sp : 0 < Real.sin (value a.bits / 2) := by linarith
  have q0 : 0 ≤ cotH (value a.bits) := div_nonneg k0.le sp.le
  have q1 : cotH (value a.bits) ≤ 4000 := by
    unfold cotH; rw [div_le_iff₀ sp]; have := Real.cos_le_one (value a.bits / 2); linarith
  have hc := cot_close a ha h0 h1
  have rp := abs_pos.2 rr.ne
  have E0 : 6/10^6 * (1 + cotH (value a.bits)) ≤ cotErr (value a.bits) := by
    unfold cotErr; rw [le_div_iff₀ sp]
    have := Real.sin_le_one (value a.bits / 2)
    nlinarith
  have E1 : cotErr (value a.bits) ≤ 100 := by
    unfold cotErr; rw [div_le_iff₀ sp]; linarith
  have hrr : FClose r.bits (value r.bits) 0 := ⟨hr, by simp⟩
  have h := div_close hc hrr rr.ne (by simp) (by
    have l1 : |cotH (value a.bits) / value r.bits| ≤ 4000 * 2^30 := by
      rw [abs_div, abs_of_nonneg q0, div_le_iff₀ rp]
      have := rr.1
      have : 4000 * 2^30 * (1/2^30) ≤ 4000 * 2^30 * |value r.bits| := mul_le_mul_of_nonneg_left this (by norm_num)
      norm_num at this ⊢; linarith
    have l2 : 2 * (cotErr (value a.bits) + |cotH (value a.bits) / value r.bits| * 0) / |value r.bits| ≤ 200 * 2^30 := by
      rw [mul_zero, add_zero, div_le_iff₀ rp]
      have := rr.1
      have : 200 * 2^30 * (1/2^30) ≤ 200 * 2^30 * |value r.bits| := mul_le_mul_of_nonneg_left this (by norm_num)
      norm_num at this ⊢; linarith
    norm_num at l1 l2 ⊢; linarith)
  refine FClose.le h ?_
  rw [mul_zero, add_zero, abs_div, abs_of_nonneg q0, show 4 * cotErr (value a.bits) / |value r.bits| = 3 * cotErr (value a.bits) / |value r.bits| + cotErr (value a.bits) / |value r.bits| by ring]
  refine add_le_add le_rfl ?_
  rw [le_div_iff₀ rp]
  have : ulp2 * (cotH (value a.bits) / |value r.bits| + tiny) * |value r.bits| = ulp2 * (cotH (value a.bits) + tiny * |value r.bits|) := by field_simp
  rw [this]
  have t1 : tiny * |value r.bits| ≤ 1 := by
    have := mul_le_mul_of_nonneg_left rr.2 tiny0
    refine this.trans (by unfold tiny; norm_num)
  have t2 : ulp2 * (cotH (value a.bits) + tiny * |value r.bits|) ≤ ulp2 * (cotH (value a.bits) + 1) := mul_le_mul_of_nonneg_left (by linarith) (by unfold ulp2; norm_num)
  refine t2.trans (le_trans ?_ E0)
  unfold ulp2; norm_num; linarith
/-- C121: the left-handed perspective of a field of view between a thousandth and 3.14 radians: the scales are near cot(a/2)/r and
cot(a/2), the depth entries as in the symmetric perspective, the other entries exact. -/
theorem C121_perspectiveFovLH (c : Cfg) (a r n f : F32 P) (ha : IsFinite a.bits) (hr : IsFinite r.bits) (hn : IsFinite n.bits) (hf : IsFinite f.bits) (h0 : 1/1000 ≤ value a.bits) (h1 : value a.bits ≤ 314/100)
    (rr : Rng 30 (value r.bits)) (rn : Rng 30 (value n.bits)) (rf : Rng 30 (value f.bits)) (rd : Rng 30 (value f.bits - value n.bits)) :
    let M := XMMatrixPerspectiveFovLH c a r n f; let a' := value a.bits; let r' := value r.bits; let n' := value n.bits; let f' := value f.bits
    FClose M.r0.x.bits (cotH a' / r') (4 * cotErr a' / |r'|) ∧ FClose M.r1.y.bits (cotH a') (cotErr a') ∧
    MRel ⟨{ M.r0 with x := Lane.c0 }, { M.r1 with y := Lane.c0 }, M.r2, M.r3⟩ !![0, 0, 0, 0; 0, 0, 0, 0; 0, 0, f' / (f' - n'), 1; 0, 0, -(f' / (f' - n')) * n', 0] 4 := by
  intro M a' r' n' f'
  simp only [M]; rw [fovLH_eq]
  have d := depth_rel hf rf (diff_rel hf hn rd) rd
  have q := ((rf.div rd).neg).mul rn
  have e := rel_mul (rel_neg d) (rel_leaf hn) (q.low (by norm_num)) (q.high (by norm_num))
  exact ⟨width_close a r ha h0 h1 hr rr, cot_close a ha h0 h1, MRel.mk ⟨rel0, rel0, rel0, rel0⟩ ⟨rel0, rel0, rel0, rel0⟩
    ⟨rel0, rel0, rel_le d (by norm_num), rel_le relc1 (by norm_num)⟩ ⟨rel0, rel0, e, rel0⟩⟩
/-- C121: the right-handed perspective of a field of view. -/
theorem C121_perspectiveFovRH (c : Cfg) (a r n f : F32 P) (ha : IsFinite a.bits) (hr : IsFinite r.bits) (hn : IsFinite n.bits) (hf : IsFinite f.bits) (h0 : 1/1000 ≤ value a.bits) (h1 : value a.bits ≤ 314/100)
    (rr : Rng 30 (value r.bits)) (rn : Rng 30 (value n.bits)) (rf : Rng 30 (value f.bits)) (rd : Rng 30 (value f.bits - value n.bits)) :
    let M := XMMatrixPerspectiveFovRH c a r n f; let a' := value a.bits; let r' := value r.bits; let n' := value n.bits; let f' := value f.bits
    FClose M.r0.x.bits (cotH a' / r') (4 * cotErr a' / |r'|) ∧ FClose M.r1.y.bits (cotH a') (cotErr a') ∧
    MRel ⟨{ M.r0 with x := Lane.c0 }, { M.r1 with y := Lane.c0 }, M.r2, M.r3⟩ !![0, 0, 0, 0; 0, 0, 0, 0; 0, 0, f' / (n' - f'), -1; 0, 0, f' / (n' - f') * n', 0] 4 := by
  intro M a' r' n' f'
  simp only [M]; rw [fovRH_eq]
  have rd := rng_sub rd
  have d := depth_rel hf rf (diff_rel hn hf rd) rd
  have q := (rf.div rd).mul rn
  have e := rel_mul d (rel_leaf hn) (q.low (by norm_num)) (q.high (by norm_num))
  exact ⟨width_close a r ha h0 h1 hr rr, cot_close a ha h0 h1, MRel.mk ⟨rel0, rel0, rel0, rel0⟩ ⟨rel0, rel0, rel0, rel0⟩
    ⟨rel0, rel0, rel_le d (by norm_num), rel_le relcN1 (by norm_num)⟩ ⟨rel0, rel0, e, rel0⟩⟩
/-! ### concrete cases -/

theorem lit1 : IsFinite (Lane.ofBits 0x3F800000#32 : F32 P).bits ∧ value (Lane.ofBits 0x3F800000#32 : F32 P).bits = 1 := ⟨(by decide : IsFinite 0x3F800000#32), value_one⟩
theorem lit2 : IsFinite (Lane.ofBits 0x40000000#32 : F32 P).bits ∧ value (Lane.ofBits 0x40000000#32 : F32 P).bits = 2 := ⟨(by decide : IsFinite 0x40000000#32), by show value 0x40000000#32 = 2; simp [value, expField, fracField, signBit]⟩
theorem lit3 : IsFinite (Lane.ofBits 0x40400000#32 : F32 P).bits ∧ value (Lane.ofBits 0x40400000#32 : F32 P).bits = 3 := ⟨(by decide : IsFinite 0x40400000#32), by show value 0x40400000#32 = 3; simp [value, expField, fracField, signBit]; norm_num⟩
example (c : Cfg) : RelNear (XMMatrixPerspectiveLH c (Lane.ofBits 0x40000000#32 : F32 P) (Lane.ofBits 0x3F800000#32) (Lane.ofBits 0x3F800000#32) (Lane.ofBits 0x40400000#32)).r3.z.bits (-3/2) 4 := by
  have h := C121_perspectiveLH c (Lane.ofBits 0x40000000#32 : F32 P) (Lane.ofBits 0x3F800000#32) (Lane.ofBits 0x3F800000#32) (Lane.ofBits 0x40400000#32) lit2.1 lit1.1 lit1.1 lit3.1
    (by rw [lit2.2]; norm_num [Rng]) (by rw [lit1.2]; norm_num [Rng]) (by rw [lit1.2]; norm_num [Rng]) (by rw [lit3.2]; norm_num [Rng]) (by rw [lit1.2, lit3.2]; norm_num [Rng]) 3 2
  rw [lit1.2, lit2.2, lit3.2] at h
  exact (show ((-3/2 : ℝ)) = -(3 / (3 - 1)) * 1 by norm_num) ▸ h
example (c : Cfg) : RelNear (XMMatrixPerspectiveOffCenterRH c (Lane.ofBits 0x3F800000#32 : F32 P) (Lane.ofBits 0x40400000#32) (Lane.ofBits 0x3F800000#32) (Lane.ofBits 0x40000000#32) (Lane.ofBits 0x3F800000#32) (Lane.ofBits 0x40400000#32)).r2.y.bits 3 5 := by
  have h := C121_perspectiveOffCenterRH c (Lane.ofBits 0x3F800000#32 : F32 P) (Lane.ofBits 0x40400000#32) (Lane.ofBits 0x3F800000#32) (Lane.ofBits 0x40000000#32) (Lane.ofBits 0x3F800000#32) (Lane.ofBits 0x40400000#32) lit1.1 lit3.1 lit1.1 lit2.1 lit1.1 lit3.1
    (by rw [lit1.2, lit3.2]; norm_num [Rng]) (by rw [lit1.2, lit2.2]; norm_num [Rng]) (by rw [lit1.2, lit3.2]; norm_num [Rng]) (by rw [lit1.2, lit2.2]; norm_num [Rng])
    (by rw [lit1.2]; norm_num [Rng]) (by rw [lit3.2]; norm_num [Rng]) (by rw [lit1.2, lit3.2]; norm_num [Rng]) 2 1
  rw [lit1.2, lit2.2, lit3.2] at h
  exact (show ((3 : ℝ)) = (2 + 1) / (2 - 1) by norm_num) ▸ h
example (c : Cfg) : RelNear (XMMatrixOrthographicRH c (Lane.ofBits 0x40000000#32 : F32 P) (Lane.ofBits 0x3F800000#32) (Lane.ofBits 0x3F800000#32) (Lane.ofBits 0x40400000#32)).r3.z.bits (-1/2) 4 := by
  have h := C121_orthographicRH c (Lane.ofBits 0x40000000#32 : F32 P) (Lane.ofBits 0x3F800000#32) (Lane.ofBits 0x3F800000#32) (Lane.ofBits 0x40400000#32) lit2.1 lit1.1 lit1.1 lit3.1
    (by rw [lit2.2]; norm_num [Rng]) (by rw [lit1.2]; norm_num [Rng]) (by rw [lit1.2]; norm_num [Rng]) (by rw [lit1.2, lit3.2]; norm_num [Rng]) 3 2
  rw [lit1.2, lit2.2, lit3.2] at h
  exact (show ((-1/2 : ℝ)) = 1 / (1 - 3) * 1 by norm_num) ▸ h
example (c : Cfg) : FClose (XMMatrixPerspectiveFovLH c (Lane.ofBits 0x3F800000#32 : F32 P) (Lane.ofBits 0x40000000#32) (Lane.ofBits 0x3F800000#32) (Lane.ofBits 0x40400000#32)).r1.y.bits (Real.cos (1 / 2) / Real.sin (1 / 2)) (cotErr 1) := by
  have h := (C121_perspectiveFovLH c (Lane.ofBits 0x3F800000#32 : F32 P) (Lane.ofBits 0x40000000#32) (Lane.ofBits 0x3F800000#32) (Lane.ofBits 0x40400000#32) lit1.1 lit2.1 lit1.1 lit3.1 (by rw [lit1.2]; norm_num) (by rw [lit1.2]; norm_num)
    (by rw [lit2.2]; norm_num [Rng]) (by rw [lit1.2]; norm_num [Rng]) (by rw [lit3.2]; norm_num [Rng]) (by rw [lit1.2, lit3.2]; norm_num [Rng])).2.1
  rw [lit1.2] at h
  exact h
end DXM.Props
