import Verif.Lemmas.FPoly

/-
The polynomials of the trigonometric functions, one lane: the vector form (`…V`, fused or not) and the scalar form (`…S`). (Generated.)
-/

set_option linter.all false

namespace DXM
open DXM.Spec DXM.IEEE DXM.FErr DXM.Trig
variable {P : Env}

theorem HStep.fmv (c : Cfg) {a y d : F32 P} {δ : ℝ} (hd : Fin' d) (hv : val d = δ) : HStep (DXM.fm c a y d) a y δ := hv ▸ HStep.fm c hd
theorem HStep.addv {a y d : F32 P} {δ : ℝ} (hd : Fin' d) (hv : val d = δ) : HStep (Lane.add (Lane.mul a y) d) a y δ := hv ▸ HStep.add hd
theorem HStep.subv {a y d : F32 P} {δ : ℝ} (hd : Fin' d) (hv : val d = -δ) : HStep (Lane.sub (Lane.mul a y) d) a y δ := ⟨d, hd, Or.inr ⟨hv, rfl⟩⟩
theorem lv_3F800000 : val (lit 0x3F800000#32 : F32 P) = 1 := value_one
theorem lf_3F800000 : Fin' (lit 0x3F800000#32 : F32 P) := lit_fin (by decide)

theorem lv_B2CD365B : val (lit 0xB2CD365B#32 : F32 P) = -13448795/562949953421312 := by
  rw [lit_val (n := ival 0xB2CD365B#32) rfl, show ival 0xB2CD365B#32 = -(13448795 * 2^100) by decide +kernel]; push_cast; norm_num
theorem lf_B2CD365B : Fin' (lit 0xB2CD365B#32 : F32 P) := lit_fin (by decide)

theorem lv_32CD365B : val (lit 0x32CD365B#32 : F32 P) = 13448795/562949953421312 := by
  rw [lit_val (n := ival 0x32CD365B#32) rfl, show ival 0x32CD365B#32 = (13448795 * 2^100) by decide +kernel]; push_cast; norm_num
theorem lf_32CD365B : Fin' (lit 0x32CD365B#32 : F32 P) := lit_fin (by decide)

theorem lv_3638B88E : val (lit 0x3638B88E#32 : F32 P) = 6052935/2199023255552 := by
  rw [lit_val (n := ival 0x3638B88E#32) rfl, show ival 0x3638B88E#32 = (6052935 * 2^108) by decide +kernel]; push_cast; norm_num
theorem lf_3638B88E : Fin' (lit 0x3638B88E#32 : F32 P) := lit_fin (by decide)

theorem lv_B9500BF1 : val (lit 0xB9500BF1#32 : F32 P) = -13634545/68719476736 := by
  rw [lit_val (n := ival 0xB9500BF1#32) rfl, show ival 0xB9500BF1#32 = -(13634545 * 2^113) by decide +kernel]; push_cast; norm_num
theorem lf_B9500BF1 : Fin' (lit 0xB9500BF1#32 : F32 P) := lit_fin (by decide)

theorem lv_39500BF1 : val (lit 0x39500BF1#32 : F32 P) = 13634545/68719476736 := by
  rw [lit_val (n := ival 0x39500BF1#32) rfl, show ival 0x39500BF1#32 = (13634545 * 2^113) by decide +kernel]; push_cast; norm_num
theorem lf_39500BF1 : Fin' (lit 0x39500BF1#32 : F32 P) := lit_fin (by decide)

theorem lv_3C088886 : val (lit 0x3C088886#32 : F32 P) = 4473923/536870912 := by
  rw [lit_val (n := ival 0x3C088886#32) rfl, show ival 0x3C088886#32 = (4473923 * 2^120) by decide +kernel]; push_cast; norm_num
theorem lf_3C088886 : Fin' (lit 0x3C088886#32 : F32 P) := lit_fin (by decide)

theorem lv_BE2AAAAB : val (lit 0xBE2AAAAB#32 : F32 P) = -11184811/67108864 := by
  rw [lit_val (n := ival 0xBE2AAAAB#32) rfl, show ival 0xBE2AAAAB#32 = -(11184811 * 2^123) by decide +kernel]; push_cast; norm_num
theorem lf_BE2AAAAB : Fin' (lit 0xBE2AAAAB#32 : F32 P) := lit_fin (by decide)

theorem lv_3E2AAAAB : val (lit 0x3E2AAAAB#32 : F32 P) = 11184811/67108864 := by
  rw [lit_val (n := ival 0x3E2AAAAB#32) rfl, show ival 0x3E2AAAAB#32 = (11184811 * 2^123) by decide +kernel]; push_cast; norm_num
theorem lf_3E2AAAAB : Fin' (lit 0x3E2AAAAB#32 : F32 P) := lit_fin (by decide)

/-- `sinP`, vector form. -/
def sinPV (c : Cfg) (y : F32 P) : F32 P := fm c (fm c (fm c (fm c (fm c (lit 0xB2CD365B#32) y (lit 0x3638B88E#32)) y (lit 0xB9500BF1#32)) y (lit 0x3C088886#32)) y (lit 0xBE2AAAAB#32)) y (lit 0x3F800000#32)
theorem sinPV_err (c : Cfg) {y : F32 P} {z : ℝ} (hy : Fin' y) (hY : |val y| ≤ 987/400) (hzY : |z| ≤ 987/400) (hz : |val y - z| ≤ 617/250/16777216) :
    Fin' (sinPV c y) ∧ |val (sinPV c y) - sinP z| ≤ 77/25 * ulp2 ∧ |sinP z| ≤ 1465137/1000000 :=
  sinP_err hy hY hzY hz lf_B2CD365B lv_B2CD365B (HStep.fmv c lf_3638B88E lv_3638B88E) (HStep.fmv c lf_B9500BF1 lv_B9500BF1) (HStep.fmv c lf_3C088886 lv_3C088886) (HStep.fmv c lf_BE2AAAAB lv_BE2AAAAB) (HStep.fmv c lf_3F800000 lv_3F800000)
/-- `sinP`, scalar form. -/
def sinPS (y : F32 P) : F32 P := Lane.add (Lane.mul (Lane.sub (Lane.mul (Lane.add (Lane.mul (Lane.sub (Lane.mul (Lane.add (Lane.mul (lit 0xB2CD365B#32) y) (lit 0x3638B88E#32)) y) (lit 0x39500BF1#32)) y) (lit 0x3C088886#32)) y) (lit 0x3E2AAAAB#32)) y) (lit 0x3F800000#32)
theorem sinPS_err {y : F32 P} {z : ℝ} (hy : Fin' y) (hY : |val y| ≤ 987/400) (hzY : |z| ≤ 987/400) (hz : |val y - z| ≤ 617/250/16777216) :
    Fin' (sinPS y) ∧ |val (sinPS y) - sinP z| ≤ 77/25 * ulp2 ∧ |sinP z| ≤ 1465137/1000000 :=
  sinP_err hy hY hzY hz lf_B2CD365B lv_B2CD365B (HStep.addv lf_3638B88E lv_3638B88E) (HStep.subv lf_39500BF1 (lv_39500BF1.trans (by norm_num))) (HStep.addv lf_3C088886 lv_3C088886) (HStep.subv lf_3E2AAAAB (lv_3E2AAAAB.trans (by norm_num))) (HStep.addv lf_3F800000 lv_3F800000)
theorem lv_B48BDD11 : val (lit 0xB48BDD11#32 : F32 P) = -9166097/35184372088832 := by
  rw [lit_val (n := ival 0xB48BDD11#32) rfl, show ival 0xB48BDD11#32 = -(9166097 * 2^104) by decide +kernel]; push_cast; norm_num
theorem lf_B48BDD11 : Fin' (lit 0xB48BDD11#32 : F32 P) := lit_fin (by decide)

theorem lv_348BDD11 : val (lit 0x348BDD11#32 : F32 P) = 9166097/35184372088832 := by
  rw [lit_val (n := ival 0x348BDD11#32) rfl, show ival 0x348BDD11#32 = (9166097 * 2^104) by decide +kernel]; push_cast; norm_num
theorem lf_348BDD11 : Fin' (lit 0x348BDD11#32 : F32 P) := lit_fin (by decide)

theorem lv_37CFB4C2 : val (lit 0x37CFB4C2#32 : F32 P) = 6806113/274877906944 := by
  rw [lit_val (n := ival 0x37CFB4C2#32) rfl, show ival 0x37CFB4C2#32 = (6806113 * 2^111) by decide +kernel]; push_cast; norm_num
theorem lf_37CFB4C2 : Fin' (lit 0x37CFB4C2#32 : F32 P) := lit_fin (by decide)

theorem lv_BAB609AA : val (lit 0xBAB609AA#32 : F32 P) = -5965013/4294967296 := by
  rw [lit_val (n := ival 0xBAB609AA#32) rfl, show ival 0xBAB609AA#32 = -(5965013 * 2^117) by decide +kernel]; push_cast; norm_num
theorem lf_BAB609AA : Fin' (lit 0xBAB609AA#32 : F32 P) := lit_fin (by decide)

theorem lv_3AB609AA : val (lit 0x3AB609AA#32 : F32 P) = 5965013/4294967296 := by
  rw [lit_val (n := ival 0x3AB609AA#32) rfl, show ival 0x3AB609AA#32 = (5965013 * 2^117) by decide +kernel]; push_cast; norm_num
theorem lf_3AB609AA : Fin' (lit 0x3AB609AA#32 : F32 P) := lit_fin (by decide)

theorem lv_3D2AAAA3 : val (lit 0x3D2AAAA3#32 : F32 P) = 11184803/268435456 := by
  rw [lit_val (n := ival 0x3D2AAAA3#32) rfl, show ival 0x3D2AAAA3#32 = (11184803 * 2^121) by decide +kernel]; push_cast; norm_num
theorem lf_3D2AAAA3 : Fin' (lit 0x3D2AAAA3#32 : F32 P) := lit_fin (by decide)

theorem lv_BF000000 : val (lit 0xBF000000#32 : F32 P) = -1/2 := by
  rw [lit_val (n := ival 0xBF000000#32) rfl, show ival 0xBF000000#32 = -(1 * 2^148) by decide +kernel]; push_cast; norm_num
theorem lf_BF000000 : Fin' (lit 0xBF000000#32 : F32 P) := lit_fin (by decide)

theorem lv_3F000000 : val (lit 0x3F000000#32 : F32 P) = 1/2 := by
  rw [lit_val (n := ival 0x3F000000#32) rfl, show ival 0x3F000000#32 = (1 * 2^148) by decide +kernel]; push_cast; norm_num
theorem lf_3F000000 : Fin' (lit 0x3F000000#32 : F32 P) := lit_fin (by decide)

/-- `cosP`, vector form. -/
def cosPV (c : Cfg) (y : F32 P) : F32 P := fm c (fm c (fm c (fm c (fm c (lit 0xB48BDD11#32) y (lit 0x37CFB4C2#32)) y (lit 0xBAB609AA#32)) y (lit 0x3D2AAAA3#32)) y (lit 0xBF000000#32)) y (lit 0x3F800000#32)
theorem cosPV_err (c : Cfg) {y : F32 P} {z : ℝ} (hy : Fin' y) (hY : |val y| ≤ 987/400) (hzY : |z| ≤ 987/400) (hz : |val y - z| ≤ 617/250/16777216) :
    Fin' (cosPV c y) ∧ |val (cosPV c y) - cosP z| ≤ 3993/500 * ulp2 ∧ |cosP z| ≤ 2509289/1000000 :=
  cosP_err hy hY hzY hz lf_B48BDD11 lv_B48BDD11 (HStep.fmv c lf_37CFB4C2 lv_37CFB4C2) (HStep.fmv c lf_BAB609AA lv_BAB609AA) (HStep.fmv c lf_3D2AAAA3 lv_3D2AAAA3) (HStep.fmv c lf_BF000000 lv_BF000000) (HStep.fmv c lf_3F800000 lv_3F800000)
/-- `cosP`, scalar form. -/
def cosPS (y : F32 P) : F32 P := Lane.add (Lane.mul (Lane.sub (Lane.mul (Lane.add (Lane.mul (Lane.sub (Lane.mul (Lane.add (Lane.mul (lit 0xB48BDD11#32) y) (lit 0x37CFB4C2#32)) y) (lit 0x3AB609AA#32)) y) (lit 0x3D2AAAA3#32)) y) (lit 0x3F000000#32)) y) (lit 0x3F800000#32)
theorem cosPS_err {y : F32 P} {z : ℝ} (hy : Fin' y) (hY : |val y| ≤ 987/400) (hzY : |z| ≤ 987/400) (hz : |val y - z| ≤ 617/250/16777216) :
    Fin' (cosPS y) ∧ |val (cosPS y) - cosP z| ≤ 3993/500 * ulp2 ∧ |cosP z| ≤ 2509289/1000000 :=
  cosP_err hy hY hzY hz lf_B48BDD11 lv_B48BDD11 (HStep.addv lf_37CFB4C2 lv_37CFB4C2) (HStep.subv lf_3AB609AA (lv_3AB609AA.trans (by norm_num))) (HStep.addv lf_3D2AAAA3 lv_3D2AAAA3) (HStep.subv lf_3F000000 (lv_3F000000.trans (by norm_num))) (HStep.addv lf_3F800000 lv_3F800000)
theorem lv_B9423EC8 : val (lit 0xB9423EC8#32 : F32 P) = -1591257/8589934592 := by
  rw [lit_val (n := ival 0xB9423EC8#32) rfl, show ival 0xB9423EC8#32 = -(1591257 * 2^116) by decide +kernel]; push_cast; norm_num
theorem lf_B9423EC8 : Fin' (lit 0xB9423EC8#32 : F32 P) := lit_fin (by decide)

theorem lv_39423EC8 : val (lit 0x39423EC8#32 : F32 P) = 1591257/8589934592 := by
  rw [lit_val (n := ival 0x39423EC8#32) rfl, show ival 0x39423EC8#32 = (1591257 * 2^116) by decide +kernel]; push_cast; norm_num
theorem lf_39423EC8 : Fin' (lit 0x39423EC8#32 : F32 P) := lit_fin (by decide)

theorem lv_3C08373C : val (lit 0x3C08373C#32 : F32 P) = 2231759/268435456 := by
  rw [lit_val (n := ival 0x3C08373C#32) rfl, show ival 0x3C08373C#32 = (2231759 * 2^121) by decide +kernel]; push_cast; norm_num
theorem lf_3C08373C : Fin' (lit 0x3C08373C#32 : F32 P) := lit_fin (by decide)

theorem lv_BE2AA888 : val (lit 0xBE2AA888#32 : F32 P) = -1398033/8388608 := by
  rw [lit_val (n := ival 0xBE2AA888#32) rfl, show ival 0xBE2AA888#32 = -(1398033 * 2^126) by decide +kernel]; push_cast; norm_num
theorem lf_BE2AA888 : Fin' (lit 0xBE2AA888#32 : F32 P) := lit_fin (by decide)

theorem lv_3E2AA888 : val (lit 0x3E2AA888#32 : F32 P) = 1398033/8388608 := by
  rw [lit_val (n := ival 0x3E2AA888#32) rfl, show ival 0x3E2AA888#32 = (1398033 * 2^126) by decide +kernel]; push_cast; norm_num
theorem lf_3E2AA888 : Fin' (lit 0x3E2AA888#32 : F32 P) := lit_fin (by decide)

/-- `sinEP`, vector form. -/
def sinEPV (c : Cfg) (y : F32 P) : F32 P := fm c (fm c (fm c (lit 0xB9423EC8#32) y (lit 0x3C08373C#32)) y (lit 0xBE2AA888#32)) y (lit 0x3F800000#32)
theorem sinEPV_err (c : Cfg) {y : F32 P} {z : ℝ} (hy : Fin' y) (hY : |val y| ≤ 987/400) (hzY : |z| ≤ 987/400) (hz : |val y - z| ≤ 617/250/16777216) :
    Fin' (sinEPV c y) ∧ |val (sinEPV c y) - sinEP z| ≤ 3029/1000 * ulp2 ∧ |sinEP z| ≤ 1464641/1000000 :=
  sinEP_err hy hY hzY hz lf_B9423EC8 lv_B9423EC8 (HStep.fmv c lf_3C08373C lv_3C08373C) (HStep.fmv c lf_BE2AA888 lv_BE2AA888) (HStep.fmv c lf_3F800000 lv_3F800000)
/-- `sinEP`, scalar form. -/
def sinEPS (y : F32 P) : F32 P := Lane.add (Lane.mul (Lane.sub (Lane.mul (Lane.add (Lane.mul (lit 0xB9423EC8#32) y) (lit 0x3C08373C#32)) y) (lit 0x3E2AA888#32)) y) (lit 0x3F800000#32)
theorem sinEPS_err {y : F32 P} {z : ℝ} (hy : Fin' y) (hY : |val y| ≤ 987/400) (hzY : |z| ≤ 987/400) (hz : |val y - z| ≤ 617/250/16777216) :
    Fin' (sinEPS y) ∧ |val (sinEPS y) - sinEP z| ≤ 3029/1000 * ulp2 ∧ |sinEP z| ≤ 1464641/1000000 :=
  sinEP_err hy hY hzY hz lf_B9423EC8 lv_B9423EC8 (HStep.addv lf_3C08373C lv_3C08373C) (HStep.subv lf_3E2AA888 (lv_3E2AA888.trans (by norm_num))) (HStep.addv lf_3F800000 lv_3F800000)
theorem lv_BAA69FDB : val (lit 0xBAA69FDB#32 : F32 P) = -10919899/8589934592 := by
  rw [lit_val (n := ival 0xBAA69FDB#32) rfl, show ival 0xBAA69FDB#32 = -(10919899 * 2^116) by decide +kernel]; push_cast; norm_num
theorem lf_BAA69FDB : Fin' (lit 0xBAA69FDB#32 : F32 P) := lit_fin (by decide)

theorem lv_3AA69FDB : val (lit 0x3AA69FDB#32 : F32 P) = 10919899/8589934592 := by
  rw [lit_val (n := ival 0x3AA69FDB#32) rfl, show ival 0x3AA69FDB#32 = (10919899 * 2^116) by decide +kernel]; push_cast; norm_num
theorem lf_3AA69FDB : Fin' (lit 0x3AA69FDB#32 : F32 P) := lit_fin (by decide)

theorem lv_3D29F587 : val (lit 0x3D29F587#32 : F32 P) = 11138439/268435456 := by
  rw [lit_val (n := ival 0x3D29F587#32) rfl, show ival 0x3D29F587#32 = (11138439 * 2^121) by decide +kernel]; push_cast; norm_num
theorem lf_3D29F587 : Fin' (lit 0x3D29F587#32 : F32 P) := lit_fin (by decide)

theorem lv_BEFFF67E : val (lit 0xBEFFF67E#32 : F32 P) = -8387391/16777216 := by
  rw [lit_val (n := ival 0xBEFFF67E#32) rfl, show ival 0xBEFFF67E#32 = -(8387391 * 2^125) by decide +kernel]; push_cast; norm_num
theorem lf_BEFFF67E : Fin' (lit 0xBEFFF67E#32 : F32 P) := lit_fin (by decide)

theorem lv_3EFFF67E : val (lit 0x3EFFF67E#32 : F32 P) = 8387391/16777216 := by
  rw [lit_val (n := ival 0x3EFFF67E#32) rfl, show ival 0x3EFFF67E#32 = (8387391 * 2^125) by decide +kernel]; push_cast; norm_num
theorem lf_3EFFF67E : Fin' (lit 0x3EFFF67E#32 : F32 P) := lit_fin (by decide)

/-- `cosEP`, vector form. -/
def cosEPV (c : Cfg) (y : F32 P) : F32 P := fm c (fm c (fm c (lit 0xBAA69FDB#32) y (lit 0x3D29F587#32)) y (lit 0xBEFFF67E#32)) y (lit 0x3F800000#32)
theorem cosEPV_err (c : Cfg) {y : F32 P} {z : ℝ} (hy : Fin' y) (hY : |val y| ≤ 987/400) (hzY : |z| ≤ 987/400) (hz : |val y - z| ≤ 617/250/16777216) :
    Fin' (cosEPV c y) ∧ |val (cosEPV c y) - cosEP z| ≤ 3939/500 * ulp2 ∧ |cosEP z| ≤ 2505311/1000000 :=
  cosEP_err hy hY hzY hz lf_BAA69FDB lv_BAA69FDB (HStep.fmv c lf_3D29F587 lv_3D29F587) (HStep.fmv c lf_BEFFF67E lv_BEFFF67E) (HStep.fmv c lf_3F800000 lv_3F800000)
/-- `cosEP`, scalar form. -/
def cosEPS (y : F32 P) : F32 P := Lane.add (Lane.mul (Lane.sub (Lane.mul (Lane.add (Lane.mul (lit 0xBAA69FDB#32) y) (lit 0x3D29F587#32)) y) (lit 0x3EFFF67E#32)) y) (lit 0x3F800000#32)
theorem cosEPS_err {y : F32 P} {z : ℝ} (hy : Fin' y) (hY : |val y| ≤ 987/400) (hzY : |z| ≤ 987/400) (hz : |val y - z| ≤ 617/250/16777216) :
    Fin' (cosEPS y) ∧ |val (cosEPS y) - cosEP z| ≤ 3939/500 * ulp2 ∧ |cosEP z| ≤ 2505311/1000000 :=
  cosEP_err hy hY hzY hz lf_BAA69FDB lv_BAA69FDB (HStep.addv lf_3D29F587 lv_3D29F587) (HStep.subv lf_3EFFF67E (lv_3EFFF67E.trans (by norm_num))) (HStep.addv lf_3F800000 lv_3F800000)
theorem lv_BAA57A2C : val (lit 0xBAA57A2C#32 : F32 P) = -2711179/2147483648 := by
  rw [lit_val (n := ival 0xBAA57A2C#32) rfl, show ival 0xBAA57A2C#32 = -(2711179 * 2^118) by decide +kernel]; push_cast; norm_num
theorem lf_BAA57A2C : Fin' (lit 0xBAA57A2C#32 : F32 P) := lit_fin (by decide)

theorem lv_3AA57A2C : val (lit 0x3AA57A2C#32 : F32 P) = 2711179/2147483648 := by
  rw [lit_val (n := ival 0x3AA57A2C#32) rfl, show ival 0x3AA57A2C#32 = (2711179 * 2^118) by decide +kernel]; push_cast; norm_num
theorem lf_3AA57A2C : Fin' (lit 0x3AA57A2C#32 : F32 P) := lit_fin (by decide)

theorem lv_3BDA90C5 : val (lit 0x3BDA90C5#32 : F32 P) = 14323909/2147483648 := by
  rw [lit_val (n := ival 0x3BDA90C5#32) rfl, show ival 0x3BDA90C5#32 = (14323909 * 2^118) by decide +kernel]; push_cast; norm_num
theorem lf_3BDA90C5 : Fin' (lit 0x3BDA90C5#32 : F32 P) := lit_fin (by decide)

theorem lv_BC8BFC66 : val (lit 0xBC8BFC66#32 : F32 P) = -4587059/268435456 := by
  rw [lit_val (n := ival 0xBC8BFC66#32) rfl, show ival 0xBC8BFC66#32 = -(4587059 * 2^121) by decide +kernel]; push_cast; norm_num
theorem lf_BC8BFC66 : Fin' (lit 0xBC8BFC66#32 : F32 P) := lit_fin (by decide)

theorem lv_3C8BFC66 : val (lit 0x3C8BFC66#32 : F32 P) = 4587059/268435456 := by
  rw [lit_val (n := ival 0x3C8BFC66#32) rfl, show ival 0x3C8BFC66#32 = (4587059 * 2^121) by decide +kernel]; push_cast; norm_num
theorem lf_3C8BFC66 : Fin' (lit 0x3C8BFC66#32 : F32 P) := lit_fin (by decide)

theorem lv_3CFD10F8 : val (lit 0x3CFD10F8#32 : F32 P) = 2073119/67108864 := by
  rw [lit_val (n := ival 0x3CFD10F8#32) rfl, show ival 0x3CFD10F8#32 = (2073119 * 2^123) by decide +kernel]; push_cast; norm_num
theorem lf_3CFD10F8 : Fin' (lit 0x3CFD10F8#32 : F32 P) := lit_fin (by decide)

theorem lv_BD4D8392 : val (lit 0xBD4D8392#32 : F32 P) = -6734281/134217728 := by
  rw [lit_val (n := ival 0xBD4D8392#32) rfl, show ival 0xBD4D8392#32 = -(6734281 * 2^122) by decide +kernel]; push_cast; norm_num
theorem lf_BD4D8392 : Fin' (lit 0xBD4D8392#32 : F32 P) := lit_fin (by decide)

theorem lv_3D4D8392 : val (lit 0x3D4D8392#32 : F32 P) = 6734281/134217728 := by
  rw [lit_val (n := ival 0x3D4D8392#32) rfl, show ival 0x3D4D8392#32 = (6734281 * 2^122) by decide +kernel]; push_cast; norm_num
theorem lf_3D4D8392 : Fin' (lit 0x3D4D8392#32 : F32 P) := lit_fin (by decide)

theorem lv_3DB63A9E : val (lit 0x3DB63A9E#32 : F32 P) = 5971279/67108864 := by
  rw [lit_val (n := ival 0x3DB63A9E#32) rfl, show ival 0x3DB63A9E#32 = (5971279 * 2^123) by decide +kernel]; push_cast; norm_num
theorem lf_3DB63A9E : Fin' (lit 0x3DB63A9E#32 : F32 P) := lit_fin (by decide)

theorem lv_BE5BBFCA : val (lit 0xBE5BBFCA#32 : F32 P) = -7200741/33554432 := by
  rw [lit_val (n := ival 0xBE5BBFCA#32) rfl, show ival 0xBE5BBFCA#32 = -(7200741 * 2^124) by decide +kernel]; push_cast; norm_num
theorem lf_BE5BBFCA : Fin' (lit 0xBE5BBFCA#32 : F32 P) := lit_fin (by decide)

theorem lv_3E5BBFCA : val (lit 0x3E5BBFCA#32 : F32 P) = 7200741/33554432 := by
  rw [lit_val (n := ival 0x3E5BBFCA#32) rfl, show ival 0x3E5BBFCA#32 = (7200741 * 2^124) by decide +kernel]; push_cast; norm_num
theorem lf_3E5BBFCA : Fin' (lit 0x3E5BBFCA#32 : F32 P) := lit_fin (by decide)

theorem lv_3FC90FDA : val (lit 0x3FC90FDA#32 : F32 P) = 6588397/4194304 := by
  rw [lit_val (n := ival 0x3FC90FDA#32) rfl, show ival 0x3FC90FDA#32 = (6588397 * 2^127) by decide +kernel]; push_cast; norm_num
theorem lf_3FC90FDA : Fin' (lit 0x3FC90FDA#32 : F32 P) := lit_fin (by decide)

/-- `arcP`, vector form. -/
def arcPV (c : Cfg) (y : F32 P) : F32 P := fm c (fm c (fm c (fm c (fm c (fm c (fm c (lit 0xBAA57A2C#32) y (lit 0x3BDA90C5#32)) y (lit 0xBC8BFC66#32)) y (lit 0x3CFD10F8#32)) y (lit 0xBD4D8392#32)) y (lit 0x3DB63A9E#32)) y (lit 0xBE5BBFCA#32)) y (lit 0x3FC90FDA#32)
theorem arcPV_err (c : Cfg) {y : F32 P} {z : ℝ} (hy : Fin' y) (hY : |val y| ≤ 1) (hzY : |z| ≤ 1) (hz : |val y - z| ≤ 0) :
    Fin' (arcPV c y) ∧ |val (arcPV c y) - arcP z| ≤ 717/200 * ulp2 ∧ |arcP z| ≤ 123779/62500 :=
  arcP_err hy hY hzY hz lf_BAA57A2C lv_BAA57A2C (HStep.fmv c lf_3BDA90C5 lv_3BDA90C5) (HStep.fmv c lf_BC8BFC66 lv_BC8BFC66) (HStep.fmv c lf_3CFD10F8 lv_3CFD10F8) (HStep.fmv c lf_BD4D8392 lv_BD4D8392) (HStep.fmv c lf_3DB63A9E lv_3DB63A9E) (HStep.fmv c lf_BE5BBFCA lv_BE5BBFCA) (HStep.fmv c lf_3FC90FDA lv_3FC90FDA)
/-- `arcP`, scalar form. -/
def arcPS (y : F32 P) : F32 P := Lane.add (Lane.mul (Lane.sub (Lane.mul (Lane.add (Lane.mul (Lane.sub (Lane.mul (Lane.add (Lane.mul (Lane.sub (Lane.mul (Lane.add (Lane.mul (lit 0xBAA57A2C#32) y) (lit 0x3BDA90C5#32)) y) (lit 0x3C8BFC66#32)) y) (lit 0x3CFD10F8#32)) y) (lit 0x3D4D8392#32)) y) (lit 0x3DB63A9E#32)) y) (lit 0x3E5BBFCA#32)) y) (lit 0x3FC90FDA#32)
theorem arcPS_err {y : F32 P} {z : ℝ} (hy : Fin' y) (hY : |val y| ≤ 1) (hzY : |z| ≤ 1) (hz : |val y - z| ≤ 0) :
    Fin' (arcPS y) ∧ |val (arcPS y) - arcP z| ≤ 717/200 * ulp2 ∧ |arcP z| ≤ 123779/62500 :=
  arcP_err hy hY hzY hz lf_BAA57A2C lv_BAA57A2C (HStep.addv lf_3BDA90C5 lv_3BDA90C5) (HStep.subv lf_3C8BFC66 (lv_3C8BFC66.trans (by norm_num))) (HStep.addv lf_3CFD10F8 lv_3CFD10F8) (HStep.subv lf_3D4D8392 (lv_3D4D8392.trans (by norm_num))) (HStep.addv lf_3DB63A9E lv_3DB63A9E) (HStep.subv lf_3E5BBFCA (lv_3E5BBFCA.trans (by norm_num))) (HStep.addv lf_3FC90FDA lv_3FC90FDA)
theorem lv_BC996E30 : val (lit 0xBC996E30#32 : F32 P) = -628451/33554432 := by
  rw [lit_val (n := ival 0xBC996E30#32) rfl, show ival 0xBC996E30#32 = -(628451 * 2^124) by decide +kernel]; push_cast; norm_num
theorem lf_BC996E30 : Fin' (lit 0xBC996E30#32 : F32 P) := lit_fin (by decide)

theorem lv_3C996E30 : val (lit 0x3C996E30#32 : F32 P) = 628451/33554432 := by
  rw [lit_val (n := ival 0x3C996E30#32) rfl, show ival 0x3C996E30#32 = (628451 * 2^124) by decide +kernel]; push_cast; norm_num
theorem lf_3C996E30 : Fin' (lit 0x3C996E30#32 : F32 P) := lit_fin (by decide)

theorem lv_3D981627 : val (lit 0x3D981627#32 : F32 P) = 9967143/134217728 := by
  rw [lit_val (n := ival 0x3D981627#32) rfl, show ival 0x3D981627#32 = (9967143 * 2^122) by decide +kernel]; push_cast; norm_num
theorem lf_3D981627 : Fin' (lit 0x3D981627#32 : F32 P) := lit_fin (by decide)

theorem lv_BE593484 : val (lit 0xBE593484#32 : F32 P) = -3558689/16777216 := by
  rw [lit_val (n := ival 0xBE593484#32) rfl, show ival 0xBE593484#32 = -(3558689 * 2^125) by decide +kernel]; push_cast; norm_num
theorem lf_BE593484 : Fin' (lit 0xBE593484#32 : F32 P) := lit_fin (by decide)

theorem lv_3E593484 : val (lit 0x3E593484#32 : F32 P) = 3558689/16777216 := by
  rw [lit_val (n := ival 0x3E593484#32) rfl, show ival 0x3E593484#32 = (3558689 * 2^125) by decide +kernel]; push_cast; norm_num
theorem lf_3E593484 : Fin' (lit 0x3E593484#32 : F32 P) := lit_fin (by decide)

theorem lv_3FC90DA4 : val (lit 0x3FC90DA4#32 : F32 P) = 3294057/2097152 := by
  rw [lit_val (n := ival 0x3FC90DA4#32) rfl, show ival 0x3FC90DA4#32 = (3294057 * 2^128) by decide +kernel]; push_cast; norm_num
theorem lf_3FC90DA4 : Fin' (lit 0x3FC90DA4#32 : F32 P) := lit_fin (by decide)

/-- `arcEP`, vector form. -/
def arcEPV (c : Cfg) (y : F32 P) : F32 P := fm c (fm c (fm c (lit 0xBC996E30#32) y (lit 0x3D981627#32)) y (lit 0xBE593484#32)) y (lit 0x3FC90DA4#32)
theorem arcEPV_err (c : Cfg) {y : F32 P} {z : ℝ} (hy : Fin' y) (hY : |val y| ≤ 1) (hzY : |z| ≤ 1) (hz : |val y - z| ≤ 0) :
    Fin' (arcEPV c y) ∧ |val (arcEPV c y) - arcEP z| ≤ 673/250 * ulp2 ∧ |arcEP z| ≤ 375167/200000 :=
  arcEP_err hy hY hzY hz lf_BC996E30 lv_BC996E30 (HStep.fmv c lf_3D981627 lv_3D981627) (HStep.fmv c lf_BE593484 lv_BE593484) (HStep.fmv c lf_3FC90DA4 lv_3FC90DA4)
/-- `arcEP`, scalar form. -/
def arcEPS (y : F32 P) : F32 P := Lane.add (Lane.mul (Lane.sub (Lane.mul (Lane.add (Lane.mul (lit 0xBC996E30#32) y) (lit 0x3D981627#32)) y) (lit 0x3E593484#32)) y) (lit 0x3FC90DA4#32)
theorem arcEPS_err {y : F32 P} {z : ℝ} (hy : Fin' y) (hY : |val y| ≤ 1) (hzY : |z| ≤ 1) (hz : |val y - z| ≤ 0) :
    Fin' (arcEPS y) ∧ |val (arcEPS y) - arcEP z| ≤ 673/250 * ulp2 ∧ |arcEP z| ≤ 375167/200000 :=
  arcEP_err hy hY hzY hz lf_BC996E30 lv_BC996E30 (HStep.addv lf_3D981627 lv_3D981627) (HStep.subv lf_3E593484 (lv_3E593484.trans (by norm_num))) (HStep.addv lf_3FC90DA4 lv_3FC90DA4)
theorem lv_3B3BD74A : val (lit 0x3B3BD74A#32 : F32 P) = 6155173/2147483648 := by
  rw [lit_val (n := ival 0x3B3BD74A#32) rfl, show ival 0x3B3BD74A#32 = (6155173 * 2^118) by decide +kernel]; push_cast; norm_num
theorem lf_3B3BD74A : Fin' (lit 0x3B3BD74A#32 : F32 P) := lit_fin (by decide)

theorem lv_BC846E02 : val (lit 0xBC846E02#32 : F32 P) = -4339457/268435456 := by
  rw [lit_val (n := ival 0xBC846E02#32) rfl, show ival 0xBC846E02#32 = -(4339457 * 2^121) by decide +kernel]; push_cast; norm_num
theorem lf_BC846E02 : Fin' (lit 0xBC846E02#32 : F32 P) := lit_fin (by decide)

theorem lv_3C846E02 : val (lit 0x3C846E02#32 : F32 P) = 4339457/268435456 := by
  rw [lit_val (n := ival 0x3C846E02#32) rfl, show ival 0x3C846E02#32 = (4339457 * 2^121) by decide +kernel]; push_cast; norm_num
theorem lf_3C846E02 : Fin' (lit 0x3C846E02#32 : F32 P) := lit_fin (by decide)

theorem lv_3D2FC1FE : val (lit 0x3D2FC1FE#32 : F32 P) = 5759231/134217728 := by
  rw [lit_val (n := ival 0x3D2FC1FE#32) rfl, show ival 0x3D2FC1FE#32 = (5759231 * 2^122) by decide +kernel]; push_cast; norm_num
theorem lf_3D2FC1FE : Fin' (lit 0x3D2FC1FE#32 : F32 P) := lit_fin (by decide)

theorem lv_BD9A3174 : val (lit 0xBD9A3174#32 : F32 P) = -2526301/33554432 := by
  rw [lit_val (n := ival 0xBD9A3174#32) rfl, show ival 0xBD9A3174#32 = -(2526301 * 2^124) by decide +kernel]; push_cast; norm_num
theorem lf_BD9A3174 : Fin' (lit 0xBD9A3174#32 : F32 P) := lit_fin (by decide)

theorem lv_3D9A3174 : val (lit 0x3D9A3174#32 : F32 P) = 2526301/33554432 := by
  rw [lit_val (n := ival 0x3D9A3174#32) rfl, show ival 0x3D9A3174#32 = (2526301 * 2^124) by decide +kernel]; push_cast; norm_num
theorem lf_3D9A3174 : Fin' (lit 0x3D9A3174#32 : F32 P) := lit_fin (by decide)

theorem lv_3DDA3D83 : val (lit 0x3DDA3D83#32 : F32 P) = 14302595/134217728 := by
  rw [lit_val (n := ival 0x3DDA3D83#32) rfl, show ival 0x3DDA3D83#32 = (14302595 * 2^122) by decide +kernel]; push_cast; norm_num
theorem lf_3DDA3D83 : Fin' (lit 0x3DDA3D83#32 : F32 P) := lit_fin (by decide)

theorem lv_BE117FC7 : val (lit 0xBE117FC7#32 : F32 P) = -9535431/67108864 := by
  rw [lit_val (n := ival 0xBE117FC7#32) rfl, show ival 0xBE117FC7#32 = -(9535431 * 2^123) by decide +kernel]; push_cast; norm_num
theorem lf_BE117FC7 : Fin' (lit 0xBE117FC7#32 : F32 P) := lit_fin (by decide)

theorem lv_3E117FC7 : val (lit 0x3E117FC7#32 : F32 P) = 9535431/67108864 := by
  rw [lit_val (n := ival 0x3E117FC7#32) rfl, show ival 0x3E117FC7#32 = (9535431 * 2^123) by decide +kernel]; push_cast; norm_num
theorem lf_3E117FC7 : Fin' (lit 0x3E117FC7#32 : F32 P) := lit_fin (by decide)

theorem lv_3E4CBBE5 : val (lit 0x3E4CBBE5#32 : F32 P) = 13417445/67108864 := by
  rw [lit_val (n := ival 0x3E4CBBE5#32) rfl, show ival 0x3E4CBBE5#32 = (13417445 * 2^123) by decide +kernel]; push_cast; norm_num
theorem lf_3E4CBBE5 : Fin' (lit 0x3E4CBBE5#32 : F32 P) := lit_fin (by decide)

theorem lv_BEAAAA6C : val (lit 0xBEAAAA6C#32 : F32 P) = -2796187/8388608 := by
  rw [lit_val (n := ival 0xBEAAAA6C#32) rfl, show ival 0xBEAAAA6C#32 = -(2796187 * 2^126) by decide +kernel]; push_cast; norm_num
theorem lf_BEAAAA6C : Fin' (lit 0xBEAAAA6C#32 : F32 P) := lit_fin (by decide)

theorem lv_3EAAAA6C : val (lit 0x3EAAAA6C#32 : F32 P) = 2796187/8388608 := by
  rw [lit_val (n := ival 0x3EAAAA6C#32) rfl, show ival 0x3EAAAA6C#32 = (2796187 * 2^126) by decide +kernel]; push_cast; norm_num
theorem lf_3EAAAA6C : Fin' (lit 0x3EAAAA6C#32 : F32 P) := lit_fin (by decide)

/-- `atP`, vector form. -/
def atPV (c : Cfg) (y : F32 P) : F32 P := fm c (fm c (fm c (fm c (fm c (fm c (fm c (fm c (lit 0x3B3BD74A#32) y (lit 0xBC846E02#32)) y (lit 0x3D2FC1FE#32)) y (lit 0xBD9A3174#32)) y (lit 0x3DDA3D83#32)) y (lit 0xBE117FC7#32)) y (lit 0x3E4CBBE5#32)) y (lit 0xBEAAAA6C#32)) y (lit 0x3F800000#32)
theorem atPV_err (c : Cfg) {y : F32 P} {z : ℝ} (hy : Fin' y) (hY : |val y| ≤ 1000001/1000000) (hzY : |z| ≤ 1000001/1000000) (hz : |val y - z| ≤ 10001/10000/16777216) :
    Fin' (atPV c y) ∧ |val (atPV c y) - atP z| ≤ 2247/250 * ulp2 ∧ |atP z| ≤ 479789/250000 :=
  atP_err hy hY hzY hz lf_3B3BD74A lv_3B3BD74A (HStep.fmv c lf_BC846E02 lv_BC846E02) (HStep.fmv c lf_3D2FC1FE lv_3D2FC1FE) (HStep.fmv c lf_BD9A3174 lv_BD9A3174) (HStep.fmv c lf_3DDA3D83 lv_3DDA3D83) (HStep.fmv c lf_BE117FC7 lv_BE117FC7) (HStep.fmv c lf_3E4CBBE5 lv_3E4CBBE5) (HStep.fmv c lf_BEAAAA6C lv_BEAAAA6C) (HStep.fmv c lf_3F800000 lv_3F800000)
theorem lv_3CAAAE5F : val (lit 0x3CAAAE5F#32 : F32 P) = 11185759/536870912 := by
  rw [lit_val (n := ival 0x3CAAAE5F#32) rfl, show ival 0x3CAAAE5F#32 = (11185759 * 2^120) by decide +kernel]; push_cast; norm_num
theorem lf_3CAAAE5F : Fin' (lit 0x3CAAAE5F#32 : F32 P) := lit_fin (by decide)

theorem lv_BDAE5A36 : val (lit 0xBDAE5A36#32 : F32 P) = -5713179/67108864 := by
  rw [lit_val (n := ival 0xBDAE5A36#32) rfl, show ival 0xBDAE5A36#32 = -(5713179 * 2^123) by decide +kernel]; push_cast; norm_num
theorem lf_BDAE5A36 : Fin' (lit 0xBDAE5A36#32 : F32 P) := lit_fin (by decide)

theorem lv_3DAE5A36 : val (lit 0x3DAE5A36#32 : F32 P) = 5713179/67108864 := by
  rw [lit_val (n := ival 0x3DAE5A36#32) rfl, show ival 0x3DAE5A36#32 = (5713179 * 2^123) by decide +kernel]; push_cast; norm_num
theorem lf_3DAE5A36 : Fin' (lit 0x3DAE5A36#32 : F32 P) := lit_fin (by decide)

theorem lv_3E3876E2 : val (lit 0x3E3876E2#32 : F32 P) = 6044529/33554432 := by
  rw [lit_val (n := ival 0x3E3876E2#32) rfl, show ival 0x3E3876E2#32 = (6044529 * 2^124) by decide +kernel]; push_cast; norm_num
theorem lf_3E3876E2 : Fin' (lit 0x3E3876E2#32 : F32 P) := lit_fin (by decide)

theorem lv_BEA91D04 : val (lit 0xBEA91D04#32 : F32 P) = -2770753/8388608 := by
  rw [lit_val (n := ival 0xBEA91D04#32) rfl, show ival 0xBEA91D04#32 = -(2770753 * 2^126) by decide +kernel]; push_cast; norm_num
theorem lf_BEA91D04 : Fin' (lit 0xBEA91D04#32 : F32 P) := lit_fin (by decide)

theorem lv_3EA91D04 : val (lit 0x3EA91D04#32 : F32 P) = 2770753/8388608 := by
  rw [lit_val (n := ival 0x3EA91D04#32) rfl, show ival 0x3EA91D04#32 = (2770753 * 2^126) by decide +kernel]; push_cast; norm_num
theorem lf_3EA91D04 : Fin' (lit 0x3EA91D04#32 : F32 P) := lit_fin (by decide)

theorem lv_3F7FF738 : val (lit 0x3F7FF738#32 : F32 P) = 2096871/2097152 := by
  rw [lit_val (n := ival 0x3F7FF738#32) rfl, show ival 0x3F7FF738#32 = (2096871 * 2^128) by decide +kernel]; push_cast; norm_num
theorem lf_3F7FF738 : Fin' (lit 0x3F7FF738#32 : F32 P) := lit_fin (by decide)

/-- `atEP`, vector form. -/
def atEPV (c : Cfg) (y : F32 P) : F32 P := fm c (fm c (fm c (fm c (lit 0x3CAAAE5F#32) y (lit 0xBDAE5A36#32)) y (lit 0x3E3876E2#32)) y (lit 0xBEA91D04#32)) y (lit 0x3F7FF738#32)
theorem atEPV_err (c : Cfg) {y : F32 P} {z : ℝ} (hy : Fin' y) (hY : |val y| ≤ 1000001/1000000) (hzY : |z| ≤ 1000001/1000000) (hz : |val y - z| ≤ 10001/10000/16777216) :
    Fin' (atEPV c y) ∧ |val (atEPV c y) - atEP z| ≤ 2343/500 * ulp2 ∧ |atEP z| ≤ 808139/500000 :=
  atEP_err hy hY hzY hz lf_3CAAAE5F lv_3CAAAE5F (HStep.fmv c lf_BDAE5A36 lv_BDAE5A36) (HStep.fmv c lf_3E3876E2 lv_3E3876E2) (HStep.fmv c lf_BEA91D04 lv_BEA91D04) (HStep.fmv c lf_3F7FF738 lv_3F7FF738)

end DXM
