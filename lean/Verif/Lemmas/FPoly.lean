import Verif.Lemmas.FHorner
import Verif.Lemmas.TrigPoly
import Verif.Lemmas.ArcPoly

/-
Rounding error of the polynomials of the trigonometric functions.  (Generated; each step is `horner2` with rational bounds.)
-/

set_option linter.all false

namespace DXM
open DXM.Spec DXM.IEEE DXM.FErr DXM.Trig
variable {P : Env}

theorem sinP_err {y r0 r1 r2 r3 r4 r5 : F32 P} {z : ℝ} (hy : Fin' y) (hY : |val y| ≤ 987/400) (hzY : |z| ≤ 987/400) (hz : |val y - z| ≤ 617/250/16777216)
    (f0 : Fin' r0) (v0 : val r0 = -13448795/562949953421312) (h1 : HStep r1 r0 y (6052935/2199023255552)) (h2 : HStep r2 r1 y (-13634545/68719476736)) (h3 : HStep r3 r2 y (4473923/536870912)) (h4 : HStep r4 r3 y (-11184811/67108864)) (h5 : HStep r5 r4 y (1)) :
    Fin' r5 ∧ |val r5 - sinP z| ≤ 77/25 * ulp2 ∧ |sinP z| ≤ 1465137/1000000 := by
  have e0 : |val r0 - (-13448795/562949953421312)| ≤ 0 := by rw [v0]; norm_num
  have b0 : |(-13448795/562949953421312:ℝ)| ≤ 1/10000000 := by rw [abs_le]; constructor <;> norm_num
  have k1 : |(6052935/2199023255552:ℝ)| ≤ 7/2500000 := by rw [abs_le]; constructor <;> norm_num
  obtain ⟨f1, e1, b1⟩ := horner2 h1 f0 hy e0 b0 hY hz hzY k1 (by norm_num)
  replace e1 := e1.trans (show _ ≤ (1/1000:ℝ)/16777216 by norm_num [ulp2, tiny])
  replace b1 := b1.trans (show _ ≤ (1/250000:ℝ) by norm_num)
  have k2 : |(-13634545/68719476736:ℝ)| ≤ 397/2000000 := by rw [abs_le]; constructor <;> norm_num
  obtain ⟨f2, e2, b2⟩ := horner2 h2 f1 hy e1 b1 hY hz hzY k2 (by norm_num)
  replace e2 := e2.trans (show _ ≤ (3/1000:ℝ)/16777216 by norm_num [ulp2, tiny])
  replace b2 := b2.trans (show _ ≤ (209/1000000:ℝ) by norm_num)
  have k3 : |(4473923/536870912:ℝ)| ≤ 41667/5000000 := by rw [abs_le]; constructor <;> norm_num
  obtain ⟨f3, e3, b3⟩ := horner2 h3 f2 hy e2 b2 hY hz hzY k3 (by norm_num)
  replace e3 := e3.trans (show _ ≤ (9/500:ℝ)/16777216 by norm_num [ulp2, tiny])
  replace b3 := b3.trans (show _ ≤ (177/20000:ℝ) by norm_num)
  have k4 : |(-11184811/67108864:ℝ)| ≤ 1666667/10000000 := by rw [abs_le]; constructor <;> norm_num
  obtain ⟨f4, e4, b4⟩ := horner2 h4 f3 hy e3 b3 hY hz hzY k4 (by norm_num)
  replace e4 := e4.trans (show _ ≤ (277/1000:ℝ)/16777216 by norm_num [ulp2, tiny])
  replace b4 := b4.trans (show _ ≤ (37701/200000:ℝ) by norm_num)
  have k5 : |(1:ℝ)| ≤ 1 := by rw [abs_le]; constructor <;> norm_num
  obtain ⟨f5, e5, b5⟩ := horner2 h5 f4 hy e4 b4 hY hz hzY k5 (by norm_num)
  replace e5 := e5.trans (show _ ≤ (77/25:ℝ)/16777216 by norm_num [ulp2, tiny])
  replace b5 := b5.trans (show _ ≤ (1465137/1000000:ℝ) by norm_num)
  have hp : sinP z = ((((((-13448795/562949953421312) * z + (6052935/2199023255552)) * z + (-13634545/68719476736)) * z + (4473923/536870912)) * z + (-11184811/67108864)) * z + (1)) := rfl
  rw [hp]
  exact ⟨f5, e5.trans (by norm_num [ulp2]), b5⟩
theorem cosP_err {y r0 r1 r2 r3 r4 r5 : F32 P} {z : ℝ} (hy : Fin' y) (hY : |val y| ≤ 987/400) (hzY : |z| ≤ 987/400) (hz : |val y - z| ≤ 617/250/16777216)
    (f0 : Fin' r0) (v0 : val r0 = -9166097/35184372088832) (h1 : HStep r1 r0 y (6806113/274877906944)) (h2 : HStep r2 r1 y (-5965013/4294967296)) (h3 : HStep r3 r2 y (11184803/268435456)) (h4 : HStep r4 r3 y (-1/2)) (h5 : HStep r5 r4 y (1)) :
    Fin' r5 ∧ |val r5 - cosP z| ≤ 3993/500 * ulp2 ∧ |cosP z| ≤ 2509289/1000000 := by
  have e0 : |val r0 - (-9166097/35184372088832)| ≤ 0 := by rw [v0]; norm_num
  have b0 : |(-9166097/35184372088832:ℝ)| ≤ 3/10000000 := by rw [abs_le]; constructor <;> norm_num
  have k1 : |(6806113/274877906944:ℝ)| ≤ 31/1250000 := by rw [abs_le]; constructor <;> norm_num
  obtain ⟨f1, e1, b1⟩ := horner2 h1 f0 hy e0 b0 hY hz hzY k1 (by norm_num)
  replace e1 := e1.trans (show _ ≤ (1/1000:ℝ)/16777216 by norm_num [ulp2, tiny])
  replace b1 := b1.trans (show _ ≤ (13/500000:ℝ) by norm_num)
  have k2 : |(-5965013/4294967296:ℝ)| ≤ 13889/10000000 := by rw [abs_le]; constructor <;> norm_num
  obtain ⟨f2, e2, b2⟩ := horner2 h2 f1 hy e1 b1 hY hz hzY k2 (by norm_num)
  replace e2 := e2.trans (show _ ≤ (1/200:ℝ)/16777216 by norm_num [ulp2, tiny])
  replace b2 := b2.trans (show _ ≤ (727/500000:ℝ) by norm_num)
  have k3 : |(11184803/268435456:ℝ)| ≤ 416667/10000000 := by rw [abs_le]; constructor <;> norm_num
  obtain ⟨f3, e3, b3⟩ := horner2 h3 f2 hy e2 b2 hY hz hzY k3 (by norm_num)
  replace e3 := e3.trans (show _ ≤ (13/200:ℝ)/16777216 by norm_num [ulp2, tiny])
  replace b3 := b3.trans (show _ ≤ (9051/200000:ℝ) by norm_num)
  have k4 : |(-1/2:ℝ)| ≤ 1/2 := by rw [abs_le]; constructor <;> norm_num
  obtain ⟨f4, e4, b4⟩ := horner2 h4 f3 hy e3 b3 hY hz hzY k4 (by norm_num)
  replace e4 := e4.trans (show _ ≤ (249/250:ℝ)/16777216 by norm_num [ulp2, tiny])
  replace b4 := b4.trans (show _ ≤ (611667/1000000:ℝ) by norm_num)
  have k5 : |(1:ℝ)| ≤ 1 := by rw [abs_le]; constructor <;> norm_num
  obtain ⟨f5, e5, b5⟩ := horner2 h5 f4 hy e4 b4 hY hz hzY k5 (by norm_num)
  replace e5 := e5.trans (show _ ≤ (3993/500:ℝ)/16777216 by norm_num [ulp2, tiny])
  replace b5 := b5.trans (show _ ≤ (2509289/1000000:ℝ) by norm_num)
  have hp : cosP z = ((((((-9166097/35184372088832) * z + (6806113/274877906944)) * z + (-5965013/4294967296)) * z + (11184803/268435456)) * z + (-1/2)) * z + (1)) := rfl
  rw [hp]
  exact ⟨f5, e5.trans (by norm_num [ulp2]), b5⟩
theorem sinEP_err {y r0 r1 r2 r3 : F32 P} {z : ℝ} (hy : Fin' y) (hY : |val y| ≤ 987/400) (hzY : |z| ≤ 987/400) (hz : |val y - z| ≤ 617/250/16777216)
    (f0 : Fin' r0) (v0 : val r0 = -1591257/8589934592) (h1 : HStep r1 r0 y (2231759/268435456)) (h2 : HStep r2 r1 y (-1398033/8388608)) (h3 : HStep r3 r2 y (1)) :
    Fin' r3 ∧ |val r3 - sinEP z| ≤ 3029/1000 * ulp2 ∧ |sinEP z| ≤ 1464641/1000000 := by
  have e0 : |val r0 - (-1591257/8589934592)| ≤ 0 := by rw [v0]; norm_num
  have b0 : |(-1591257/8589934592:ℝ)| ≤ 1853/10000000 := by rw [abs_le]; constructor <;> norm_num
  have k1 : |(2231759/268435456:ℝ)| ≤ 4157/500000 := by rw [abs_le]; constructor <;> norm_num
  obtain ⟨f1, e1, b1⟩ := horner2 h1 f0 hy e0 b0 hY hz hzY k1 (by norm_num)
  replace e1 := e1.trans (show _ ≤ (1/100:ℝ)/16777216 by norm_num [ulp2, tiny])
  replace b1 := b1.trans (show _ ≤ (2193/250000:ℝ) by norm_num)
  have k2 : |(-1398033/8388608:ℝ)| ≤ 833293/5000000 := by rw [abs_le]; constructor <;> norm_num
  obtain ⟨f2, e2, b2⟩ := horner2 h2 f1 hy e1 b1 hY hz hzY k2 (by norm_num)
  replace e2 := e2.trans (show _ ≤ (257/1000:ℝ)/16777216 by norm_num [ulp2, tiny])
  replace b2 := b2.trans (show _ ≤ (11769/62500:ℝ) by norm_num)
  have k3 : |(1:ℝ)| ≤ 1 := by rw [abs_le]; constructor <;> norm_num
  obtain ⟨f3, e3, b3⟩ := horner2 h3 f2 hy e2 b2 hY hz hzY k3 (by norm_num)
  replace e3 := e3.trans (show _ ≤ (3029/1000:ℝ)/16777216 by norm_num [ulp2, tiny])
  replace b3 := b3.trans (show _ ≤ (1464641/1000000:ℝ) by norm_num)
  have hp : sinEP z = ((((-1591257/8589934592) * z + (2231759/268435456)) * z + (-1398033/8388608)) * z + (1)) := rfl
  rw [hp]
  exact ⟨f3, e3.trans (by norm_num [ulp2]), b3⟩
theorem cosEP_err {y r0 r1 r2 r3 : F32 P} {z : ℝ} (hy : Fin' y) (hY : |val y| ≤ 987/400) (hzY : |z| ≤ 987/400) (hz : |val y - z| ≤ 617/250/16777216)
    (f0 : Fin' r0) (v0 : val r0 = -10919899/8589934592) (h1 : HStep r1 r0 y (11138439/268435456)) (h2 : HStep r2 r1 y (-8387391/16777216)) (h3 : HStep r3 r2 y (1)) :
    Fin' r3 ∧ |val r3 - cosEP z| ≤ 3939/500 * ulp2 ∧ |cosEP z| ≤ 2505311/1000000 := by
  have e0 : |val r0 - (-10919899/8589934592)| ≤ 0 := by rw [v0]; norm_num
  have b0 : |(-10919899/8589934592:ℝ)| ≤ 12713/10000000 := by rw [abs_le]; constructor <;> norm_num
  have k1 : |(11138439/268435456:ℝ)| ≤ 20747/500000 := by rw [abs_le]; constructor <;> norm_num
  obtain ⟨f1, e1, b1⟩ := horner2 h1 f0 hy e0 b0 hY hz hzY k1 (by norm_num)
  replace e1 := e1.trans (show _ ≤ (51/1000:ℝ)/16777216 by norm_num [ulp2, tiny])
  replace b1 := b1.trans (show _ ≤ (44631/1000000:ℝ) by norm_num)
  have k2 : |(-8387391/16777216:ℝ)| ≤ 199971/400000 := by rw [abs_le]; constructor <;> norm_num
  obtain ⟨f2, e2, b2⟩ := horner2 h2 f1 hy e1 b1 hY hz hzY k2 (by norm_num)
  replace e2 := e2.trans (show _ ≤ (957/1000:ℝ)/16777216 by norm_num [ulp2, tiny])
  replace b2 := b2.trans (show _ ≤ (122011/200000:ℝ) by norm_num)
  have k3 : |(1:ℝ)| ≤ 1 := by rw [abs_le]; constructor <;> norm_num
  obtain ⟨f3, e3, b3⟩ := horner2 h3 f2 hy e2 b2 hY hz hzY k3 (by norm_num)
  replace e3 := e3.trans (show _ ≤ (3939/500:ℝ)/16777216 by norm_num [ulp2, tiny])
  replace b3 := b3.trans (show _ ≤ (2505311/1000000:ℝ) by norm_num)
  have hp : cosEP z = ((((-10919899/8589934592) * z + (11138439/268435456)) * z + (-8387391/16777216)) * z + (1)) := rfl
  rw [hp]
  exact ⟨f3, e3.trans (by norm_num [ulp2]), b3⟩
theorem arcP_err {y r0 r1 r2 r3 r4 r5 r6 r7 : F32 P} {z : ℝ} (hy : Fin' y) (hY : |val y| ≤ 1) (hzY : |z| ≤ 1) (hz : |val y - z| ≤ 0)
    (f0 : Fin' r0) (v0 : val r0 = -2711179/2147483648) (h1 : HStep r1 r0 y (14323909/2147483648)) (h2 : HStep r2 r1 y (-4587059/268435456)) (h3 : HStep r3 r2 y (2073119/67108864)) (h4 : HStep r4 r3 y (-6734281/134217728)) (h5 : HStep r5 r4 y (5971279/67108864)) (h6 : HStep r6 r5 y (-7200741/33554432)) (h7 : HStep r7 r6 y (6588397/4194304)) :
    Fin' r7 ∧ |val r7 - arcP z| ≤ 717/200 * ulp2 ∧ |arcP z| ≤ 123779/62500 := by
  have e0 : |val r0 - (-2711179/2147483648)| ≤ 0 := by rw [v0]; norm_num
  have b0 : |(-2711179/2147483648:ℝ)| ≤ 101/80000 := by rw [abs_le]; constructor <;> norm_num
  have k1 : |(14323909/2147483648:ℝ)| ≤ 66701/10000000 := by rw [abs_le]; constructor <;> norm_num
  obtain ⟨f1, e1, b1⟩ := horner2 h1 f0 hy e0 b0 hY hz hzY k1 (by norm_num)
  replace e1 := e1.trans (show _ ≤ (1/100:ℝ)/16777216 by norm_num [ulp2, tiny])
  replace b1 := b1.trans (show _ ≤ (7933/1000000:ℝ) by norm_num)
  have k2 : |(-4587059/268435456:ℝ)| ≤ 85441/5000000 := by rw [abs_le]; constructor <;> norm_num
  obtain ⟨f2, e2, b2⟩ := horner2 h2 f1 hy e1 b1 hY hz hzY k2 (by norm_num)
  replace e2 := e2.trans (show _ ≤ (43/1000:ℝ)/16777216 by norm_num [ulp2, tiny])
  replace b2 := b2.trans (show _ ≤ (12511/500000:ℝ) by norm_num)
  have k3 : |(2073119/67108864:ℝ)| ≤ 308919/10000000 := by rw [abs_le]; constructor <;> norm_num
  obtain ⟨f3, e3, b3⟩ := horner2 h3 f2 hy e2 b2 hY hz hzY k3 (by norm_num)
  replace e3 := e3.trans (show _ ≤ (31/250:ℝ)/16777216 by norm_num [ulp2, tiny])
  replace b3 := b3.trans (show _ ≤ (27957/500000:ℝ) by norm_num)
  have k4 : |(-6734281/134217728:ℝ)| ≤ 31359/625000 := by rw [abs_le]; constructor <;> norm_num
  obtain ⟨f4, e4, b4⟩ := horner2 h4 f3 hy e3 b3 hY hz hzY k4 (by norm_num)
  replace e4 := e4.trans (show _ ≤ (287/1000:ℝ)/16777216 by norm_num [ulp2, tiny])
  replace b4 := b4.trans (show _ ≤ (106089/1000000:ℝ) by norm_num)
  have k5 : |(5971279/67108864:ℝ)| ≤ 88979/1000000 := by rw [abs_le]; constructor <;> norm_num
  obtain ⟨f5, e5, b5⟩ := horner2 h5 f4 hy e4 b4 hY hz hzY k5 (by norm_num)
  replace e5 := e5.trans (show _ ≤ (589/1000:ℝ)/16777216 by norm_num [ulp2, tiny])
  replace b5 := b5.trans (show _ ≤ (48767/250000:ℝ) by norm_num)
  have k6 : |(-7200741/33554432:ℝ)| ≤ 2145989/10000000 := by rw [abs_le]; constructor <;> norm_num
  obtain ⟨f6, e6, b6⟩ := horner2 h6 f5 hy e5 b5 hY hz hzY k6 (by norm_num)
  replace e6 := e6.trans (show _ ≤ (597/500:ℝ)/16777216 by norm_num [ulp2, tiny])
  replace b6 := b6.trans (show _ ≤ (409667/1000000:ℝ) by norm_num)
  have k7 : |(6588397/4194304:ℝ)| ≤ 15707963/10000000 := by rw [abs_le]; constructor <;> norm_num
  obtain ⟨f7, e7, b7⟩ := horner2 h7 f6 hy e6 b6 hY hz hzY k7 (by norm_num)
  replace e7 := e7.trans (show _ ≤ (717/200:ℝ)/16777216 by norm_num [ulp2, tiny])
  replace b7 := b7.trans (show _ ≤ (123779/62500:ℝ) by norm_num)
  have hp : arcP z = ((((((((-2711179/2147483648) * z + (14323909/2147483648)) * z + (-4587059/268435456)) * z + (2073119/67108864)) * z + (-6734281/134217728)) * z + (5971279/67108864)) * z + (-7200741/33554432)) * z + (6588397/4194304)) := rfl
  rw [hp]
  exact ⟨f7, e7.trans (by norm_num [ulp2]), b7⟩
theorem arcEP_err {y r0 r1 r2 r3 : F32 P} {z : ℝ} (hy : Fin' y) (hY : |val y| ≤ 1) (hzY : |z| ≤ 1) (hz : |val y - z| ≤ 0)
    (f0 : Fin' r0) (v0 : val r0 = -628451/33554432) (h1 : HStep r1 r0 y (9967143/134217728)) (h2 : HStep r2 r1 y (-3558689/16777216)) (h3 : HStep r3 r2 y (3294057/2097152)) :
    Fin' r3 ∧ |val r3 - arcEP z| ≤ 673/250 * ulp2 ∧ |arcEP z| ≤ 375167/200000 := by
  have e0 : |val r0 - (-628451/33554432)| ≤ 0 := by rw [v0]; norm_num
  have b0 : |(-628451/33554432:ℝ)| ≤ 187293/10000000 := by rw [abs_le]; constructor <;> norm_num
  have k1 : |(9967143/134217728:ℝ)| ≤ 742611/10000000 := by rw [abs_le]; constructor <;> norm_num
  obtain ⟨f1, e1, b1⟩ := horner2 h1 f0 hy e0 b0 hY hz hzY k1 (by norm_num)
  replace e1 := e1.trans (show _ ≤ (14/125:ℝ)/16777216 by norm_num [ulp2, tiny])
  replace b1 := b1.trans (show _ ≤ (92991/1000000:ℝ) by norm_num)
  have k2 : |(-3558689/16777216:ℝ)| ≤ 265143/1250000 := by rw [abs_le]; constructor <;> norm_num
  obtain ⟨f2, e2, b2⟩ := horner2 h2 f1 hy e1 b1 hY hz hzY k2 (by norm_num)
  replace e2 := e2.trans (show _ ≤ (511/1000:ℝ)/16777216 by norm_num [ulp2, tiny])
  replace b2 := b2.trans (show _ ≤ (152553/500000:ℝ) by norm_num)
  have k3 : |(3294057/2097152:ℝ)| ≤ 1963411/1250000 := by rw [abs_le]; constructor <;> norm_num
  obtain ⟨f3, e3, b3⟩ := horner2 h3 f2 hy e2 b2 hY hz hzY k3 (by norm_num)
  replace e3 := e3.trans (show _ ≤ (673/250:ℝ)/16777216 by norm_num [ulp2, tiny])
  replace b3 := b3.trans (show _ ≤ (375167/200000:ℝ) by norm_num)
  have hp : arcEP z = ((((-628451/33554432) * z + (9967143/134217728)) * z + (-3558689/16777216)) * z + (3294057/2097152)) := rfl
  rw [hp]
  exact ⟨f3, e3.trans (by norm_num [ulp2]), b3⟩
theorem atP_err {y r0 r1 r2 r3 r4 r5 r6 r7 r8 : F32 P} {z : ℝ} (hy : Fin' y) (hY : |val y| ≤ 1000001/1000000) (hzY : |z| ≤ 1000001/1000000) (hz : |val y - z| ≤ 10001/10000/16777216)
    (f0 : Fin' r0) (v0 : val r0 = 6155173/2147483648) (h1 : HStep r1 r0 y (-4339457/268435456)) (h2 : HStep r2 r1 y (5759231/134217728)) (h3 : HStep r3 r2 y (-2526301/33554432)) (h4 : HStep r4 r3 y (14302595/134217728)) (h5 : HStep r5 r4 y (-9535431/67108864)) (h6 : HStep r6 r5 y (13417445/67108864)) (h7 : HStep r7 r6 y (-2796187/8388608)) (h8 : HStep r8 r7 y (1)) :
    Fin' r8 ∧ |val r8 - atP z| ≤ 2247/250 * ulp2 ∧ |atP z| ≤ 479789/250000 := by
  have e0 : |val r0 - (6155173/2147483648)| ≤ 0 := by rw [v0]; norm_num
  have b0 : |(6155173/2147483648:ℝ)| ≤ 28663/10000000 := by rw [abs_le]; constructor <;> norm_num
  have k1 : |(-4339457/268435456:ℝ)| ≤ 80829/5000000 := by rw [abs_le]; constructor <;> norm_num
  obtain ⟨f1, e1, b1⟩ := horner2 h1 f0 hy e0 b0 hY hz hzY k1 (by norm_num)
  replace e1 := e1.trans (show _ ≤ (1/40:ℝ)/16777216 by norm_num [ulp2, tiny])
  replace b1 := b1.trans (show _ ≤ (19033/1000000:ℝ) by norm_num)
  have k2 : |(5759231/134217728:ℝ)| ≤ 429097/10000000 := by rw [abs_le]; constructor <;> norm_num
  obtain ⟨f2, e2, b2⟩ := horner2 h2 f1 hy e1 b1 hY hz hzY k2 (by norm_num)
  replace e2 := e2.trans (show _ ≤ (63/500:ℝ)/16777216 by norm_num [ulp2, tiny])
  replace b2 := b2.trans (show _ ≤ (61943/1000000:ℝ) by norm_num)
  have k3 : |(-2526301/33554432:ℝ)| ≤ 752897/10000000 := by rw [abs_le]; constructor <;> norm_num
  obtain ⟨f3, e3, b3⟩ := horner2 h3 f2 hy e2 b2 hY hz hzY k3 (by norm_num)
  replace e3 := e3.trans (show _ ≤ (97/250:ℝ)/16777216 by norm_num [ulp2, tiny])
  replace b3 := b3.trans (show _ ≤ (137233/1000000:ℝ) by norm_num)
  have k4 : |(14302595/134217728:ℝ)| ≤ 1065627/10000000 := by rw [abs_le]; constructor <;> norm_num
  obtain ⟨f4, e4, b4⟩ := horner2 h4 f3 hy e3 b3 hY hz hzY k4 (by norm_num)
  replace e4 := e4.trans (show _ ≤ (907/1000:ℝ)/16777216 by norm_num [ulp2, tiny])
  replace b4 := b4.trans (show _ ≤ (60949/250000:ℝ) by norm_num)
  have k5 : |(-9535431/67108864:ℝ)| ≤ 142089/1000000 := by rw [abs_le]; constructor <;> norm_num
  obtain ⟨f5, e5, b5⟩ := horner2 h5 f4 hy e4 b4 hY hz hzY k5 (by norm_num)
  replace e5 := e5.trans (show _ ≤ (1781/1000:ℝ)/16777216 by norm_num [ulp2, tiny])
  replace b5 := b5.trans (show _ ≤ (192943/500000:ℝ) by norm_num)
  have k6 : |(13417445/67108864:ℝ)| ≤ 499839/2500000 := by rw [abs_le]; constructor <;> norm_num
  obtain ⟨f6, e6, b6⟩ := horner2 h6 f5 hy e5 b5 hY hz hzY k6 (by norm_num)
  replace e6 := e6.trans (show _ ≤ (3139/1000:ℝ)/16777216 by norm_num [ulp2, tiny])
  replace b6 := b6.trans (show _ ≤ (292911/500000:ℝ) by norm_num)
  have k7 : |(-2796187/8388608:ℝ)| ≤ 666663/2000000 := by rw [abs_le]; constructor <;> norm_num
  obtain ⟨f7, e7, b7⟩ := horner2 h7 f6 hy e6 b6 hY hz hzY k7 (by norm_num)
  replace e7 := e7.trans (show _ ≤ (523/100:ℝ)/16777216 by norm_num [ulp2, tiny])
  replace b7 := b7.trans (show _ ≤ (183831/200000:ℝ) by norm_num)
  have k8 : |(1:ℝ)| ≤ 1 := by rw [abs_le]; constructor <;> norm_num
  obtain ⟨f8, e8, b8⟩ := horner2 h8 f7 hy e7 b7 hY hz hzY k8 (by norm_num)
  replace e8 := e8.trans (show _ ≤ (2247/250:ℝ)/16777216 by norm_num [ulp2, tiny])
  replace b8 := b8.trans (show _ ≤ (479789/250000:ℝ) by norm_num)
  have hp : atP z = (((((((((6155173/2147483648) * z + (-4339457/268435456)) * z + (5759231/134217728)) * z + (-2526301/33554432)) * z + (14302595/134217728)) * z + (-9535431/67108864)) * z + (13417445/67108864)) * z + (-2796187/8388608)) * z + (1)) := rfl
  rw [hp]
  exact ⟨f8, e8.trans (by norm_num [ulp2]), b8⟩
theorem atEP_err {y r0 r1 r2 r3 r4 : F32 P} {z : ℝ} (hy : Fin' y) (hY : |val y| ≤ 1000001/1000000) (hzY : |z| ≤ 1000001/1000000) (hz : |val y - z| ≤ 10001/10000/16777216)
    (f0 : Fin' r0) (v0 : val r0 = 11185759/536870912) (h1 : HStep r1 r0 y (-5713179/67108864)) (h2 : HStep r2 r1 y (6044529/33554432)) (h3 : HStep r3 r2 y (-2770753/8388608)) (h4 : HStep r4 r3 y (2096871/2097152)) :
    Fin' r4 ∧ |val r4 - atEP z| ≤ 2343/500 * ulp2 ∧ |atEP z| ≤ 808139/500000 := by
  have e0 : |val r0 - (11185759/536870912)| ≤ 0 := by rw [v0]; norm_num
  have b0 : |(11185759/536870912:ℝ)| ≤ 208351/10000000 := by rw [abs_le]; constructor <;> norm_num
  have k1 : |(-5713179/67108864:ℝ)| ≤ 851331/10000000 := by rw [abs_le]; constructor <;> norm_num
  obtain ⟨f1, e1, b1⟩ := horner2 h1 f0 hy e0 b0 hY hz hzY k1 (by norm_num)
  replace e1 := e1.trans (show _ ≤ (37/250:ℝ)/16777216 by norm_num [ulp2, tiny])
  replace b1 := b1.trans (show _ ≤ (105969/1000000:ℝ) by norm_num)
  have k2 : |(6044529/33554432:ℝ)| ≤ 1801411/10000000 := by rw [abs_le]; constructor <;> norm_num
  obtain ⟨f2, e2, b2⟩ := horner2 h2 f1 hy e1 b1 hY hz hzY k2 (by norm_num)
  replace e2 := e2.trans (show _ ≤ (647/1000:ℝ)/16777216 by norm_num [ulp2, tiny])
  replace b2 := b2.trans (show _ ≤ (286111/1000000:ℝ) by norm_num)
  have k3 : |(-2770753/8388608:ℝ)| ≤ 660599/2000000 := by rw [abs_le]; constructor <;> norm_num
  obtain ⟨f3, e3, b3⟩ := horner2 h3 f2 hy e2 b2 hY hz hzY k3 (by norm_num)
  replace e3 := e3.trans (show _ ≤ (459/250:ℝ)/16777216 by norm_num [ulp2, tiny])
  replace b3 := b3.trans (show _ ≤ (616411/1000000:ℝ) by norm_num)
  have k4 : |(2096871/2097152:ℝ)| ≤ 9998661/10000000 := by rw [abs_le]; constructor <;> norm_num
  obtain ⟨f4, e4, b4⟩ := horner2 h4 f3 hy e3 b3 hY hz hzY k4 (by norm_num)
  replace e4 := e4.trans (show _ ≤ (2343/500:ℝ)/16777216 by norm_num [ulp2, tiny])
  replace b4 := b4.trans (show _ ≤ (808139/500000:ℝ) by norm_num)
  have hp : atEP z = (((((11185759/536870912) * z + (-5713179/67108864)) * z + (6044529/33554432)) * z + (-2770753/8388608)) * z + (2096871/2097152)) := rfl
  rw [hp]
  exact ⟨f4, e4.trans (by norm_num [ulp2]), b4⟩

end DXM
