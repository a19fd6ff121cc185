import Verif.Lemmas.SpecSimp
import Verif.Spec.Geometry
import Mathlib.Analysis.InnerProductSpace.PiL2

/-
Real geometry of balls, boxes, segments and planes on `Fin 3 → ℝ`, independent of the code.
-/

set_option linter.all false

namespace DXM.RG
open DXM.Spec Matrix

theorem len_norm {n : ℕ} (a : Fin n → ℝ) : len a = ‖(WithLp.toLp 2 a : EuclideanSpace ℝ (Fin n))‖ := by
  rw [EuclideanSpace.norm_eq, len]
  congr 1
  simp [dotProduct, pow_two]

theorem len_add_le {n : ℕ} (a b : Fin n → ℝ) : len (a + b) ≤ len a + len b := by
  rw [len_norm, len_norm, len_norm, WithLp.toLp_add]; exact norm_add_le _ _
theorem len_neg {n : ℕ} (a : Fin n → ℝ) : len (-a) = len a := by simp [len]
theorem len_sub_comm {n : ℕ} (a b : Fin n → ℝ) : len (a - b) = len (b - a) := by rw [← len_neg, neg_sub]
theorem len_sub_le {n : ℕ} (a b c : Fin n → ℝ) : len (a - c) ≤ len (a - b) + len (b - c) := by
  have := len_add_le (a - b) (b - c)
  rwa [sub_add_sub_cancel] at this
theorem len_eq_zero {n : ℕ} {a : Fin n → ℝ} : len a = 0 ↔ a = 0 := by
  constructor
  · intro h; by_contra h'; exact (len_pos h').ne' h
  · rintro rfl; simp [len]
@[simp] theorem len_zero {n : ℕ} : len (0 : Fin n → ℝ) = 0 := len_eq_zero.2 rfl
theorem len_le_iff {n : ℕ} {a : Fin n → ℝ} {r : ℝ} (hr : 0 ≤ r) : len a ≤ r ↔ a ⬝ᵥ a ≤ r * r := by
  rw [← len_sq]; exact (mul_self_le_mul_self_iff (len_nonneg a) hr)
theorem cs {n : ℕ} (a b : Fin n → ℝ) : a ⬝ᵥ b ≤ len a * len b := by
  have := real_inner_le_norm (WithLp.toLp 2 b : EuclideanSpace ℝ (Fin n)) (WithLp.toLp 2 a)
  rw [len_norm, len_norm, mul_comm]
  refine le_trans (le_of_eq ?_) this
  simp [PiLp.inner_apply, dotProduct]
theorem cs_abs {n : ℕ} (a b : Fin n → ℝ) : |a ⬝ᵥ b| ≤ len a * len b := by
  refine abs_le.2 ⟨?_, cs a b⟩
  have := cs (-a) b
  rw [neg_dotProduct, len_neg] at this; linarith

/-! balls -/
theorem mem_ball {p c : Pt} {r : ℝ} : p ∈ ball c r ↔ len (p - c) ≤ r := Iff.rfl

/-- A unit vector along `b - a` (any unit vector when they are equal). -/
theorem exists_dir (v : Pt) : ∃ n : Pt, len n = 1 ∧ v = len v • n := by
  by_cases h : v = 0
  · refine ⟨![1, 0, 0], by simp [len, dotProduct, Fin.sum_univ_three], by simp [h]⟩
  · refine ⟨(len v)⁻¹ • v, len_unit h, ?_⟩
    rw [smul_smul, mul_inv_cancel₀ (len_pos h).ne', one_smul]

theorem ball_inter (a b : Pt) (r s : ℝ) (hr : 0 ≤ r) (hs : 0 ≤ s) : (ball a r ∩ ball b s).Nonempty ↔ len (b - a) ≤ r + s := by
  constructor
  · rintro ⟨p, h1, h2⟩
    have := len_sub_le b p a
    rw [len_sub_comm b p] at this
    have h1 := mem_ball.1 h1; have h2 := mem_ball.1 h2; linarith
  · intro h
    obtain ⟨n, hn, hv⟩ := exists_dir (b - a)
    have hd := len_nonneg (b - a)
    refine ⟨a + min r (len (b - a)) • n, ?_, ?_⟩
    · show len _ ≤ r
      rw [add_sub_cancel_left, len_smul, hn, mul_one, abs_of_nonneg (le_min hr hd)]; exact min_le_left _ _
    · show len _ ≤ s
      have : a + min r (len (b - a)) • n - b = (min r (len (b - a)) - len (b - a)) • n := by
        rw [sub_smul, ← hv]; module
      rw [this, len_smul, hn, mul_one, abs_le]
      rcases le_total r (len (b - a)) with h' | h'
      · rw [min_eq_left h']; constructor <;> linarith
      · rw [min_eq_right h']; constructor <;> linarith

theorem ball_subset (a b : Pt) (r s : ℝ) (hs : 0 ≤ s) : ball b s ⊆ ball a r ↔ len (b - a) + s ≤ r := by
  constructor
  · intro h
    obtain ⟨n, hn, hv⟩ := exists_dir (b - a)
    have : b + s • n ∈ ball a r := h (by
      show len _ ≤ s
      rw [add_sub_cancel_left, len_smul, hn, mul_one, abs_of_nonneg hs])
    have h2 : b + s • n - a = (len (b - a) + s) • n := by rw [add_smul, ← hv]; module
    rw [mem_ball, h2, len_smul, hn, mul_one, abs_of_nonneg (add_nonneg (len_nonneg _) hs)] at this
    exact this
  · intro h p hp
    have := len_sub_le p b a
    have := mem_ball.1 hp
    exact mem_ball.2 (by linarith)

/-- A ball containing two points at distance `2 ρ` has radius at least `ρ`, and if exactly `ρ` its center is the midpoint. -/
theorem two_points {a b c : Pt} {r : ℝ} (ha : a ∈ ball c r) (hb : b ∈ ball c r) : len (b - a) ≤ 2 * r := by
  have := len_sub_le b c a
  rw [len_sub_comm c a] at this
  have := mem_ball.1 ha; have := mem_ball.1 hb; linarith
theorem mid_unique {a b c : Pt} {r : ℝ} (ha : a ∈ ball c r) (hb : b ∈ ball c r) (h : len (b - a) = 2 * r) : c = (1/2 : ℝ) • (a + b) := by
  have hr : 0 ≤ r := le_trans (len_nonneg _) ha
  have h1 : (a - c) ⬝ᵥ (a - c) ≤ r * r := (len_le_iff hr).1 ha
  have h2 : (b - c) ⬝ᵥ (b - c) ≤ r * r := (len_le_iff hr).1 hb
  have h3 : (b - a) ⬝ᵥ (b - a) = 4 * (r * r) := by rw [← len_sq, h]; ring
  have h4 : (c - (1/2 : ℝ) • (a + b)) ⬝ᵥ (c - (1/2 : ℝ) • (a + b)) ≤ 0 := by
    have : (c - (1/2 : ℝ) • (a + b)) ⬝ᵥ (c - (1/2 : ℝ) • (a + b))
        = ((a - c) ⬝ᵥ (a - c)) / 2 + ((b - c) ⬝ᵥ (b - c)) / 2 - ((b - a) ⬝ᵥ (b - a)) / 4 := by
      simp only [dotProduct, Fin.sum_univ_three, Pi.sub_apply, Pi.smul_apply, Pi.add_apply, smul_eq_mul]; ring
    rw [this]; linarith
  have h5 : len (c - (1/2 : ℝ) • (a + b)) = 0 := by
    unfold len
    rw [show (c - (1/2 : ℝ) • (a + b)) ⬝ᵥ (c - (1/2 : ℝ) • (a + b)) = 0 from le_antisymm h4 (dot_self_nonneg _), Real.sqrt_zero]
  exact sub_eq_zero.1 (len_eq_zero.1 h5)

/-! boxes -/
theorem mem_box {p c e : Pt} : p ∈ box c e ↔ ∀ i, c i - e i ≤ p i ∧ p i ≤ c i + e i := by
  refine forall_congr' fun i => ?_
  rw [abs_le]; constructor <;> rintro ⟨h1, h2⟩ <;> constructor <;> linarith
theorem box_inter (a e b f : Pt) (he : ∀ i, 0 ≤ e i) (hf : ∀ i, 0 ≤ f i) :
    (box a e ∩ box b f).Nonempty ↔ ∀ i, a i - e i ≤ b i + f i ∧ b i - f i ≤ a i + e i := by
  constructor
  · rintro ⟨p, h1, h2⟩ i
    have := mem_box.1 h1 i; have := mem_box.1 h2 i
    constructor <;> linarith
  · intro h
    refine ⟨fun i => max (a i - e i) (b i - f i), mem_box.2 fun i => ⟨le_max_left _ _, max_le ?_ (h i).2⟩, mem_box.2 fun i => ⟨le_max_right _ _, max_le (h i).1 ?_⟩⟩
    · linarith [he i]
    · linarith [hf i]
theorem box_subset (a e b f : Pt) (hf : ∀ i, 0 ≤ f i) : box b f ⊆ box a e ↔ ∀ i, a i - e i ≤ b i - f i ∧ b i + f i ≤ a i + e i := by
  constructor
  · intro h i
    have h1 := mem_box.1 (h (mem_box.2 fun j => ⟨le_refl _, by linarith [hf j]⟩ : (fun j => b j - f j) ∈ box b f)) i
    have h2 := mem_box.1 (h (mem_box.2 fun j => ⟨by linarith [hf j], le_refl _⟩ : (fun j => b j + f j) ∈ box b f)) i
    exact ⟨h1.1, h2.2⟩
  · intro h p hp
    refine mem_box.2 fun i => ?_
    have := mem_box.1 hp i; have := h i
    constructor <;> linarith
theorem box_ext (a e b f : Pt) (h1 : ∀ i, a i - e i = b i - f i) (h2 : ∀ i, a i + e i = b i + f i) : a = b ∧ e = f :=
  ⟨funext fun i => by linarith [h1 i, h2 i], funext fun i => by linarith [h1 i, h2 i]⟩

/-- The point of the box nearest to `p`. -/
noncomputable def clampB (a e p : Pt) : Pt := fun i => max (a i - e i) (min (p i) (a i + e i))
theorem clampB_mem (a e p : Pt) (he : ∀ i, 0 ≤ e i) : clampB a e p ∈ box a e :=
  mem_box.2 fun i => ⟨le_max_left _ _, max_le (by linarith [he i]) (min_le_right _ _)⟩
theorem clampB_near (a e p q : Pt) (hq : q ∈ box a e) : (p - clampB a e p) ⬝ᵥ (p - clampB a e p) ≤ (p - q) ⬝ᵥ (p - q) := by
  refine Finset.sum_le_sum fun i _ => ?_
  have := mem_box.1 hq i
  simp only [Pi.sub_apply, clampB]
  rcases le_total (p i) (a i + e i) with h | h
  · rw [min_eq_left h]
    rcases le_total (a i - e i) (p i) with h' | h'
    · rw [max_eq_right h']; nlinarith [mul_self_nonneg (p i - q i)]
    · rw [max_eq_left h']; nlinarith
  · rw [min_eq_right h, max_eq_right (by linarith)]; nlinarith
theorem ball_box (a e b : Pt) (r : ℝ) (hr : 0 ≤ r) (he : ∀ i, 0 ≤ e i) :
    (box a e ∩ ball b r).Nonempty ↔ (b - clampB a e b) ⬝ᵥ (b - clampB a e b) ≤ r * r := by
  constructor
  · rintro ⟨p, h1, h2⟩
    have h3 := clampB_near a e b p h1
    rw [mem_ball, len_sub_comm, len_le_iff hr] at h2
    exact h3.trans h2
  · intro h
    exact ⟨clampB a e b, clampB_mem a e b he, by rw [mem_ball, len_sub_comm, len_le_iff hr]; exact h⟩
theorem abs_le_len {n : ℕ} (a : Fin n → ℝ) (i : Fin n) : |a i| ≤ len a := by
  refine abs_le_of_sq_le_sq ?_ (len_nonneg a)
  rw [pow_two, pow_two, len_sq]
  exact Finset.single_le_sum (f := fun j => a j * a j) (fun j _ => mul_self_nonneg _) (Finset.mem_univ i)
theorem ball_subset_box (a e b : Pt) (r : ℝ) (hr : 0 ≤ r) : ball b r ⊆ box a e ↔ ∀ i, a i - e i ≤ b i - r ∧ b i + r ≤ a i + e i := by
  constructor
  · intro h i
    have unit : ∀ t : ℝ, |t| = r → b + t • Pi.single i (1:ℝ) ∈ box a e := by
      intro t ht
      apply h
      rw [mem_ball, add_sub_cancel_left, len_smul, ht]
      simp [len]
    have h1 := mem_box.1 (unit r (abs_of_nonneg hr)) i
    have h2 := mem_box.1 (unit (-r) (by rw [abs_neg, abs_of_nonneg hr])) i
    simp only [Pi.add_apply, Pi.smul_apply, Pi.single_eq_same, smul_eq_mul, mul_one] at h1 h2
    constructor <;> linarith [h1.1, h1.2, h2.1, h2.2]
  · intro h p hp
    refine mem_box.2 fun i => ?_
    have h1 := (abs_le_len (p - b) i).trans hp
    rw [Pi.sub_apply, abs_le] at h1
    have := h i
    constructor <;> linarith [h1.1, h1.2]

/-- Among the corners of a box one is at least as far from any given center as any given point of the box. -/
theorem corner_far (e p : Pt) (o : Pt) (hp : p ∈ box o e) :
    ∃ s : Fin 3 → ℝ, (∀ i, s i = 1 ∨ s i = -1) ∧ p ⬝ᵥ p ≤ (o + e * s) ⬝ᵥ (o + e * s) := by
  refine ⟨fun i => if 0 ≤ o i then 1 else -1, fun i => by dsimp only; split_ifs <;> simp, Finset.sum_le_sum fun i _ => ?_⟩
  have := mem_box.1 hp i
  simp only [Pi.add_apply, Pi.mul_apply]
  split_ifs with h
  · nlinarith
  · nlinarith
theorem corner_mem (e o s : Pt) (he : ∀ i, 0 ≤ e i) (hs : ∀ i, s i = 1 ∨ s i = -1) : o + e * s ∈ box o e := by
  refine mem_box.2 fun i => ?_
  have := he i
  rcases hs i with h | h <;> simp only [Pi.add_apply, Pi.mul_apply, h] <;> constructor <;> linarith

/-! planes -/
theorem plane_ball (n a : Pt) (d r : ℝ) (hn : len n = 1) (hr : 0 ≤ r) :
    ((∀ p ∈ ball a r, 0 < planeAt n d p) ↔ r < planeAt n d a) ∧ ((∀ p ∈ ball a r, planeAt n d p < 0) ↔ planeAt n d a < -r) := by
  have nn : n ⬝ᵥ n = 1 := by rw [← len_sq, hn]; ring
  have sh : ∀ t : ℝ, planeAt n d (a + t • n) = planeAt n d a + t := by
    intro t; unfold planeAt; rw [dotProduct_add, dotProduct_smul, nn, smul_eq_mul]; ring
  have mem : ∀ t : ℝ, |t| = r → a + t • n ∈ ball a r := by
    intro t ht; rw [mem_ball, add_sub_cancel_left, len_smul, hn, mul_one, ht]
  have bd : ∀ p ∈ ball a r, |planeAt n d p - planeAt n d a| ≤ r := by
    intro p hp
    have : planeAt n d p - planeAt n d a = n ⬝ᵥ (p - a) := by unfold planeAt; rw [dotProduct_sub]; ring
    rw [this]
    have := cs_abs n (p - a)
    rw [hn, one_mul] at this
    exact this.trans hp
  refine ⟨⟨fun h => ?_, fun h p hp => ?_⟩, ⟨fun h => ?_, fun h p hp => ?_⟩⟩
  · have := h _ (mem (-r) (by rw [abs_neg, abs_of_nonneg hr])); rw [sh] at this; linarith
  · have := (abs_le.1 (bd p hp)).1; linarith
  · have := h _ (mem r (abs_of_nonneg hr)); rw [sh] at this; linarith
  · have := (abs_le.1 (bd p hp)).2; linarith

theorem plane_box (n a e : Pt) (d : ℝ) (he : ∀ i, 0 ≤ e i) :
    ((∀ p ∈ box a e, 0 < planeAt n d p) ↔ e ⬝ᵥ |n| < planeAt n d a) ∧ ((∀ p ∈ box a e, planeAt n d p < 0) ↔ planeAt n d a < -(e ⬝ᵥ |n|)) := by
  have bd : ∀ p ∈ box a e, |planeAt n d p - planeAt n d a| ≤ e ⬝ᵥ |n| := by
    intro p hp
    have : planeAt n d p - planeAt n d a = n ⬝ᵥ (p - a) := by unfold planeAt; rw [dotProduct_sub]; ring
    rw [this]
    refine (Finset.abs_sum_le_sum_abs _ _).trans (Finset.sum_le_sum fun i _ => ?_)
    rw [abs_mul, mul_comm]
    exact mul_le_mul_of_nonneg_right (hp i) (abs_nonneg _)
  have ext : ∀ k : ℝ, (k = 1 ∨ k = -1) → ∃ p ∈ box a e, planeAt n d p = planeAt n d a + k * (e ⬝ᵥ |n|) := by
    intro k hk
    refine ⟨fun i => a i + k * (if 0 ≤ n i then e i else -e i), mem_box.2 fun i => ?_, ?_⟩
    · have := he i
      rcases hk with rfl | rfl <;> split_ifs <;> constructor <;> linarith
    · unfold planeAt dotProduct
      simp only [Fin.sum_univ_three, Pi.abs_apply]
      have : ∀ i, n i * (a i + k * (if 0 ≤ n i then e i else -e i)) = n i * a i + k * (e i * |n i|) := by
        intro i
        split_ifs with h
        · rw [abs_of_nonneg h]; ring
        · rw [abs_of_neg (not_le.1 h)]; ring
      rw [this, this, this]; ring
  refine ⟨⟨fun h => ?_, fun h p hp => ?_⟩, ⟨fun h => ?_, fun h p hp => ?_⟩⟩
  · obtain ⟨p, hp, e⟩ := ext (-1) (Or.inr rfl); have := h p hp; rw [e] at this; linarith
  · have := (abs_le.1 (bd p hp)).1; linarith
  · obtain ⟨p, hp, e⟩ := ext 1 (Or.inl rfl); have := h p hp; rw [e] at this; linarith
  · have := (abs_le.1 (bd p hp)).2; linarith

end DXM.RG
