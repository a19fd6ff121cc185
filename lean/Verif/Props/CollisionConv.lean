import Verif.Props.CollisionSAT

/-
C106: an oriented box made from an axis-aligned box is the same set of points.
-/

set_option linter.all false

namespace DXM.Props
open DXM.E DXM.Spec DXM.RG DXM.Geo Matrix Classical

/-- C106: `BoundingOrientedBox::CreateFromBoundingBox` keeps the point set. -/
theorem C106_fromBox (c e : Pt) :
    ∃ q : Quaternion ℝ, BoundingOrientedBox.CreateFromBoundingBox (boxOf c e) = oboxOf c e q ∧ Quaternion.normSq q = 1 ∧ obox c e q = box c e := by
  refine ⟨1, ?_, by simp, ?_⟩
  · simp only [BoundingOrientedBox.CreateFromBoundingBox, orientBox, boxOf, oboxOf, q_one]
  · ext p
    simp only [obox, box, Set.mem_setOf_eq, rot_one]
    constructor
    · rintro ⟨u, hu, rfl⟩ i
      simpa using hu i
    · intro h
      exact ⟨p - c, fun i => by simpa using h i, by simp⟩
example : (![1, 2, 3] : Pt) ∈ obox ![0, 2, 4] ![1, 1, 1] 1 := by
  refine ⟨![1, 0, -1], fun i => ?_, ?_⟩
  · fin_cases i <;> norm_num
  · rw [rot_one]; ext i; fin_cases i <;> norm_num

end DXM.Props
