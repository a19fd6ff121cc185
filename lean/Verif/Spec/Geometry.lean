import Verif.Spec.Real
import Verif.Model.Collision

/-
Vocabulary of the collision statements: the point sets that the bounding volumes denote, and how real geometry is laid out in the
structs of src/collision.rs.  Points are `Fin 3 → ℝ`; nothing here refers to the code except the struct constructors.
-/

namespace DXM.Spec
open DXM.E

/-- A point (or vector) of space. -/
abbrev Pt := Fin 3 → ℝ

/-- The closed ball. -/
def ball (c : Pt) (r : ℝ) : Set Pt := {p | len (p - c) ≤ r}
/-- The closed axis-aligned box with center `c` and half-sizes `e`. -/
def box (c e : Pt) : Set Pt := {p | ∀ i, |p i - c i| ≤ e i}
/-- The rotation `v ↦ q v q*` of vectors. -/
noncomputable def rot (q : Quaternion ℝ) (v : Pt) : Pt :=
  ![(q * pureQ v * star q).imI, (q * pureQ v * star q).imJ, (q * pureQ v * star q).imK]
/-- The closed oriented box: center `c`, half-sizes `e` along the axes rotated by `q`. -/
noncomputable def obox (c e : Pt) (q : Quaternion ℝ) : Set Pt := {p | ∃ u ∈ box 0 e, p = c + rot q u}
/-- The closed triangle. -/
def tri (v0 v1 v2 : Pt) : Set Pt := {p | ∃ a b c : ℝ, 0 ≤ a ∧ 0 ≤ b ∧ 0 ≤ c ∧ a + b + c = 1 ∧ p = a • v0 + b • v1 + c • v2}
/-- The closed half-line. -/
def ray (o d : Pt) : Set Pt := {p | ∃ t : ℝ, 0 ≤ t ∧ p = o + t • d}
/-- The value of the plane `n·p + d` at `p`: positive in front, negative behind. -/
def planeAt (n : Pt) (d : ℝ) (p : Pt) : ℝ := n ⬝ᵥ p + d
/-- The closed frustum in its own frame, looking along +z. -/
def frustum0 (right left top bottom near far : ℝ) : Set Pt :=
  {u | near ≤ u 2 ∧ u 2 ≤ far ∧ left * u 2 ≤ u 0 ∧ u 0 ≤ right * u 2 ∧ bottom * u 2 ≤ u 1 ∧ u 1 ≤ top * u 2}
/-- The parameters describe a frustum: left of right, bottom below top, near before far and not behind the apex; or, for the frusta of
right-handed projections, which lie at negative z, everything mirrored. -/
def ValidFrustum (right left top bottom near far : ℝ) : Prop :=
  (left ≤ right ∧ bottom ≤ top ∧ 0 ≤ near ∧ near ≤ far) ∨ (right ≤ left ∧ top ≤ bottom ∧ near ≤ far ∧ far ≤ 0)
/-- How far (up to a positive factor per face) the point `u` of the frustum's frame is outside the near, far, right, left, top and bottom
face; negative inside. -/
def frustumFace (right left top bottom near far : ℝ) (k : Fin 6) (u : Pt) : ℝ :=
  ![near - u 2, u 2 - far, u 0 - right * u 2, left * u 2 - u 0, u 1 - top * u 2, bottom * u 2 - u 1] k
/-- The closed frustum with apex `o`, rotated by `q`. -/
def frustum (o : Pt) (q : Quaternion ℝ) (right left top bottom near far : ℝ) : Set Pt :=
  {p | ∃ u ∈ frustum0 right left top bottom near far, p = o + rot q u}

/-- `XMFLOAT3` holding `a`. -/
def f3 (a : Pt) : F3 E := ⟨num (a 0), num (a 1), num (a 2)⟩
/-- The struct of the ball. -/
def sphereOf (c : Pt) (r : ℝ) : BoundingSphere E := ⟨f3 c, num r⟩
/-- The struct of the box. -/
def boxOf (c e : Pt) : BoundingBox E := ⟨f3 c, f3 e⟩
/-- The struct of the oriented box. -/
def oboxOf (c e : Pt) (q : Quaternion ℝ) : BoundingOrientedBox E := ⟨f3 c, f3 e, quat q⟩
/-- The struct of the frustum. -/
def frustumOf (o : Pt) (q : Quaternion ℝ) (right left top bottom near far : ℝ) : BoundingFrustum E :=
  ⟨f3 o, quat q, num right, num left, num top, num bottom, num near, num far⟩

end DXM.Spec
