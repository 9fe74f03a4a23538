import Verif.Contact.Corridor
import Verif.Contact.Spec
import Verif.Geometry.Spec
/-
What it means that an entity is in the way, without the functions of the model.
-/
namespace Verif.Contact
open Verif.Geometry

/-- Seen from above, the entity covers the place. -/
def Covers (e : Other) (x y : ℝ) : Prop := ∃ z, InBox e.pose e.box ⟨x, y, z⟩

/-- What boost promises about an outline of four sides and a rectangle: they intersect if a point of a side of the first is in the second, and only
if some point that is not beyond the corners of the first is in the second. -/
def Tells (intersects : List Pt → List Pt → Bool) : Prop :=
  ∀ r0 r1 : List Pt, r0.length = 5 → r1.length = 5 →
    ((∃ p : Pt, OnOutline r0 p ∧ InHull r1 p.x p.y) → intersects r0 r1 = true) ∧
    (intersects r0 r1 = true → ∃ x y, InHull r0 x y ∧ InHull r1 x y)

/-- The point is straight to the left (or, if it is negative, to the right) of the trajectory at place `s`, by `offset`. -/
def Beside (k : Spline) (s offset : ℝ) (q : Pt) : Prop :=
  ∃ c t, k.point s = some c ∧ k.tangent s = some t ∧ (t.x ≠ 0 ∨ t.y ≠ 0) ∧ LeftBy c t q offset

end Verif.Contact
