import Verif.Contact.Model
/-
What contact and altitude mean, without the functions of the model.
-/
namespace Verif.Contact
open Verif.Geometry

/-- Cross product. -/
def cross (a b : Pt) : Pt := ⟨a.y * b.z - a.z * b.y, a.z * b.x - a.x * b.z, a.x * b.y - a.y * b.x⟩

/-- Point `p` of the map is point `q` of the frame of the pose: q turned by the unit quaternion (v + 2w(u×v) + 2u×(u×v)), then moved. -/
def At (pose : Pose) (q p : Pt) : Prop :=
  let u : Pt := ⟨pose.orientation.x, pose.orientation.y, pose.orientation.z⟩
  let c := cross u q
  let cc := cross u c
  p.x = pose.position.x + q.x + 2 * pose.orientation.w * c.x + 2 * cc.x ∧
  p.y = pose.position.y + q.y + 2 * pose.orientation.w * c.y + 2 * cc.y ∧
  p.z = pose.position.z + q.z + 2 * pose.orientation.w * c.z + 2 * cc.z

/-- The point belongs to the box of the entity. -/
def InBox (pose : Pose) (box : BBox) (p : Pt) : Prop :=
  ∃ q : Pt, At pose q p ∧ 2 * |q.x - box.center.x| ≤ box.dims.x ∧ 2 * |q.y - box.center.y| ≤ box.dims.y ∧ 2 * |q.z - box.center.z| ≤ box.dims.z

/-- The orientation is a turn about the vertical axis. -/
def Upright (pose : Pose) : Prop :=
  pose.orientation.x = 0 ∧ pose.orientation.y = 0 ∧ pose.orientation.z ^ 2 + pose.orientation.w ^ 2 = 1

/-- No side of the box has a negative length. -/
def Proper (box : BBox) : Prop := 0 ≤ box.dims.x ∧ 0 ≤ box.dims.y ∧ 0 ≤ box.dims.z

/-- Seen from above, the point is a mean of the corners, with weights that are not negative. -/
def InHull (ring : List Pt) (x y : ℝ) : Prop :=
  ∃ w : List ℝ, w.length = ring.length ∧ (∀ v ∈ w, 0 ≤ v) ∧ w.sum = 1 ∧
    x = (List.zipWith (fun v (p : Pt) => v * p.x) w ring).sum ∧ y = (List.zipWith (fun v (p : Pt) => v * p.y) w ring).sum

/-- What boost promises about rectangles: they intersect exactly if they share a point, borders included. -/
def Intersects (intersects : List Pt → List Pt → Bool) : Prop :=
  ∀ r0 r1 : List Pt, r0.length = 5 → r1.length = 5 → (intersects r0 r1 = true ↔ ∃ x y, InHull r0 x y ∧ InHull r1 x y)

/-- Control point `i` of the spline: its place is the length of the curves before it. -/
def ControlPoint (k : Spline) (i : Nat) (s z : ℝ) : Prop :=
  ∃ p : Pt, k.cp[i]? = some p ∧ p.z = z ∧ s = ((k.curves.take i).map Curve.length).sum

/-- The altitude of a control point of the part. -/
def Altitude (u : Sub) (z : ℝ) : Prop := ∃ i s, ControlPoint u.spline i s z ∧ u.start ≤ s ∧ s ≤ u.stop

end Verif.Contact
