import Verif.Matching.Model
import Verif.Geometry.Spec
/-! What is said about places on lanes. -/
namespace Verif.Matching
open Verif.Geometry Classical

/-- Two orientations are the same: they turn every vector to the same vector. -/
def SameTurn (p q : Quat) : Prop := ∀ v, rotate p v = rotate q v

/-- Where the front of something with this orientation points. -/
def heading (q : Quat) : Pt := rotate q ⟨1, 0, 0⟩

/-- Of a heading `f`, the part across a road in the direction `t` is larger than the part along it: it is more than 45 degrees off the road and
off its opposite. The part along the road is `f · t / |t|`; the part across it is measured along the horizontal line across the road. -/
def Sideways (f t : Pt) : Prop :=
  |f.x * t.x + f.y * t.y + f.z * t.z| * Real.sqrt (t.x ^ 2 + t.y ^ 2) < |t.x * f.y - t.y * f.x| * Real.sqrt (t.x ^ 2 + t.y ^ 2 + t.z ^ 2)

/-- The road is not vertical. -/
def Passable (t : Pt) : Prop := t.x ≠ 0 ∨ t.y ≠ 0

/-- `offset` is the distance of `p` from `c` seen from above, positive on the left of the direction `t`, negative on the right. -/
def OffsetOf (c t p : Pt) (offset : ℝ) : Prop :=
  offset ^ 2 = sq2 p c ∧ (0 < t.x * (p.y - c.y) - t.y * (p.x - c.x) → 0 < offset) ∧ (t.x * (p.y - c.y) - t.y * (p.x - c.x) < 0 → offset < 0)

/-- `c` is straight beside the pose: seen from above, it is on the line across it. -/
def Beside (p : Pose) (c : Pt) : Prop :=
  ∃ d, c.x = p.position.x + d * (rotate p.orientation ⟨0, 1, 0⟩).x ∧ c.y = p.position.y + d * (rotate p.orientation ⟨0, 1, 0⟩).y

/-- `o` is the answer of the first lane of the list that does not answer "not here": a place, or a failure (`none`); `some none` if all answer
"not here". -/
def FirstPlace (f : Id → Option (Option LanePose)) (l : List Id) (o : Option (Option LanePose)) : Prop :=
  (o = some none ↔ ∀ i ∈ l, f i = some none) ∧
  ∀ a, a ≠ some none → (o = a ↔ ∃ before i after, l = before ++ i :: after ∧ f i = a ∧ ∀ j ∈ before, f j = some none)

/-- Of the lanes in the list, `id` has the place with the least distance from its centre line; of several such lanes it has the least number. -/
def Closest (f : Id → Option (Option LanePose)) (l : List Id) (id : Id) : Prop :=
  id ∈ l ∧ ∃ x, f id = some (some x) ∧ ∀ j ∈ l, ∀ y, f j = some (some y) → |x.offset| < |y.offset| ∨ (|x.offset| = |y.offset| ∧ id ≤ j)

end Verif.Matching
