import Verif.Orca.Model
/-
Vocabulary for the statements about velocities among other entities. Only the structures of the model are used here, not its functions.
-/
namespace Verif.Orca
open Geometry

/-- The vector is level. -/
def Flat (v : Pt) : Prop := v.z = 0

/-- The line has a level direction of length one. -/
def Line.Proper (l : Line) : Prop := l.dir.x ^ 2 + l.dir.y ^ 2 = 1 ∧ l.dir.z = 0

/-- How far the velocity is on the right, the forbidden side, of the line; negative on the left. -/
def excess (l : Line) (v : Pt) : ℝ := l.dir.y * (v.x - l.point.x) - l.dir.x * (v.y - l.point.y)

/-- The line allows the velocity: it is on the line or on its left. -/
def Allows (l : Line) (v : Pt) : Prop := excess l v ≤ 0

/-- The speed of the velocity is at most the limit. -/
def Within (limit : ℝ) (v : Pt) : Prop := v.x ^ 2 + v.y ^ 2 + v.z ^ 2 ≤ limit ^ 2

/-- A level velocity within the limit that all lines allow. -/
def Possible (lines : List Line) (limit : ℝ) (v : Pt) : Prop := Flat v ∧ Within limit v ∧ ∀ l ∈ lines, Allows l v

/-- Square of the distance of two velocities. -/
def apart2 (v w : Pt) : ℝ := (v.x - w.x) ^ 2 + (v.y - w.y) ^ 2 + (v.z - w.z) ^ 2

/-- Two directions are parallel, or clearly not so: the sine of the angle between them is more than a hundred thousandth (as a
`float`). -/
def Clear (d e : Pt) : Prop := d.x * e.y - d.y * e.x = 0 ∨ 10995116 / 2 ^ 40 < |d.x * e.y - d.y * e.x|

/-- Every two of the lines are parallel or clearly not so. -/
def AllClear (lines : List Line) : Prop := ∀ a ∈ lines, ∀ b ∈ lines, Clear a.dir b.dir

/-- For every line, the differences between its direction and those of the other lines, made of length one, are parallel or clearly not
so. -/
def ClearDifferences (lines : List Line) : Prop :=
  ∀ a ∈ lines, ∀ b ∈ lines, ∀ c ∈ lines, ∀ j k : ℝ,
    ((b.dir.x - a.dir.x) * j) ^ 2 + ((b.dir.y - a.dir.y) * j) ^ 2 = 1 →
    ((c.dir.x - a.dir.x) * k) ^ 2 + ((c.dir.y - a.dir.y) * k) ^ 2 = 1 →
    Clear ⟨(b.dir.x - a.dir.x) * j, (b.dir.y - a.dir.y) * j, 0⟩ ⟨(c.dir.x - a.dir.x) * k, (c.dir.y - a.dir.y) * k, 0⟩

/-- The square of the distance between two entities after a time, if one is at the origin and moves with velocity `v`, and the other is at
`p` and moves with velocity `o`; seen from above. -/
def apartAfter (p v o : Pt) (t : ℝ) : ℝ := (p.x + t * (o.x - v.x)) ^ 2 + (p.y + t * (o.y - v.y)) ^ 2

/-- Both sides of the box are longer than zero. -/
def Solid (box : BBox) : Prop := 0 < box.dims.x ∧ 0 < box.dims.y

/-- The ellipse along the box through its corners, turned by the angle, reaches as far as `r` in the direction. -/
def Reaches (box : BBox) (angle direction r : ℝ) : Prop :=
  0 < r ∧ 2 * (r * Real.cos (direction - angle)) ^ 2 / box.dims.x ^ 2 + 2 * (r * Real.sin (direction - angle)) ^ 2 / box.dims.y ^ 2 = 1

/-- `p` is in the direction, away from the origin. -/
def Towards (p : Pt) (direction : ℝ) : Prop := ∃ d > 0, p.x = d * Real.cos direction ∧ p.y = d * Real.sin direction

/-- The relative velocity `v - o` is nearest to one of the two sides, not to the near end, of the set of relative velocities with which the
entity at `p` would be hit within 5 s. -/
def Beside (r : ℝ) (p v o : Pt) : Prop :=
  0 ≤ (v.x - o.x - p.x / 5) * p.x + (v.y - o.y - p.y / 5) * p.y ∨
    ((v.x - o.x - p.x / 5) * p.x + (v.y - o.y - p.y / 5) * p.y) ^ 2 ≤
      r ^ 2 * ((v.x - o.x - p.x / 5) ^ 2 + (v.y - o.y - p.y / 5) ^ 2)

/-- The point is in the box with its middle at `c`, turned by the angle; seen from above. -/
def InBox (c : Pt) (angle : ℝ) (box : BBox) (q : Pt) : Prop :=
  ∃ a b : ℝ, |a| ≤ box.dims.x / 2 ∧ |b| ≤ box.dims.y / 2 ∧ q.x = c.x + (a * Real.cos angle - b * Real.sin angle) ∧
    q.y = c.y + (a * Real.sin angle + b * Real.cos angle)

/-- The way back. -/
def opposite (p : Pt) : Pt := ⟨-p.x, -p.y, -p.z⟩

end Verif.Orca
