import Verif.Pedestrian.Model
/-
What is meant by "in front", "in the way" and "straight on", apart from how it is computed.
-/
namespace Verif.Pedestrian.Spec

/-- How far a point is ahead of the entity. -/
noncomputable def ahead (b : Body) (p : Point) : ℝ := (p.1 - b.x) * Real.cos b.yaw + (p.2 - b.y) * Real.sin b.yaw

/-- How far a point is to the left of the entity. -/
noncomputable def leftward (b : Body) (p : Point) : ℝ := (p.2 - b.y) * Real.cos b.yaw - (p.1 - b.x) * Real.sin b.yaw

/-- The point that is so far ahead of the entity and to its left. -/
noncomputable def point (b : Body) (x y : ℝ) : Point := (b.x + x * Real.cos b.yaw - y * Real.sin b.yaw, b.y + x * Real.sin b.yaw + y * Real.cos b.yaw)

/-- The reference point of the entity is inside its box, between front and rear. -/
def Usual (b : Body) : Prop := 0 ≤ b.cx + b.length / 2 ∧ b.cx - b.length / 2 < 0 ∧ (b.cy + b.width / 2 ≠ 0 ∨ b.cx + b.length / 2 ≠ 0) ∧
  (b.cy - b.width / 2 ≠ 0 ∨ b.cx + b.length / 2 ≠ 0)

/-- The strip in front of the box, so many metres long. -/
def InStrip (b : Body) (h : ℝ) (p : Point) : Prop :=
  b.cx + b.length / 2 ≤ ahead b p ∧ ahead b p ≤ b.cx + b.length / 2 + h ∧ b.cy - b.width / 2 ≤ leftward b p ∧ leftward b p ≤ b.cy + b.width / 2

/-- A point is between two points. -/
def Between (p q r : Point) : Prop := ∃ t : ℝ, 0 ≤ t ∧ t ≤ 1 ∧ r = (p.1 + t * (q.1 - p.1), p.2 + t * (q.2 - p.2))

/-- The sides of a closed ring. -/
def sides (ring : List Point) : List (Point × Point) := ring.zip ring.tail

/-- On which side of the line from `a` to `b` the point `p` is: positive on the left. -/
def turn (a b p : Point) : ℝ := (b.1 - a.1) * (p.2 - a.2) - (p.1 - a.1) * (b.2 - a.2)

open Classical in
/-- Whether a side passes upward on the right of a point, or downward. -/
noncomputable def passes (p : Point) (s : Point × Point) : ℤ :=
  if s.1.2 ≤ p.2 ∧ p.2 < s.2.2 ∧ 0 < turn s.1 s.2 p then 1 else if s.2.2 ≤ p.2 ∧ p.2 < s.1.2 ∧ turn s.1 s.2 p < 0 then -1 else 0

/-- How often a ring goes around a point: sides that pass on its right upward less those that pass downward. -/
noncomputable def winding (ring : List Point) (p : Point) : ℤ := ((sides ring).map (passes p)).sum

/-- A point is on a ring or inside it. -/
def Covered (ring : List Point) (p : Point) : Prop := (∃ s ∈ sides ring, Between s.1 s.2 p) ∨ winding ring p ≠ 0

/-- Rings are found to intersect only if they have a point in common. -/
def Honest (g : Boost) : Prop := ∀ a b, g.intersects a b = true → ∃ p, Covered a p ∧ Covered b p

/-- The tests of Boost agree with each other, and do not depend on the order. -/
structure Lawful (g : Boost) : Prop where
  symm : ∀ a b, g.intersects a b = g.intersects b a
  not : ∀ a b, g.disjoint a b = !g.intersects a b

/-- The ring that is taken for the space in front of the pedestrian. -/
noncomputable def area (b : Body) (h : ℝ) : List Point :=
  [point b (b.cx + b.length / 2) (b.cy + b.width / 2), point b (b.cx + b.length / 2 + h) (b.cy + b.width / 2),
    point b (b.cx + b.length / 2) (b.cy - b.width / 2), point b (b.cx + b.length / 2 + h) (b.cy - b.width / 2),
    point b (b.cx + b.length / 2) (b.cy + b.width / 2)]

/-- The outline of an entity. -/
noncomputable def outline (b : Body) : List Point :=
  [point b (b.cx + b.length / 2) (b.cy + b.width / 2), point b (b.cx - b.length / 2) (b.cy + b.width / 2),
    point b (b.cx - b.length / 2) (b.cy - b.width / 2), point b (b.cx + b.length / 2) (b.cy - b.width / 2),
    point b (b.cx + b.length / 2) (b.cy + b.width / 2)]

/-- An entity whose middle is not behind the pedestrian and not further away than the horizon, and that is found to intersect the area in front. -/
def Seen (g : Boost) (b : Body) (h : ℝ) (o : Body) : Prop :=
  (o.x - b.x) ^ 2 + (o.y - b.y) ^ 2 + (o.z - b.z) ^ 2 ≤ h ^ 2 ∧ 0 ≤ ahead b (o.x, o.y) ∧ g.intersects (area b h) (outline o) = true

/-- A pedestrian who looks around, and not along the waypoints. -/
def Looks (v : View) : Prop := v.aware = true ∧ v.seeAround = true ∧ v.byTrajectory = false

/-- A pedestrian who moves only along its heading. -/
def Straight (w : Walker) : Prop := w.side = 0 ∧ w.sideAcceleration = 0 ∧ w.spin = 0 ∧ w.spinAcceleration = 0

/-- The poses on lanes that the map gives are those of points on them. -/
def Consistent (m : Map) : Prop := ∀ p i, m.near p = some i → ∃ s o y, 0 ≤ s ∧ s ≤ m.length i ∧ m.toMap ⟨i, s, o, y⟩ = p

end Verif.Pedestrian.Spec
