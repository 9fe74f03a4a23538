import Verif.Grid.Spec
import Mathlib.Analysis.Convex.Hull
/-
What can be seen from the origin, independent of the code.
-/
namespace Verif.Grid.Spec

/-- The point is on the grid, of which `w` is half of the width and `h` half of the height, with the origin in its middle. -/
def OnGrid (w h : ℝ) (p : Point) : Prop := |p.1| ≤ w ∧ |p.2| ≤ h

/-- All points are on one side of a line through the origin. -/
def Apart (ps : List Point) : Prop := ∃ d : Point, ∀ p ∈ ps, 0 < d.1 * p.1 + d.2 * p.2

/-- The convex object with the given corners. -/
def Body (ps : List Point) : Set Point := convexHull ℝ {p | p ∈ ps}

/-- On the way from the origin to the point one meets a set before one reaches the point. -/
def Behind (s : Set Point) (r : Point) : Prop := ∃ t : ℝ, 0 < t ∧ t < 1 ∧ t • r ∈ s

/-- The point is not to the right of any edge of a polygon. -/
def LeftOfEdges (ps : List Point) (r : Point) : Prop := ∀ p q, Edge ps p q → 0 ≤ area p q r

end Verif.Grid.Spec
