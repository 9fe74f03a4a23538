import Verif.Grid.Spec
import Verif.Geometry.Turn
/-
What an object hides: `OccupancyGridBuilder::makeInvisibleArea`,
/repo/simulation/simple_sensor_simulator/src/sensor_simulation/occupancy_grid/occupancy_grid_builder.cpp, called OB below.

The sensor is at the origin. Numbers are real numbers, and a division by zero gives zero instead of an infinite value.
-/
namespace Verif.Grid
open Classical

/-- The corners of the grid, OB:114-119, for half of its width `w` and half of its height `h`. -/
noncomputable def corner (w h : ℝ) (i : Nat) : ℝ × ℝ :=
  match i % 4 with
  | 0 => (-w, -h)
  | 1 => (w, -h)
  | 2 => (w, h)
  | _ => (-w, h)

/-- The check whether the polygon covers the origin, OB:124-129. -/
noncomputable def coversOrigin (ps : List (ℝ × ℝ)) : Bool :=
  (ps.zip (ps.drop 1 ++ ps.take 1)).all fun e => e.1.1 * e.2.2 - e.2.1 * e.1.2 < 0

/-- `projection`, OB:135-146. -/
noncomputable def projection (w h : ℝ) (p : ℝ × ℝ) (i : Nat) : ℝ × ℝ :=
  match i % 4 with
  | 1 => (p.1 * -h / p.2, -h)
  | 2 => (w, p.2 * w / p.1)
  | 3 => (p.1 * h / p.2, h)
  | _ => (-w, p.2 * -w / p.1)

/-- `angle`, OB:150. -/
noncomputable def angle (p : ℝ × ℝ) : ℝ := Geometry.atan2 p.2 p.1

/-- `adjust`, OB:163. -/
noncomputable def adjust (t : ℝ) : ℝ := if t < 0 then t + 2 * Real.pi else t

/-- The first smallest element of `std::minmax_element` (C++ standard library, not in /repo). -/
noncomputable def firstMin (f : ℝ × ℝ → ℝ) (p : ℝ × ℝ) (ps : List (ℝ × ℝ)) : ℝ × ℝ := ps.foldl (fun m q => if f q < f m then q else m) p

/-- The last largest element of `std::minmax_element` (C++ standard library, not in /repo). -/
noncomputable def lastMax (f : ℝ × ℝ → ℝ) (p : ℝ × ℝ) (ps : List (ℝ × ℝ)) : ℝ × ℝ := ps.foldl (fun m q => if f q < f m then m else q) p

/-- The angle of a corner, counted on from turn to turn, OB:176 and 183. -/
noncomputable def cornerAngle (w h : ℝ) (i : Nat) : ℝ := angle (corner w h i) + 2 * Real.pi * (i / 4 : Nat)

/-- The loop OB:175-177. -/
noncomputable def seek (w h t : ℝ) (i : Nat) : Option Nat := if cornerAngle w h i ≤ t then seek w h t (i + 1) else some i
partial_fixpoint

/-- The loop OB:183-185: the corners and the index at its end. -/
noncomputable def between (w h t : ℝ) (i : Nat) : Option (List (ℝ × ℝ) × Nat) :=
  if cornerAngle w h i < t then do
    let r ← between w h t (i + 1)
    some (corner w h i :: r.1, r.2)
  else some ([], i)
partial_fixpoint

/-- The points with the smallest and the largest angle, OB:153-168. -/
noncomputable def minMax (p : ℝ × ℝ) (ps : List (ℝ × ℝ)) : (ℝ × ℝ) × (ℝ × ℝ) :=
  let lo := firstMin angle p ps
  let hi := lastMax angle p ps
  if angle hi - angle lo > Real.pi then (firstMin (fun q => adjust (angle q)) p ps, lastMax (fun q => adjust (angle q)) p ps) else (lo, hi)

/-- `makeInvisibleArea`, OB:104-192. -/
noncomputable def hidden (w h : ℝ) : List (ℝ × ℝ) → Option (List (ℝ × ℝ))
  | [] => some []
  | p :: ps =>
    if coversOrigin (p :: ps) then some [corner w h 0, corner w h 1, corner w h 2, corner w h 3]
    else do
      let m := minMax p ps
      let lo := angle m.1
      let hi := if lo > angle m.2 then angle m.2 + 2 * Real.pi else angle m.2
      let i ← seek w h lo 0
      let r ← between w h hi i
      some (m.1 :: projection w h m.1 i :: r.1 ++ [projection w h m.2 r.2, m.2])

end Verif.Grid
