import Verif.Geometry.Box
import Verif.Geometry.Spline
import Mathlib.Data.List.Sort
/-
Contact of two entities, and the part of a spline that an entity looks at:
/repo/common/math/geometry/src/intersection/collision.cpp (I), /repo/common/math/geometry/src/spline/catmull_rom_subspline.cpp (U),
/repo/common/math/geometry/src/spline/catmull_rom_spline.cpp (S), /repo/simulation/traffic_simulator/src/api/api.cpp (A) and
/repo/simulation/traffic_simulator/src/lanelet_wrapper/pose.cpp (P).

Numbers are real numbers, as in `Verif.Geometry`. A thrown exception is `none`. `boost::geometry::intersects` (not in /repo) is a parameter;
I 48-51 is reached only if it says no, and `disjoint` is its negation by the documentation of boost.
-/
namespace Verif.Contact
open Verif.Geometry Classical

/-- `checkCollision2D`, I 32-52. -/
noncomputable def checkCollision2D (intersects : List Pt → List Pt → Bool) (pose0 : Pose) (box0 : BBox) (pose1 : Pose) (box1 : BBox) : Bool :=
  if |(pose0.position.z + box0.center.z) - (pose1.position.z + box1.center.z)| > |box0.dims.z + box1.dims.z| * 0.5 then false
  else intersects (outline pose0 box0) (outline pose1 box1)

/-- `API::checkCollision`, A 345-359: `entities` gives the pose and the bounding box of an entity that exists. -/
noncomputable def checkCollision (intersects : List Pt → List Pt → Bool) (entities : String → Option (Pose × BBox)) (first second : String) :
    Bool :=
  if first ≠ second then
    match entities first, entities second with
    | some a, some b => checkCollision2D intersects a.1 a.2 b.1 b.2
    | _, _ => false
  else false

/-- `CatmullRomSubspline` over a spline that exists: /repo/common/math/geometry/include/geometry/spline/catmull_rom_subspline.hpp, lines 31-60. -/
structure Sub where
  spline : Spline
  start : ℝ
  stop : ℝ

/-- `getLength`, U 24. -/
noncomputable def Sub.length (u : Sub) : ℝ := u.stop - u.start

/-- A `std::set<double>` filled with the given values, in order (values given twice are kept, which no reader sees). -/
noncomputable def set (l : List ℝ) : List ℝ := l.insertionSort (· ≤ ·)

/-- `getCollisionPointIn2D`, U 64-104. The values between `lower_bound(start_s_)` and `upper_bound(end_s_)` are those left after the values
below the start, up to the first one above the end. -/
noncomputable def Sub.collision (u : Sub) (polygon : List Pt) (backward : Bool) (range : Option (ℝ × ℝ)) : Option (Option ℝ) :=
  if u.stop < u.start then none
  else
    match u.spline.collisions polygon backward (range.map fun r => (r.1 + u.start, r.2 + u.start)) with
    | none => none
    | some l =>
      let between := ((set l).dropWhile fun s => decide (s < u.start)).takeWhile fun s => decide (s ≤ u.stop)
      if backward then some (between.getLast?.map (· - u.start)) else some (between.head?.map (· - u.start))

/-- `try_altitude`, U 35-42, on the smallest and the largest altitude so far. -/
noncomputable def tryAltitude (m : Option ℝ × Option ℝ) (z : ℝ) : Option ℝ × Option ℝ :=
  ((match m.1 with | none => some z | some v => if z < v then some z else some v),
   (match m.2 with | none => some z | some v => if v < z then some z else some v))

/-- The loop over the control points, U 45-55: a control point at place `s`, then the others with the lengths between them. `getLengths().at`
throws if there are too few lengths; in builds with assertions U 44 has ended the program before. -/
noncomputable def scan (start stop : ℝ) : List Pt → List ℝ → ℝ → Option ℝ × Option ℝ → Option (Option ℝ × Option ℝ)
  | [], _, _, m => some m
  | p :: ps, lengths, s, m =>
    let m := if start ≤ s ∧ s ≤ stop then tryAltitude m p.z else m
    match ps, lengths with
    | [], _ => some m
    | _ :: _, [] => none
    | q :: ps, l :: lengths => scan start stop (q :: ps) lengths (s + l) m

/-- `std::numeric_limits<double>::min()`: the smallest positive number that is not subnormal. -/
noncomputable def doubleMin : ℝ := 1 / 2 ^ 1022

/-- `std::numeric_limits<double>::max()`. -/
noncomputable def doubleMax : ℝ := (2 - 1 / 2 ^ 52) * 2 ^ 1023

/-- `CatmullRomSubspline::getAltitudeRange`, U 29-62. `length_list_` has the lengths of the curves (S 302); it stays empty for splines of one
and two control points. -/
noncomputable def Sub.altitudeRange (u : Sub) : Option (ℝ × ℝ) :=
  (scan u.start u.stop u.spline.cp (u.spline.curves.map Curve.length) 0 (none, none)).map fun m =>
    (m.1.getD doubleMin, m.2.getD doubleMax)

/-- `CatmullRomSpline::getAltitudeRange`, S 656-668: `std::minmax_element` by z, of which only the altitudes are read. -/
noncomputable def splineAltitudeRange (k : Spline) : Option (ℝ × ℝ) :=
  match k.cp with
  | [] => none
  | p :: ps => some (ps.foldl (fun m q => (min m.1 q.z, max m.2 q.z)) (p.z, p.z))

/-- `ALTITUDE_THRESHOLD`, /repo/simulation/traffic_simulator/include/traffic_simulator/lanelet_wrapper/pose.hpp, line 44. -/
def altitudeThreshold : ℝ := 1

/-- `isAltitudeWithinRange`, P 74-79. -/
def withinRange (altitude low high : ℝ) : Prop := altitude ≥ low - altitudeThreshold ∧ altitude ≤ high + altitudeThreshold

/-- The test at the start of `splineDistanceToBoundingBox`, /repo/simulation/traffic_simulator/src/utils/distance.cpp, lines 216-220: `some b` if the
search goes on exactly if `b`. -/
noncomputable def Sub.level (u : Sub) (altitude : ℝ) : Option Bool :=
  u.altitudeRange.map fun r => decide (withinRange altitude r.1 r.2)

end Verif.Contact
