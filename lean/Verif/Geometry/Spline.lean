import Verif.Geometry.Segment
import Verif.Geometry.Solver
import Verif.Geometry.Turn
/-
Curves: /repo/common/math/geometry/src/spline/hermite_curve.cpp, catmull_rom_spline.cpp and catmull_rom_subspline.cpp.

A thrown error is an outer `none`. A `std::set<double>` is modelled as a list of which only the members matter.
-/
namespace Verif.Geometry
open Classical

/-- `HermiteCurve`, /repo/common/math/geometry/include/geometry/spline/hermite_curve.hpp: the coefficients `ax_, ay_, az_` are `a` and so on.
`length_` is `Curve.length`. -/
structure Curve where
  a : Pt
  b : Pt
  c : Pt
  d : Pt

/-- Second constructor, /repo/common/math/geometry/src/spline/hermite_curve.cpp, lines 50-67. -/
def Curve.hermite (start goal startVec goalVec : Pt) : Curve where
  a := ⟨2 * start.x - 2 * goal.x + startVec.x + goalVec.x, 2 * start.y - 2 * goal.y + startVec.y + goalVec.y,
    2 * start.z - 2 * goal.z + startVec.z + goalVec.z⟩
  b := ⟨-3 * start.x + 3 * goal.x - 2 * startVec.x - goalVec.x, -3 * start.y + 3 * goal.y - 2 * startVec.y - goalVec.y,
    -3 * start.z + 3 * goal.z - 2 * startVec.z - goalVec.z⟩
  c := startVec
  d := start

/-- `getPoint` with `denormalize_s = false`, /repo/common/math/geometry/src/spline/hermite_curve.cpp, lines 362-379. -/
def Curve.point (k : Curve) (s : ℝ) : Pt :=
  let s2 := s * s
  let s3 := s2 * s
  ⟨k.a.x * s3 + k.b.x * s2 + k.c.x * s + k.d.x, k.a.y * s3 + k.b.y * s2 + k.c.y * s + k.d.y, k.a.z * s3 + k.b.z * s2 + k.c.z * s + k.d.z⟩

/-- `getTangentVector` with `denormalize_s = false`, /repo/common/math/geometry/src/spline/hermite_curve.cpp, lines 265-275. -/
def Curve.tangent (k : Curve) (s : ℝ) : Pt :=
  ⟨3 * k.a.x * s * s + 2 * k.b.x * s + k.c.x, 3 * k.a.y * s * s + 2 * k.b.y * s + k.c.y, 3 * k.a.z * s * s + 2 * k.b.z * s + k.c.z⟩

/-- `getNormalVector` with `denormalize_s = false`, /repo/common/math/geometry/src/spline/hermite_curve.cpp, lines 252-263. -/
noncomputable def Curve.normal (k : Curve) (s : ℝ) : Pt :=
  let t := k.tangent s
  let theta := Real.pi / 2
  ⟨t.x * Real.cos theta - t.y * Real.sin theta, t.x * Real.sin theta + t.y * Real.cos theta, 0⟩

/-- `getLength` with a number of points, /repo/common/math/geometry/src/spline/hermite_curve.cpp, lines 344-360. -/
noncomputable def Curve.lengthWith (k : Curve) (n : Nat) : ℝ :=
  let delta : ℝ := 1 / n
  (List.range n).foldl (fun ret (i : Nat) =>
    let s : ℝ := i * delta
    let x := (3 * s * s) * k.a.x + 2 * s * k.b.x + k.c.x
    let y := (3 * s * s) * k.a.y + 2 * s * k.b.y + k.c.y
    let z := (3 * s * s) * k.a.z + 2 * s * k.b.z + k.c.z
    ret + Real.sqrt (x * x + y * y + z * z) * delta) 0

/-- `length_(getLength(100))`, /repo/common/math/geometry/src/spline/hermite_curve.cpp, lines 46 and 65. -/
noncomputable def Curve.length (k : Curve) : ℝ := k.lengthWith 100

/-- `std::unique` with `erase` (/repo/common/math/geometry/src/spline/catmull_rom_spline.cpp, lines 188-192): of equal neighbours the first
remains. -/
noncomputable def unique : List Pt → List Pt
  | [] => []
  | [a] => [a]
  | a :: b :: l => if a = b then unique (a :: l) else a :: unique (b :: l)
termination_by l => l.length

/-- Curve number `i` of the spline, /repo/common/math/geometry/src/spline/catmull_rom_spline.cpp, lines 213-299: `none` if a control point is
read beyond the end. The three coordinates are written once. -/
noncomputable def curveAt (cp : List Pt) (i : Nat) : Option Curve :=
  let n := cp.length - 1
  if i = 0 then
    match cp[0]?, cp[1]?, cp[2]? with
    | some p0, some p1, some p2 =>
      let f (u0 u1 u2 : ℝ) : ℝ × ℝ × ℝ × ℝ := (0 * 0.5, (u0 - 2 * u1 + u2) * 0.5, (-3 * u0 + 4 * u1 - u2) * 0.5, (2 * u0) * 0.5)
      let x := f p0.x p1.x p2.x; let y := f p0.y p1.y p2.y; let z := f p0.z p1.z p2.z
      some ⟨⟨x.1, y.1, z.1⟩, ⟨x.2.1, y.2.1, z.2.1⟩, ⟨x.2.2.1, y.2.2.1, z.2.2.1⟩, ⟨x.2.2.2, y.2.2.2, z.2.2.2⟩⟩
    | _, _, _ => none
  else if i = n - 1 then
    match cp[i - 1]?, cp[i]?, cp[i + 1]? with
    | some p0, some p1, some p2 =>
      let f (u0 u1 u2 : ℝ) : ℝ × ℝ × ℝ × ℝ := (0 * 0.5, (u0 - 2 * u1 + u2) * 0.5, (-1 * u0 + u2) * 0.5, (2 * u1) * 0.5)
      let x := f p0.x p1.x p2.x; let y := f p0.y p1.y p2.y; let z := f p0.z p1.z p2.z
      some ⟨⟨x.1, y.1, z.1⟩, ⟨x.2.1, y.2.1, z.2.1⟩, ⟨x.2.2.1, y.2.2.1, z.2.2.1⟩, ⟨x.2.2.2, y.2.2.2, z.2.2.2⟩⟩
    | _, _, _ => none
  else
    match cp[i - 1]?, cp[i]?, cp[i + 1]?, cp[i + 2]? with
    | some p0, some p1, some p2, some p3 =>
      let f (u0 u1 u2 u3 : ℝ) : ℝ × ℝ × ℝ × ℝ :=
        ((-1 * u0 + 3 * u1 - 3 * u2 + u3) * 0.5, (2 * u0 - 5 * u1 + 4 * u2 - u3) * 0.5, (-u0 + u2) * 0.5, (2 * u1) * 0.5)
      let x := f p0.x p1.x p2.x p3.x; let y := f p0.y p1.y p2.y p3.y; let z := f p0.z p1.z p2.z p3.z
      some ⟨⟨x.1, y.1, z.1⟩, ⟨x.2.1, y.2.1, z.2.1⟩, ⟨x.2.2.1, y.2.2.1, z.2.2.1⟩, ⟨x.2.2.2, y.2.2.2, z.2.2.2⟩⟩
    | _, _, _, _ => none

/-- `CatmullRomSpline`, /repo/common/math/geometry/include/geometry/spline/catmull_rom_spline.hpp. `line_segments_[0]` is the segment between
the two control points, and `length_list_` holds the lengths of the curves. -/
structure Spline where
  cp : List Pt
  curves : List Curve

/-- Constructor, /repo/common/math/geometry/src/spline/catmull_rom_spline.cpp, lines 186-312. `checkConnection` (lines 797-822), which can only
fail by rounding, is left out. -/
noncomputable def Spline.make (raw : List Pt) : Option Spline :=
  let cp := unique raw
  match cp with
  | [] => none
  | [_] => some ⟨cp, []⟩
  | [_, _] => some ⟨cp, []⟩
  | _ => ((List.range (cp.length - 1)).mapM (curveAt cp)).map fun curves => ⟨cp, curves⟩

/-- `total_length_`, /repo/common/math/geometry/src/spline/catmull_rom_spline.cpp, lines 194, 208 and 301-307. -/
noncomputable def Spline.total (k : Spline) : ℝ :=
  match k.cp with
  | [p, q] => (⟨p, q⟩ : Seg).length
  | _ => k.curves.foldl (fun t c => t + c.length) 0

/-- The loop of `getCurveIndexAndS`, /repo/common/math/geometry/src/spline/catmull_rom_spline.cpp, lines 323-331. -/
noncomputable def indexFrom (s : ℝ) : List Curve → Nat → ℝ → Option (Nat × ℝ)
  | [], _, _ => none
  | c :: l, i, prev => if prev ≤ s ∧ s < prev + c.length then some (i, s - prev) else indexFrom s l (i + 1) (prev + c.length)

/-- `getCurveIndexAndS`, /repo/common/math/geometry/src/spline/catmull_rom_spline.cpp, lines 314-332. -/
noncomputable def Spline.index (k : Spline) (s : ℝ) : Option (Nat × ℝ) :=
  if s < 0 then some (0, s)
  else if k.total ≤ s then
    match k.curves.getLast? with
    | some c => some (k.curves.length - 1, s - (k.total - c.length))
    | none => none
  else indexFrom s k.curves 0 0

/-- `getSInSplineCurve`, /repo/common/math/geometry/src/spline/catmull_rom_spline.cpp, lines 334-347. -/
noncomputable def Spline.sAt (k : Spline) (index : Nat) (s : ℝ) : Option ℝ :=
  if index < k.curves.length then some ((k.curves.take index).foldl (fun t c => t + c.length) 0 + s) else none

/-- Value at curve `index`, with the share of the length as argument: `curves_[index].f(s_value, true)`. -/
noncomputable def Spline.onCurve {α : Type} (k : Spline) (f : Curve → ℝ → α) (s : ℝ) : Option α :=
  match k.index s with
  | some (i, v) => (k.curves[i]?).map fun c => f c (v / c.length)
  | none => none

/-- `getPoint`, /repo/common/math/geometry/src/spline/catmull_rom_spline.cpp, lines 606-638. -/
noncomputable def Spline.point (k : Spline) (s : ℝ) : Option Pt :=
  match k.cp with
  | [] => none
  | [p] => if |s| ≤ eps then some p else none
  | [p, q] => (⟨p, q⟩ : Seg).getPoint s true
  | _ => k.onCurve Curve.point s

/-- `getTangentVector`, /repo/common/math/geometry/src/spline/catmull_rom_spline.cpp, lines 721-764. -/
noncomputable def Spline.tangent (k : Spline) (s : ℝ) : Option Pt :=
  match k.cp with
  | [] => none
  | [_] => none
  | [p, q] => if 0 ≤ s ∧ s ≤ k.total then some (⟨p, q⟩ : Seg).vector else none
  | _ => k.onCurve Curve.tangent s

/-- `LineSegment::getNormalVector`, /repo/common/math/geometry/src/polygon/line_segment.cpp, lines 217-224. -/
noncomputable def Seg.normal (l : Seg) : Pt :=
  let theta := Real.pi / 2
  ⟨l.vector.x * Real.cos theta - l.vector.y * Real.sin theta, l.vector.x * Real.sin theta + l.vector.y * Real.cos theta, 0⟩

/-- `getNormalVector`, /repo/common/math/geometry/src/spline/catmull_rom_spline.cpp, lines 692-719. -/
noncomputable def Spline.normal (k : Spline) (s : ℝ) : Option Pt :=
  match k.cp with
  | [] => none
  | [_] => none
  | [p, q] => if 0 ≤ s ∧ s ≤ k.total then some (⟨p, q⟩ : Seg).normal else none
  | _ => k.onCurve Curve.normal s

/-- `getPoint` with an offset, /repo/common/math/geometry/src/spline/catmull_rom_spline.cpp, lines 640-651. -/
noncomputable def Spline.pointOffset (k : Spline) (s offset : ℝ) : Option Pt :=
  match k.normal s, k.point s with
  | some v, some p =>
    let theta := atan2 v.y v.x
    some ⟨p.x + offset * Real.cos theta, p.y + offset * Real.sin theta, p.z⟩
  | _, _ => none

/-- `getRightBounds`, /repo/common/math/geometry/src/spline/catmull_rom_spline.cpp, lines 54-75. -/
noncomputable def Spline.rightBounds (k : Spline) (width : ℝ) (n : Nat) (z : ℝ) : Option (List Pt) :=
  let step := k.total / n
  (List.range (n + 1)).mapM fun (i : Nat) =>
    match k.normal (step * i), k.point (step * i) with
    | some v, some p =>
      let theta := atan2 v.y v.x
      some ⟨p.x + 0.5 * width * Real.cos theta, p.y + 0.5 * width * Real.sin theta, p.z + z⟩
    | _, _ => none

/-- `getLeftBounds`, /repo/common/math/geometry/src/spline/catmull_rom_spline.cpp, lines 77-98. -/
noncomputable def Spline.leftBounds (k : Spline) (width : ℝ) (n : Nat) (z : ℝ) : Option (List Pt) :=
  let step := k.total / n
  (List.range (n + 1)).mapM fun (i : Nat) =>
    match k.normal (step * i), k.point (step * i) with
    | some v, some p =>
      let theta := atan2 v.y v.x
      some ⟨p.x - 0.5 * width * Real.cos theta, p.y - 0.5 * width * Real.sin theta, p.z + z⟩
    | _, _ => none

/-- The loop `while (s > end_s)` and the line after it, /repo/common/math/geometry/src/spline/catmull_rom_spline.cpp, lines 112-117: the values
of `s` in turn. `res` is the absolute value of the resolution, above 0. -/
noncomputable def samplesDown (res stop s : ℝ) : List ℝ :=
  if _h : 0 < res ∧ stop < s then s :: samplesDown res stop (s - res) else [stop]
termination_by Nat.ceil ((s - stop) / res)
decreasing_by
  have h1 : (s - res - stop) / res = (s - stop) / res - 1 := by
    rw [div_sub_one _h.1.ne']; congr 1; ring
  have h2 : 0 < (s - stop) / res := div_pos (sub_pos.mpr _h.2) _h.1
  rw [h1, Nat.ceil_sub_one]
  exact Nat.sub_lt (Nat.ceil_pos.mpr h2) Nat.one_pos

/-- The loop `while (s < end_s)` and the line after it, /repo/common/math/geometry/src/spline/catmull_rom_spline.cpp, lines 121-126. -/
noncomputable def samplesUp (res stop s : ℝ) : List ℝ :=
  if _h : 0 < res ∧ s < stop then s :: samplesUp res stop (s + res) else [stop]
termination_by Nat.ceil ((stop - s) / res)
decreasing_by
  have h1 : (stop - (s + res)) / res = (stop - s) / res - 1 := by
    rw [div_sub_one _h.1.ne']; congr 1; ring
  have h2 : 0 < (stop - s) / res := div_pos (sub_pos.mpr _h.2) _h.1
  rw [h1, Nat.ceil_sub_one]
  exact Nat.sub_lt (Nat.ceil_pos.mpr h2) Nat.one_pos

/-- The values of `s` at which `getTrajectory` and `getTrajectoryPoses` (/repo/common/math/geometry/src/spline/catmull_rom_spline.cpp, lines 100-160)
take points: `none` if they throw. -/
noncomputable def samples (start stop resolution : ℝ) : Option (List ℝ) :=
  if |resolution| ≤ eps then none
  else if start > stop then some (samplesDown |resolution| stop start)
  else some (samplesUp |resolution| stop start)

/-- `getTrajectory`, /repo/common/math/geometry/src/spline/catmull_rom_spline.cpp, lines 100-129. -/
noncomputable def Spline.trajectory (k : Spline) (start stop resolution offset : ℝ) : Option (List Pt) :=
  match samples start stop resolution with
  | none => none
  | some l => l.mapM fun s => k.pointOffset s offset

/-- `(x - point0.x) / (point1.x - point0.x)`, /repo/common/math/geometry/src/spline/hermite_curve.cpp, lines 160-163: `none` for infinity and NaN,
which no comparison with 0 and 1 accepts. -/
noncomputable def share (v p q : ℝ) : Option ℝ := if q - p = 0 then none else some ((v - p) / (q - p))

/-- `0 <= t && t <= 1`. -/
def inUnit : Option ℝ → Prop
  | none => False
  | some t => 0 ≤ t ∧ t ≤ 1

/-- The test of a solution, /repo/common/math/geometry/src/spline/hermite_curve.cpp, lines 160-178. -/
noncomputable def Curve.accepts (k : Curve) (p0 p1 : Pt) (s : ℝ) : Prop :=
  let tx := share (k.point s).x p0.x p1.x
  let ty := share (k.point s).y p0.y p1.y
  match tx, ty with
  | some u, some w => if |u - w| > eps then inUnit tx ∨ inUnit ty else inUnit tx ∧ inUnit ty
  | _, _ => inUnit tx ∨ inUnit ty

/-- `get_solutions`, /repo/common/math/geometry/src/spline/hermite_curve.cpp, lines 127-147. -/
noncomputable def Curve.solutions (k : Curve) (p0 p1 : Pt) (backward : Bool) : Option (List ℝ) :=
  let fx := p0.x
  let ex := p1.x - p0.x
  let fy := p0.y
  let ey := p1.y - p0.y
  let a := k.a.y * ex - k.a.x * ey
  let b := k.b.y * ex - k.b.x * ey
  let c := k.c.y * ex - k.c.x * ey
  let d := k.d.y * ex - k.d.x * ey - ex * fy + ey * fx
  if approx a 0 ∧ approx b 0 ∧ approx c 0 ∧ approx d 0 then some [if backward then 1 else 0]
  else solveCubic a b c d 0 1

/-- `getCollisionPointsIn2D` with two points and `denormalize_s = false`, /repo/common/math/geometry/src/spline/hermite_curve.cpp, lines 123-181. -/
noncomputable def Curve.collisions (k : Curve) (p0 p1 : Pt) (backward : Bool) : Option (List ℝ) :=
  (k.solutions p0 p1 backward).map fun l => l.filter fun s => decide (k.accepts p0 p1 s)

/-- The sides of `getCollisionPointsIn2D` with a polygon, /repo/common/math/geometry/src/spline/hermite_curve.cpp, lines 91-105, in the order in which
they are visited. -/
def polygonSides (polygon : List Pt) (close : Bool) : List (Pt × Pt) :=
  if polygon.length ≤ 1 then []
  else polygon.zip (polygon.drop 1) ++
    (if close then (match polygon.getLast?, polygon.head? with | some p0, some p1 => [(p0, p1)] | _, _ => []) else [])

/-- `getCollisionPointsIn2D` with a polygon and `denormalize_s = false`, /repo/common/math/geometry/src/spline/hermite_curve.cpp, lines 87-107. -/
noncomputable def Curve.collisionsPolygon (k : Curve) (polygon : List Pt) (backward close : Bool) : Option (List ℝ) :=
  ((polygonSides polygon close).mapM fun e => k.collisions e.1 e.2 backward).map List.flatten

/-- First or last value of a `std::set<double>`: `*s_values.begin()` and `*s_values.rbegin()`, or `std::nullopt` for an empty set
(/repo/common/math/geometry/src/spline/hermite_curve.cpp, lines 113-121 and 187-195, /repo/common/math/geometry/src/spline/catmull_rom_spline.cpp,
lines 454-461). -/
noncomputable def pick (backward : Bool) : List ℝ → Option ℝ
  | [] => none
  | x :: l => some (l.foldl (fun m y => if backward then max m y else min m y) x)

/-- `getCollisionPointIn2D` with two points and `denormalize_s = false`, /repo/common/math/geometry/src/spline/hermite_curve.cpp, lines 183-195. -/
noncomputable def Curve.collision (k : Curve) (p0 p1 : Pt) (backward : Bool) : Option (Option ℝ) :=
  (k.collisions p0 p1 backward).map (pick backward)

/-- `getSValue` with `denormalize_s = true`, /repo/common/math/geometry/src/spline/hermite_curve.cpp, lines 197-213. -/
noncomputable def Curve.sValue (k : Curve) (pose : Pose) (threshold : ℝ) : Option (Option ℝ) :=
  let p0 : Pt := ⟨0, threshold, 0⟩
  let p1 : Pt := ⟨0, -threshold, 0⟩
  match k.collision (transformPoint pose p0) (transformPoint pose p1) false with
  | none => none
  | some none => some none
  | some (some s) => some (some (s * k.length))

/-- `is_curve_in_range`, /repo/common/math/geometry/src/spline/catmull_rom_spline.cpp, lines 367-380. -/
def curveInRange (first length : ℝ) : Option (ℝ × ℝ) → Prop
  | none => True
  | some r => (first ≥ r.1 ∨ first + length > r.1) ∧ first ≤ r.2

/-- The loop over the curves, /repo/common/math/geometry/src/spline/catmull_rom_spline.cpp, lines 382-395. -/
noncomputable def curveCollisions (polygon : List Pt) (backward : Bool) (range : Option (ℝ × ℝ)) : List Curve → ℝ → Option (List ℝ)
  | [], _ => some []
  | c :: l, first =>
    match (if curveInRange first c.length range then c.collisionsPolygon polygon backward true else some []),
      curveCollisions polygon backward range l (first + c.length) with
    | some v, some r => some (v.map (fun s => first + s * c.length) ++ r)
    | _, _ => none

/-- `getCollisionPointsIn2D` with a polygon, /repo/common/math/geometry/src/spline/catmull_rom_spline.cpp, lines 349-442. -/
noncomputable def Spline.collisions (k : Spline) (polygon : List Pt) (backward : Bool) (range : Option (ℝ × ℝ)) : Option (List ℝ) :=
  if polygon.length ≤ 1 then none
  else
    match k.cp with
    | [] => none
    | [p] => some ((getLineSegments polygon false).filterMap fun line => if line.isIntersectPoint p then some 0 else none)
    | [p, q] => ((getLineSegments polygon false).mapM fun line => (⟨p, q⟩ : Seg).sValueSeg line true).map fun l => l.filterMap id
    | _ => curveCollisions polygon backward range k.curves 0

/-- `getCollisionPointIn2D` with a polygon, /repo/common/math/geometry/src/spline/catmull_rom_spline.cpp, lines 450-462. -/
noncomputable def Spline.collision (k : Spline) (polygon : List Pt) (backward : Bool) (range : Option (ℝ × ℝ)) : Option (Option ℝ) :=
  (k.collisions polygon backward range).map (pick backward)

/-- The loop of `getCollisionPointIn2D` with two points, /repo/common/math/geometry/src/spline/catmull_rom_spline.cpp, lines 464-487: the curves with
these numbers in turn. -/
noncomputable def firstCollision (k : Spline) (p0 p1 : Pt) (backward : Bool) : List Nat → Option (Option ℝ)
  | [] => some none
  | i :: l =>
    match k.curves[i]? with
    | none => none
    | some c =>
      match c.collision p0 p1 backward with
      | none => none
      | some none => firstCollision k p0 p1 backward l
      | some (some s) => (k.sAt i (s * c.length)).map some

/-- `getCollisionPointIn2D` with two points, /repo/common/math/geometry/src/spline/catmull_rom_spline.cpp, lines 464-487. -/
noncomputable def Spline.collisionSegment (k : Spline) (p0 p1 : Pt) (backward : Bool) : Option (Option ℝ) :=
  let n := k.curves.length
  firstCollision k p0 p1 backward (if backward then (List.range n).map (fun i => n - 1 - i) else List.range n)

/-- The loop of `getSValue`, /repo/common/math/geometry/src/spline/catmull_rom_spline.cpp, lines 518-527. -/
noncomputable def curveSValue (pose : Pose) (threshold : ℝ) : List Curve → ℝ → Option (Option ℝ)
  | [], _ => some none
  | c :: l, s =>
    match c.sValue pose threshold with
    | none => none
    | some (some v) => some (some (s + v))
    | some none => curveSValue pose threshold l (s + c.length)

/-- `getSValue`, /repo/common/math/geometry/src/spline/catmull_rom_spline.cpp, lines 489-530. -/
noncomputable def Spline.sValue (k : Spline) (pose : Pose) (threshold : ℝ) : Option (Option ℝ) :=
  match k.cp with
  | [] => none
  | [p] => some (if (p.x - pose.position.x) ^ 2 + (p.y - pose.position.y) ^ 2 ≤ eps then some 0 else none)
  | [p, q] => (⟨p, q⟩ : Seg).getSValue pose threshold true
  | _ => curveSValue pose threshold k.curves 0

end Verif.Geometry
