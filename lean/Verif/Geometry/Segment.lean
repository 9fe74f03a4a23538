import Verif.Geometry.Vec
/-
Line segments: /repo/common/math/geometry/src/polygon/line_segment.cpp and /repo/common/math/geometry/src/intersection/intersection.cpp.
-/
namespace Verif.Geometry
open Classical

/-- `LineSegment`, /repo/common/math/geometry/include/geometry/polygon/line_segment.hpp, lines 29-41. The constant members `vector`,
`vector_2d`, `length` and `length_2d` are functions of the two points. -/
structure Seg where
  start : Pt
  stop : Pt

/-- `vector`, /repo/common/math/geometry/src/polygon/line_segment.cpp, lines 34-37. -/
def Seg.vector (l : Seg) : Pt := ⟨l.stop.x - l.start.x, l.stop.y - l.start.y, l.stop.z - l.start.z⟩

/-- `vector_2d`, /repo/common/math/geometry/src/polygon/line_segment.cpp, lines 38-41. -/
def Seg.vector2d (l : Seg) : Pt := ⟨l.stop.x - l.start.x, l.stop.y - l.start.y, 0⟩

/-- `length`, /repo/common/math/geometry/src/polygon/line_segment.cpp, line 42. -/
noncomputable def Seg.length (l : Seg) : ℝ := distance l.stop l.start

/-- `length_2d`, /repo/common/math/geometry/src/polygon/line_segment.cpp, line 43. -/
noncomputable def Seg.length2d (l : Seg) : ℝ := Real.sqrt ((l.stop.x - l.start.x) ^ 2 + (l.stop.y - l.start.y) ^ 2)

/-- Second constructor, /repo/common/math/geometry/src/polygon/line_segment.cpp, lines 47-65. -/
noncomputable def Seg.ofVector (start vec : Pt) (length : ℝ) : Option Seg :=
  let size := Real.sqrt (vec.x ^ 2 + vec.y ^ 2)
  if size = 0 then none
  else some ⟨start, ⟨start.x + vec.x / size * length, start.y + vec.y / size * length, start.z + vec.z / size * length⟩⟩

/-- `getPoint`, /repo/common/math/geometry/src/polygon/line_segment.cpp, lines 73-97. The quotient by a zero length is NaN or infinite,
which is outside of the range; here it is 0, so only segments of positive length are modelled when `denormalize` is set. -/
noncomputable def Seg.getPoint (l : Seg) (s : ℝ) (denormalize : Bool) : Option Pt :=
  let t := if denormalize then s / l.length else s
  if 0 ≤ t ∧ t ≤ 1 then some ⟨l.start.x + l.vector.x * t, l.start.y + l.vector.y * t, l.start.z + l.vector.z * t⟩ else none

/-- `isInBounds2D`, /repo/common/math/geometry/src/polygon/line_segment.cpp, lines 338-345. -/
def Seg.isInBounds (l : Seg) (p : Pt) : Prop :=
  min l.start.x l.stop.x ≤ p.x ∧ p.x ≤ max l.start.x l.stop.x ∧ min l.start.y l.stop.y ≤ p.y ∧ p.y ≤ max l.start.y l.stop.y

/-- `isIntersect2D` with a point, /repo/common/math/geometry/src/polygon/line_segment.cpp, lines 125-135. -/
def Seg.isIntersectPoint (l : Seg) (p : Pt) : Prop :=
  if l.isInBounds p then
    |(p.y - l.start.y) * l.vector2d.x - (p.x - l.start.x) * l.vector2d.y| ≤ l.length2d * eps
  else False

/-- `relativePointPosition2D`, /repo/common/math/geometry/src/polygon/line_segment.cpp, lines 361-367. -/
noncomputable def Seg.relativePosition (l : Seg) (p : Pt) : ℤ :=
  let determinant := l.vector2d.y * (p.x - l.stop.x) - l.vector2d.x * (p.y - l.stop.y)
  (if determinant > eps then 1 else 0) - (if determinant < -eps then 1 else 0)

/-- `isIntersect2D` with two segments, /repo/common/math/geometry/src/intersection/intersection.cpp, lines 24-45. -/
def isIntersect (l0 l1 : Seg) : Prop :=
  let p0 := l1.relativePosition l0.start
  let q0 := l1.relativePosition l0.stop
  let p1 := l0.relativePosition l1.start
  let q1 := l0.relativePosition l1.stop
  if p1 = 0 ∧ q1 = 0 ∧ p0 = 0 ∧ q0 = 0 then
    l0.isInBounds l1.start ∨ l0.isInBounds l1.stop ∨ l1.isInBounds l0.start ∨ l1.isInBounds l0.stop
  else p1 ≠ q1 ∧ p0 ≠ q0

/-- `isIntersect2D` with a list of segments, /repo/common/math/geometry/src/intersection/intersection.cpp, lines 47-57: some two
segments at different places of the list intersect. The two loops are written as quantifiers over the places. -/
def isIntersectAny (lines : List Seg) : Prop :=
  ∃ i m : Nat, i < lines.length ∧ m < lines.length ∧ i ≠ m ∧
    ∃ a b, lines[i]? = some a ∧ lines[m]? = some b ∧ isIntersect a b

/-- `getIntersection2D` with two segments, /repo/common/math/geometry/src/intersection/intersection.cpp, lines 59-91: `none` if it
throws, `some none` for `std::nullopt`. -/
noncomputable def getIntersection (l0 l1 : Seg) : Option (Option Pt) :=
  if ¬ isIntersect l0 l1 then some none
  else
    let a0 := l0.vector2d.y
    let b0 := -l0.vector2d.x
    let c0 := a0 * l0.start.x + b0 * l0.start.y
    let a1 := l1.vector2d.y
    let b1 := -l1.vector2d.x
    let c1 := a1 * l1.start.x + b1 * l1.start.y
    let determinant := a0 * b1 - a1 * b0
    if |determinant| ≤ eps then none
    else some (some ⟨(b1 * c0 - b0 * c1) / determinant, (a0 * c1 - a1 * c0) / determinant, 0⟩)

/-- `get2DIntersectionSValue` with a point, /repo/common/math/geometry/src/polygon/line_segment.cpp, lines 168-184. The quotient 0 / 0
of a segment that is vertical in space is NaN in the code and 0 here, so only segments with `length_2d` above 0 are modelled. -/
noncomputable def Seg.sValue (l : Seg) (p : Pt) (denormalize : Bool) : Option ℝ :=
  if l.isIntersectPoint p then
    let proportion := Real.sqrt ((p.x - l.start.x) ^ 2 + (p.y - l.start.y) ^ 2) / l.length2d
    some (if denormalize then proportion * l.length else proportion)
  else none

/-- `get2DIntersectionSValue` with a segment, /repo/common/math/geometry/src/polygon/line_segment.cpp, lines 192-200: `none` if it
throws. -/
noncomputable def Seg.sValueSeg (l line : Seg) (denormalize : Bool) : Option (Option ℝ) :=
  match getIntersection l line with
  | none => none
  | some none => some none
  | some (some p) => some (l.sValue p denormalize)

/-- `getSValue`, /repo/common/math/geometry/src/polygon/line_segment.cpp, lines 137-150. -/
noncomputable def Seg.getSValue (l : Seg) (pose : Pose) (threshold : ℝ) (denormalize : Bool) : Option (Option ℝ) :=
  l.sValueSeg ⟨transformPoint pose ⟨0, threshold, 0⟩, transformPoint pose ⟨0, -threshold, 0⟩⟩ denormalize

/-- `get2DVectorSlope`, /repo/common/math/geometry/src/polygon/line_segment.cpp, lines 226-233. -/
noncomputable def Seg.slope (l : Seg) : Option ℝ :=
  if l.vector2d.x ≤ eps then none else some (l.vector2d.y / l.vector2d.x)

/-- Loop of `getLineSegments`, /repo/common/math/geometry/src/polygon/line_segment.cpp, lines 316-320. -/
noncomputable def segments : List Pt → List Seg
  | a :: b :: l => if a ≠ b then ⟨a, b⟩ :: segments (b :: l) else segments (b :: l)
  | _ => []

/-- `getLineSegments`, /repo/common/math/geometry/src/polygon/line_segment.cpp, lines 308-329. -/
noncomputable def getLineSegments (points : List Pt) (close : Bool) : List Seg :=
  match points with
  | [] => []
  | [_] => []
  | a :: b :: l =>
    let last := (b :: l).getLast (by simp)
    segments (a :: b :: l) ++ (if close then (if last ≠ a then [⟨last, a⟩] else []) else [])

end Verif.Geometry
