import Verif.Geometry.Segment
/-
Bounding boxes: /repo/common/math/geometry/src/bounding_box.cpp. The z coordinates of boost points (which have none) are written as 0.
-/
namespace Verif.Geometry
open Classical

/-- `toBoostPoint` (/repo/common/math/geometry/src/bounding_box.cpp, lines 215-218): only x and y are kept. -/
def flat (p : Pt) : Pt := ⟨p.x, p.y, 0⟩

/-- `pointToSegmentProjection` (/repo/common/math/geometry/src/bounding_box.cpp, lines 101-120). -/
noncomputable def project (p p1 p2 : Pt) : Pt :=
  let vx := p2.x - p1.x
  let vy := p2.y - p1.y
  let c1 := (p.x - p1.x) * vx + (p.y - p1.y) * vy
  if c1 ≤ 0 then p1
  else
    let c2 := vx * vx + vy * vy
    if c2 ≤ c1 then p2 else ⟨p1.x + vx * (c1 / c2), p1.y + vy * (c1 / c2), 0⟩

/-- `boost::geometry::distance` of two points (not in /repo). -/
noncomputable def distance2 (p q : Pt) : ℝ := Real.sqrt ((p.x - q.x) ^ 2 + (p.y - q.y) ^ 2)

/-- Best pair found so far: `min_distance` with `point0` and `point1`. `none` stands for the initial `highest()` distance. -/
abbrev Best := Option (Pt × Pt)

/-- The comparison `distance < min_distance` with its update (/repo/common/math/geometry/src/bounding_box.cpp, lines 75-79). -/
noncomputable def better (b : Best) (p q : Pt) : Best :=
  match b with
  | none => some (p, q)
  | some (p', q') => if distance2 p q < distance2 p' q' then some (p, q) else some (p', q')

/-- `findNearestPointToSegment` (/repo/common/math/geometry/src/bounding_box.cpp, lines 70-81): `point0` becomes the point and `point1`
its projection. -/
noncomputable def nearestToSegment (s : Pt × Pt) (points : List Pt) (b : Best) : Best :=
  points.foldl (fun b p => better b p (project p s.1 s.2)) b

/-- The sides of a ring: `segments_begin` to `segments_end` (boost, not in /repo) are the pairs of neighbouring points. -/
def sides (ring : List Pt) : List (Pt × Pt) := ring.zip ring.tail

/-- `findNearestPointInPolygon` (/repo/common/math/geometry/src/bounding_box.cpp, lines 83-91): sides of the first polygon, points of the
second. -/
noncomputable def nearestInPolygon (poly0 poly1 : List Pt) (b : Best) : Best :=
  (sides poly0).foldl (fun b s => nearestToSegment s poly1 b) b

/-- `getClosestPoses` after the test of disjointness (/repo/common/math/geometry/src/bounding_box.cpp, lines 66-96), on the two rings. The
test itself is done by boost and is a hypothesis of the theorems. -/
noncomputable def closest (poly0 poly1 : List Pt) : Best :=
  nearestInPolygon poly1 poly0 (nearestInPolygon poly0 poly1 none)

/-- `getDistancesFromCenterToEdge` and `getPointsFromBbox` (/repo/common/math/geometry/src/bounding_box.cpp, lines 129-157 and 251-263),
without extensions: the four upper corners in the frame of the box. -/
noncomputable def corners (b : BBox) : List Pt :=
  let front := b.center.x + b.dims.x * 0.5
  let rear := b.center.x - b.dims.x * 0.5
  let left := b.center.y + b.dims.y * 0.5
  let right := b.center.y - b.dims.y * 0.5
  let up := b.center.z + b.dims.z * 0.5
  [⟨front, left, up⟩, ⟨rear, left, up⟩, ⟨rear, right, up⟩, ⟨front, right, up⟩]

/-- `toBoostPolygon` (/repo/common/math/geometry/src/bounding_box.cpp, lines 220-229): the four points and the first one again. -/
def toRing (points : List Pt) : List Pt := (points.map flat) ++ (points.map flat).take 1

/-- `toPolygon2D` with a pose (/repo/common/math/geometry/src/bounding_box.cpp, lines 122-127). -/
noncomputable def outline (pose : Pose) (b : BBox) : List Pt := toRing ((corners b).map (transformPoint pose))

/-- `boundingBoxRelativePose` (/repo/simulation/traffic_simulator/src/utils/pose.cpp, lines 263-281) for boxes that boost finds disjoint:
position of the result. `toPose` sets z to 0, and `subtractPoses` drops z. -/
noncomputable def boxRelative (a : Pose) (abox : BBox) (b : Pose) (bbox : BBox) : Option Pt :=
  match closest (outline a abox) (outline b bbox) with
  | none => none
  | some (p0, p1) =>
    let r0 := (getRelativePose a ⟨p0, ⟨0, 0, 0, 1⟩⟩).position
    let r1 := (getRelativePose a ⟨p1, ⟨0, 0, 0, 1⟩⟩).position
    some ⟨r0.x - r1.x, r0.y - r1.y, 0⟩

/-- `getClosestPointOnPolygon` (/repo/common/math/geometry/src/bounding_box.cpp, lines 265-282): sides between neighbouring vertices and from
the last vertex to the first. -/
noncomputable def closestOnPolygon (q : Pt) (ring : List Pt) : Option Pt :=
  ((ring.zip (ring.rotate 1)).foldl
    (fun (b : Option Pt) (s : Pt × Pt) =>
      match b with
      | none => some (project q s.1 s.2)
      | some c => if distance2 q (project q s.1 s.2) < distance2 q c then some (project q s.1 s.2) else some c)
    none)

end Verif.Geometry
