import Mathlib.Algebra.Order.Field.Basic
import Mathlib.Algebra.Order.Ring.Abs
/-
Distances along and across lanes: TS = /repo/simulation/traffic_simulator/src, with
D = TS/utils/distance.cpp, L = TS/lanelet_wrapper/distance.cpp, P = TS/utils/pose.cpp, Q = TS/data_type/lanelet_pose.cpp and
B = /repo/common/math/geometry/src/bounding_box.cpp.

Numbers are the elements of an ordered field: rounding and overflow are not modelled. Everything is about one routing graph, as in the program, where the type of the routing
graph has its default value.
-/
namespace Verif.Distance

variable {K : Type} [Field K] [LinearOrder K]

/-- `LaneletPose` without the rotation. -/
structure Pose (K : Type) where
  id : Nat
  s : K
  offset : K
  deriving DecidableEq

/-- The lanelet map. -/
structure Map (K : Type) where
  /-- `laneletLength` -/
  length : Nat → K
  /-- `nextLaneletIds` -/
  next : Nat → List Nat
  /-- `routeFromGraph`; the flag is `allow_lane_change` -/
  route : Bool → Nat → Nat → List Nat
  /-- `along a b s`: where the point at `s` of the centre line of `b` is on the centre line of `a`, if it is within 10 m, L 93-109 -/
  along : Nat → Nat → K → Option K
  /-- `across a b`: the offset from the centre line of `a` of the start of `b`, if it is within 10 m, L 46-56 -/
  across : Nat → Nat → Option K

/-- One round of the loop L 89-124: what is added to the distance for two lanelets of the route. -/
def step (m : Map K) (a b : Nat) : Option K :=
  if b ∈ m.next a then some (m.length a)
  else
    let middle := (if m.length b < m.length a then m.length b else m.length a) * (1 / 2)
    match m.along a b 0 with
    | some s => some s
    | none => match m.along b a 0 with
      | some s => some (-s)
      | none => match m.along a b middle with
        | some s => some (s - middle)
        | none => match m.along b a middle with
          | some s => some (-(s - middle))
          | none => none

/-- The loop L 89-124. -/
def steps (m : Map K) : List Nat → K → Option K
  | a :: b :: l, d => match step m a b with
    | some x => steps m (b :: l) (d + x)
    | none => none
  | _, d => some d

/-- `lanelet_wrapper::distance::longitudinalDistance`, L 67-136. -/
def ahead (m : Map K) (change : Bool) (p q : Pose K) : Option K :=
  let route := m.route change p.id q.id
  if route ≠ [] ∨ p.id = q.id then
    match steps m route 0 with
    | some d => if 0 ≤ d - p.s + q.s then some (d - p.s + q.s) else none
    | none => none
  else none

/-- `CanonicalizedLaneletPose`: `lanelet_pose_` and `lanelet_poses_`. -/
structure Place (K : Type) where
  pose : Pose K
  poses : List (Pose K)

/-- `getAlternativeLaneletPoseBaseOnShortestRouteFrom`, Q 70-89. -/
def Place.shortest (m : Map K) (change : Bool) (p : Pose K) (t : Place K) : Option (Pose K) := match t.poses with
  | [] => none
  | q :: _ => some (t.poses.foldl (fun best x => if (m.route change p.id x.id).length < (m.route change p.id best.id).length then x else best) q)

/-- D 60-67. -/
def Place.seen (m : Map K) (change : Bool) (p : Pose K) (t : Place K) : Pose K :=
  if 1 < t.poses.length then (t.shortest m change p).getD t.pose else t.pose

/-- D 75-84. -/
def nearer : Option K → Option K → Option K
  | some f, some b => some (if b < f then -b else f)
  | some f, none => some f
  | none, some b => some (-b)
  | none, none => none

/-- `longitudinalDistance` without adjacent lanelets, D 54-84. The branch for adjacent lanelets, D 85-119, is not used in the program and not modelled. -/
def longitudinal (m : Map K) (change : Bool) (p q : Place K) : Option K :=
  let t := q.seen m change p.pose
  nearer (ahead m change p.pose t) (ahead m change t p.pose)

/-- The loop L 39-62. -/
def shifts (m : Map K) : List Nat → K → Option K
  | a :: b :: l, d =>
    if b ∈ m.next a then shifts m (b :: l) d
    else match m.across a b with
      | some x => shifts m (b :: l) (d + x)
      | none => match m.across b a with
        | some x => shifts m (b :: l) (d - x)
        | none => none
  | _, d => some d

/-- `lanelet_wrapper::distance::lateralDistance`, L 28-65, and D 31-37. -/
def lateral (m : Map K) (change : Bool) (p q : Pose K) : Option K :=
  let route := m.route change p.id q.id
  if route = [] then none
  else if !change then some (q.offset - p.offset)
  else (shifts m route 0).map (q.offset - p.offset + ·)

/-- `lateralDistance` with a matching distance, D 39-51. -/
def lateralWithin (m : Map K) (change : Bool) (limit : K) (p q : Pose K) : Option K :=
  if |p.offset| ≤ limit ∧ |q.offset| ≤ limit then lateral m change p q else none

/-- `BoundingBox`: the centre and the dimensions. -/
structure Box (K : Type) where
  cx : K
  cy : K
  dx : K
  dy : K
  deriving DecidableEq

/-- `getDistancesFromCenterToEdge`, B 251-264. -/
def Box.front (b : Box K) : K := b.cx + b.dx * (1 / 2)
def Box.rear (b : Box K) : K := b.cx - b.dx * (1 / 2)
def Box.left (b : Box K) : K := b.cy + b.dy * (1 / 2)
def Box.right (b : Box K) : K := b.cy - b.dy * (1 / 2)

/-- D 157-206, `boundingBoxLaneLongitudinalDistance`. -/
def boxLongitudinal (a b : Box K) (d : Option K) : Option K := d.map fun d =>
  d + (if 0 < d then -|a.front| - |b.rear| else if d < 0 then |a.rear| + |b.front| else 0)

/-- D 131-155, `boundingBoxLaneLateralDistance`. -/
def boxLateral (a b : Box K) (d : Option K) : Option K := d.map fun d =>
  d + (if 0 < d then -|a.right| - |b.left| else if d < 0 then |a.left| + |b.right| else 0)

/-- `s` and `offset` of a relative lanelet pose; `none` is a NaN. -/
structure Relative (K : Type) where
  s : Option K
  offset : Option K
  deriving DecidableEq

/-- `relativeLaneletPose`, P 284-310. -/
def relative (m : Map K) (change : Bool) (p q : Place K) : Relative K := ⟨longitudinal m change p q, lateral m change p.pose q.pose⟩

/-- `boundingBoxRelativeLaneletPose`, P 313-338. -/
def boxRelative (m : Map K) (change : Bool) (p : Place K) (a : Box K) (q : Place K) (b : Box K) : Relative K :=
  ⟨boxLongitudinal a b (longitudinal m change p q), boxLateral a b (lateral m change p.pose q.pose)⟩

end Verif.Distance
