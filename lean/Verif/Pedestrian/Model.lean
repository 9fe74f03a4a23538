import Verif.Geometry.Turn
import Verif.Speed.Model
/-
Pedestrians: /repo/simulation/behavior_tree_plugin/src, with PW = pedestrian/walk_straight_action.cpp, PF = pedestrian/follow_lane_action.cpp,
PN = pedestrian/pedestrian_action_node.cpp, A = action_node.cpp, and BB = /repo/common/math/geometry/src/bounding_box.cpp,
UP = /repo/simulation/traffic_simulator/src/utils/pose.cpp.

Numbers are real numbers. Entities stand upright: roll and pitch are zero, so that an orientation is its yaw. The tests of Boost.Geometry for rings are parameters, and so is the map.
-/
namespace Verif.Pedestrian
open Classical

/-- Exceptions, and reading past the end of a vector. -/
inductive Fault where
  | thrown
  | undefined
  deriving DecidableEq

/-- A point of the plane. -/
abbrev Point := ℝ × ℝ

/-- What the actions read of an entity: `getMapPose()`, `getBoundingBox()`, whether `getType()` is `EGO`, and `getLaneletId()` if `isInLanelet()`. -/
structure Body where
  x : ℝ
  y : ℝ
  z : ℝ
  yaw : ℝ
  /-- `bounding_box.center` -/
  cx : ℝ
  cy : ℝ
  /-- `bounding_box.dimensions` -/
  length : ℝ
  width : ℝ
  ego : Bool
  lane : Option ℤ

/-- `isPointInFront`, PW 59-68 -/
noncomputable def isPointInFront (b : Body) (p : Point) : Prop :=
  let angle := Geometry.atan2 (p.2 - b.y) (p.1 - b.x)
  |Geometry.atan2 (Real.sin (angle - b.yaw)) (Real.cos (angle - b.yaw))| ≤ Real.pi / 2

/-- `transformPoints` for one point, /repo/common/math/geometry/src/transform.cpp. -/
noncomputable def toWorld (b : Body) (p : Point) : Point :=
  (b.x + (p.1 * Real.cos b.yaw - p.2 * Real.sin b.yaw), b.y + (p.1 * Real.sin b.yaw + p.2 * Real.cos b.yaw))

/-- `getPointsFromBbox`, BB 129-157, in the frame of the map. -/
noncomputable def corners (b : Body) : List Point :=
  let front := b.cx + b.length * (1 / 2)
  let rear := b.cx - b.length * (1 / 2)
  let left := b.cy + b.width * (1 / 2)
  let right := b.cy - b.width * (1 / 2)
  [toWorld b (front, left), toWorld b (rear, left), toWorld b (rear, right), toWorld b (front, right)]

/-- `translatePoint`, PW 74-83 -/
noncomputable def translatePoint (p : Point) (yaw distance : ℝ) : Point := (p.1 + distance * Real.cos yaw, p.2 + distance * Real.sin yaw)

/-- `detection_area_points`, PW 85-106 -/
noncomputable def areaPoints (b : Body) (horizon : ℝ) : List Point :=
  ((corners b).filter (isPointInFront b ·)).flatMap fun p => [p, translatePoint p b.yaw horizon]

/-- `toBoostPolygon`, BB 220-229 -/
def ring : List Point → Except Fault (List Point)
  | p :: q :: r :: s :: _ => .ok [p, q, r, s, p]
  | _ => .error .undefined

/-- `boost::geometry::intersects` and `disjoint` of two polygons (Boost, not in /repo). -/
structure Boost where
  intersects : List Point → List Point → Bool
  disjoint : List Point → List Point → Bool

/-- `isEntityColliding`, PW 70-121 -/
noncomputable def isEntityColliding (g : Boost) (b : Body) (horizon : ℝ) (o : Body) : Except Fault Bool := do
  let area ← ring (areaPoints b horizon)
  let other ← ring (corners o)
  if g.intersects area other || g.intersects other area then return true
  else if g.disjoint area other then return false
  else return true

/-- `math::geometry::norm` of the difference of the positions. -/
noncomputable def distance (b o : Body) : ℝ := Real.sqrt ((o.x - b.x) ^ 2 + (o.y - b.y) ^ 2 + (o.z - b.z) ^ 2)

/-- `isObstacleInFrontOfPedestrian`, PW 142-158: the loop over the other entities. -/
noncomputable def obstacleAmong (g : Boost) (b : Body) (horizon : ℝ) : List Body → Except Fault Bool
  | [] => .ok false
  | o :: os =>
    if distance b o ≤ horizon ∧ isPointInFront b (o.x, o.y) then do
      if ← isEntityColliding g b horizon o then return true else obstacleAmong g b horizon os
    else obstacleAmong g b horizon os

/-- `SeeAroundMode`, the parameter `pedestrian_ignore_see_around` and its text, PN 32-52. -/
def parseMode : Option String → Except Fault Bool
  | none => .ok false
  | some "blind" => .ok false
  | some "aware" => .ok true
  | some _ => .error .thrown

/-- What the actions read besides the entities. -/
structure View where
  /-- whether the mode is `aware` -/
  aware : Bool
  /-- `behavior_parameter_.see_around` -/
  seeAround : Bool
  /-- the parameter `use_trajectory_based_front_entity_detection` -/
  byTrajectory : Bool
  /-- whether `getFrontEntityNameAndDistanceByTrajectory` finds an entity -/
  trajectoryFront : Bool
  /-- `calculateStopDistance` -/
  stopDistance : ℝ
  /-- `target_speed_` as it is on the blackboard -/
  target : Option ℝ
  /-- `followingLanelets` -/
  lanes : List ℤ
  /-- `speedLimit(following_lanelets)` -/
  limit : ℝ

/-- `isObstacleInFront`, PW 123-165, with `front_entity_margin` of walk_straight_action.hpp, line 63. -/
noncomputable def isObstacleInFront (g : Boost) (v : View) (b : Body) (others : List Body) : Except Fault Bool :=
  if !v.seeAround || !v.aware then .ok false
  else if v.byTrajectory then .ok v.trajectoryFront
  else obstacleAmong g b (v.stopDistance + b.length + 2) others

/-- `doAction`, PW 216-229: the speed that the pedestrian is to walk at. -/
noncomputable def walkSpeed (g : Boost) (v : View) (b : Body) (others : List Body) : Except Fault ℝ := do
  let target := v.target.getD (1111 / 1000)
  return if ← isObstacleInFront g v b others then 0 else target

/-- `hasObstacleInPedestrianLanes`, PF 54-80 -/
noncomputable def inLanes (b : Body) (others : List Body) (lanes : List ℤ) (max : ℝ) : Bool :=
  let found := others.filterMap fun o => if o.ego = true ∧ distance b o < max then o.lane else none
  lanes.any fun l => l ∈ found

/-- `hasObstacleInFrontOfPedestrian`, PF 82-96 -/
noncomputable def inFront (b : Body) (others : List Body) : Bool := others.any fun o => 0 < Geometry.atan2 (o.y - b.y) (o.x - b.x)

/-- `detectObstacleInLane`, PF 43-117 -/
noncomputable def detectObstacleInLane (v : View) (b : Body) (others : List Body) : Bool :=
  if !v.aware then false
  else if !v.seeAround then false
  else if v.byTrajectory then v.trajectoryFront
  else inLanes b others v.lanes 10 && inFront b others

/-- `doAction`, PF 178-200: the speed that the pedestrian is to walk at; `none` stands for `stopEntity`. -/
noncomputable def laneSpeed (v : View) (b : Body) (others : List Body) : Option ℝ :=
  match b.lane with
  | none => none
  | some _ => some (if detectObstacleInLane v b others then 0 else v.target.getD v.limit)

/-! ### Walking -/

/-- A pose on a lane: `lanelet_id`, `s`, `offset` and `rpy.z`. -/
structure LanePose where
  lane : ℤ
  s : ℝ
  offset : ℝ
  yaw : ℝ

/-- A pose in the world. -/
structure Pose where
  x : ℝ
  y : ℝ
  z : ℝ
  yaw : ℝ

/-- What is read of the map: `laneletLength`, `toMapPose`, and the lanelet of `toCanonicalizedLaneletPose` if there is one. -/
structure Map where
  length : ℤ → ℝ
  toMap : LanePose → Pose
  near : Pose → Option ℤ

/-- `Eigen::Rotation2Dd` applied to a vector. -/
noncomputable def rotate (angle : ℝ) (p : Point) : Point :=
  (Real.cos angle * p.1 - Real.sin angle * p.2, Real.sin angle * p.1 + Real.cos angle * p.2)

/-- The displacement of UP 192-210. -/
noncomputable def displacement (m : Map) (l : LanePose) (velocity : Point) (isGlobal : Bool) (dt : ℝ) : Point :=
  let v := if isGlobal then rotate (-(m.toMap l).yaw) velocity else velocity
  let r := rotate l.yaw v
  (r.1 * dt, r.2 * dt)

/-- `updatePositionForLaneletTransition`, UP 182-231 -/
noncomputable def transition (m : Map) (l : LanePose) (next : ℤ) (velocity : Point) (isGlobal : Bool) (dt : ℝ) : Except Fault (Option Pose) :=
  let d := displacement m l velocity isGlobal dt
  let remaining := m.length l.lane - l.s
  if d.1 ≤ remaining then .ok none
  else if d.1 - remaining < m.length next then .ok (some (m.toMap ⟨next, d.1 - remaining, l.offset + d.2, l.yaw⟩))
  else .error .thrown

/-- A pedestrian: pose, motion along its heading, velocity and acceleration across it, angular velocity and acceleration, and the pose on a lane if there is one. -/
structure Walker where
  pose : Pose
  motion : Speed.State ℝ
  side : ℝ
  sideAcceleration : ℝ
  spin : ℝ
  spinAcceleration : ℝ
  lane : Option LanePose

/-- The pose before the correction at the end of a lanelet, A 472-490. -/
noncomputable def free (p : Pose) (speed side spin dt : ℝ) : Pose :=
  let yaw := p.yaw + spin * dt
  let d := rotate yaw (speed * dt, side * dt)
  ⟨p.x + d.1, p.y + d.2, p.z, yaw⟩

/-- `build_updated_pose`, A 467-512 -/
noncomputable def updatedPose (m : Map) (w : Walker) (speed side spin dt : ℝ) : Except Fault Pose :=
  let p := free w.pose speed side spin dt
  match w.lane with
  | none => .ok p
  | some l => match m.near p with
    | none => .ok p
    | some next => do
      match ← transition m l next (speed, side) false dt with
      | none => return p
      | some q => return { p with x := q.x, y := q.y, z := q.z }

/-- `calculateUpdatedEntityStatusInWorldFrame`, A 449-532, with the speed planner of the area Speed: what it does across the heading and with angles is integrated without limits. The
pose on a lane is determined afterwards by `settle` (PN 59-80, and the area Place). -/
noncomputable def walk (m : Map) (settle : Pose → Option LanePose) (dt : ℝ) (c : Speed.Constraints ℝ) (target : ℝ) (w : Walker) : Except Fault Walker :=
  match Speed.step dt c target w.motion with
  | none => .error .undefined
  | some motion => do
    let side := w.side + w.sideAcceleration * dt
    let spin := w.spin + w.spinAcceleration * dt
    let pose ← updatedPose m w motion.speed side spin dt
    return ⟨pose, motion, side, (side - w.side) / dt, spin, (spin - w.spin) / dt, settle pose⟩

/-- Frame by frame, with the speeds that the pedestrian is to walk at. -/
noncomputable def walks (m : Map) (settle : Pose → Option LanePose) (dt : ℝ) (c : Speed.Constraints ℝ) : List ℝ → Walker → Except Fault Walker
  | [], w => .ok w
  | t :: ts, w => do walks m settle dt c ts (← walk m settle dt c t w)

/-! ### Waypoints -/

/-- `getHorizon`, A 140-143 -/
noncomputable def horizon (speed : ℝ) : ℝ := if speed * 5 < 20 then 20 else if 50 < speed * 5 then 50 else speed * 5

/-- `append_if_different`, PW 172-184 and PF 142-154; all points have the height of the pedestrian. -/
noncomputable def appendIfDifferent (l : List Point) (p : Point) : List Point :=
  match l.getLast? with
  | none => [p]
  | some q => if 1 / 1000 < Real.sqrt ((q.1 - p.1) ^ 2 + (q.2 - p.2) ^ 2) then l ++ [p] else l

/-- The loop of PW 194-199, for `n` rounds: the waypoints, the point and `accumulated`. -/
noncomputable def stride (yaw horizon : ℝ) : Nat → List Point × Point × ℝ → List Point × Point × ℝ
  | 0, s => s
  | n + 1, s =>
    if s.2.2 + 1 ≤ horizon then
      let p := (s.2.1.1 + 1 * Real.cos yaw, s.2.1.2 + 1 * Real.sin yaw)
      stride yaw horizon n (appendIfDifferent s.1 p, p, s.2.2 + 1)
    else s

/-- `calculateWaypoints`, PW 167-209; the horizon is at most 50, so that the loop has at most 50 rounds. -/
noncomputable def walkWaypoints (p : Pose) (speed : ℝ) : List Point :=
  let h := horizon speed
  let s := stride p.yaw h 51 (appendIfDifferent [] (p.x, p.y), (p.x, p.y), 0)
  if Geometry.eps < h - s.2.2 then
    appendIfDifferent s.1 (s.2.1.1 + (h - s.2.2) * Real.cos p.yaw, s.2.1.2 + (h - s.2.2) * Real.sin p.yaw)
  else s.1

end Verif.Pedestrian
