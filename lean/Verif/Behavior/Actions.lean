import Mathlib.Algebra.Order.Field.Basic
import Verif.Behavior.Tree
/-
The actions of vehicles: /repo/simulation/behavior_tree_plugin/src/vehicle, with
A = ../action_node.cpp, FL = follow_lane_sequence/follow_lane_action.cpp, FF = follow_lane_sequence/follow_front_entity_action.cpp,
SL = follow_lane_sequence/stop_at_stop_line_action.cpp, TL = follow_lane_sequence/stop_at_traffic_light_action.cpp,
SC = follow_lane_sequence/stop_at_crossing_entity_action.cpp, YA = follow_lane_sequence/yield_action.cpp,
MB = follow_lane_sequence/move_backward_action.cpp, LC = lane_change_action.cpp and
FT = follow_trajectory_sequence/follow_polyline_trajectory_action.cpp.

Numbers are the elements of an ordered field. What an action reads of the road and of the other entities is a value of `View`; what it writes for visualisation (waypoints and
obstacles) is left out. Waypoints are empty if and only if the vehicle moves backward (forward, for `MoveBackward`): the trajectory has at least one point.
-/
namespace Verif.Behavior

variable {K : Type} [Field K] [LinearOrder K]

/-- What the actions read. Distances are measured along the trajectory from the vehicle; `none` means that there is nothing of the kind on the trajectory. -/
structure View (K : Type) where
  /-- `isInLanelet()` -/
  lane : Bool
  /-- `getTwist().linear.x` -/
  speed : K
  /-- `behavior_parameter_.see_around` -/
  seeAround : Bool
  /-- `isNeedToRightOfWay`, /repo/simulation/traffic_simulator/src/utils/route.cpp -/
  mustYield : Bool
  /-- the parameter `use_trajectory_based_front_entity_detection`, FL 36-37 -/
  byTrajectory : Bool
  /-- `getFrontEntityNameAndDistanceByTrajectory`, A 392-408, with the speed of that entity -/
  trajectoryFront : Option (K × K)
  /-- `getFrontEntityName` and `splineDistanceToBoundingBox`, FF 124-132, with the speed of that entity -/
  laneFront : Option (K × K)
  /-- `getDistanceToFrontEntity`, A 174-193 -/
  near : Option K
  /-- `getDistanceToActiveTrafficLightStopLine` -/
  light : Option K
  /-- `distanceToStopLine` -/
  stopLine : Option K
  /-- `distanceToNearestConflictingPose` -/
  conflict : Option K
  /-- `getYieldStopDistance`, A 159-172 -/
  yieldStop : Option K
  /-- `calculateStopDistance`, A 534-542 -/
  stopDistance : K
  /-- the length of the bounding box of the vehicle -/
  length : K
  /-- `speedLimit(route_lanelets_)` -/
  limit : K
  /-- `speedLimit(previousLanelets(…))`, MB 75-76 -/
  backLimit : K
  /-- `target_speed_` -/
  target : Option K
  deriving DecidableEq

/-- `traffic_simulator::lane_change::Constraint::Type`, /repo/simulation/traffic_simulator/include/traffic_simulator/data_type/lane_change.hpp. -/
inductive ConstraintType where
  | none
  | lateralVelocity
  | longitudinalDistance
  | time
  deriving DecidableEq

/-- The part of `traffic_simulator::lane_change::Parameter` that is read by LC. `force` is the policy `FORCE`, otherwise it is `BEST_EFFORT`. -/
structure LaneChange (K : Type) where
  lanelet : Nat
  type : ConstraintType
  value : K
  force : Bool
  deriving DecidableEq

/-- The members of `LaneChangeAction`: `curve_`, `current_s_`, `target_s_` and `lane_change_velocity_`. -/
structure LaneState (C K : Type) where
  curve : Option C
  s : K
  targetS : K
  velocity : K
  deriving DecidableEq

/-- The entity with the members of its lane change action. -/
structure Car (B C K : Type) where
  body : B
  lane : LaneState C K
  deriving DecidableEq

/-- What surrounds the actions. -/
structure Env (B C K : Type) where
  view : B → View K
  /-- `setCanonicalizedEntityStatus(calculateUpdatedEntityStatus(v))`, A 152-157, 410-447 -/
  move : K → B → Except Fault B
  /-- `stopEntity`, A 145-150 -/
  stop : B → B
  /-- the blackboard entry `lane_change_parameters` -/
  change : B → Option (LaneChange K)
  /-- `laneChangeTrajectory`, LC 92-93 -/
  path : B → LaneChange K → Option (C × K)
  /-- the length of a curve -/
  arc : C → K
  /-- LC 94-104: the distance of the vehicle across the lane from the goal on the target lane -/
  across : B → LaneChange K → K → K
  /-- the assignments to speed and acceleration in LC 135-137, 167-168 -/
  setSpeed : K → K → B → B
  /-- LC 173-179 -/
  putOnCurve : C → K → B → B
  /-- LC 200-210: the lanelet, the position along it and the offset -/
  putOnLane : Nat → K → K → B → B
  /-- `behavior_parameter_.dynamic_constraints.max_deceleration`, `max_acceleration`, `vehicle_parameters.performance.max_speed` and `step_time_` -/
  maxDeceleration : B → K
  maxAcceleration : B → K
  maxSpeed : B → K
  dt : K
  /-- FT 57-71 and 84-95, once the request is that of following a trajectory: a precondition that does not hold is `none` -/
  follow : B → Except Fault (Option (Bool × B))

/-- `getHorizon`, A 140-143; `std::clamp` with constant bounds. -/
def View.horizon (v : View K) : K := if v.speed * 5 < 20 then 20 else if 50 < v.speed * 5 then 50 else v.speed * 5

/-- `request_ != NONE && request_ != FOLLOW_LANE`, negated: FL 79-81 and the like. -/
def plain (r : Request) : Bool := r = .none || r = .followLane

/-- `if (x) { if (p(x.value())) { return FAILURE; } }` -/
def blocks (x : Option K) (p : K → Bool) : Bool := match x with
  | some d => p d
  | none => false

/-- `std::clamp`, which is undefined if the bounds are swapped. -/
def clampE (x lo hi : K) : Except Fault K :=
  if hi < lo then .error .undefined else .ok (if x < lo then lo else if hi < x then hi else x)

/-- `setCanonicalizedEntityStatus(calculateUpdatedEntityStatus(v)); return RUNNING;` -/
def drive {B C : Type} (env : Env B C K) (v : K) (c : Car B C K) : Except Fault (Status × Car B C K) := do
  let b ← env.move v c.body
  return (.running, { c with body := b })

/-- FL 77-169 -/
def followLane {B C : Type} (env : Env B C K) : Act (Car B C K) := fun r c =>
  let v := env.view c.body
  if !plain r then .ok (.failure, c)
  else if !v.lane then .ok (.running, { c with body := env.stop c.body })
  else if v.speed < 0 then .ok (.failure, c)
  else if v.seeAround && v.mustYield then .ok (.failure, c)
  else if v.seeAround && blocks (if v.byTrajectory then v.trajectoryFront.map (·.1) else v.near) (· ≤ v.stopDistance + v.length + 5) then .ok (.failure, c)
  else if v.seeAround && blocks v.light (· ≤ v.horizon) then .ok (.failure, c)
  else if v.seeAround && blocks v.stopLine (· ≤ v.stopDistance + v.length * (1 / 2) + 5) then .ok (.failure, c)
  else if v.seeAround && blocks v.conflict (· < v.length + 3 + v.stopDistance) then .ok (.failure, c)
  else drive env (v.target.getD v.limit) c

/-- FF 80-186 -/
def followFront {B C : Type} (env : Env B C K) : Act (Car B C K) := fun r c =>
  let v := env.view c.body
  if !plain r then .ok (.failure, c)
  else if v.mustYield then .ok (.failure, c)
  else if !v.seeAround then .ok (.failure, c)
  else if !v.lane then .error .thrown
  else if v.speed < 0 then .ok (.failure, c)
  else match (if v.byTrajectory then v.trajectoryFront else v.laneFront) with
    | none => .ok (.failure, c)
    | some (d, u) =>
      if blocks v.conflict (· < d) then .ok (.failure, c)
      else if blocks v.stopLine (· < d) then .ok (.failure, c)
      else
        let target := v.target.getD v.limit
        if target ≤ u then drive env target c
        else do
          let w ← clampE (if d ≤ v.stopDistance then 0 else if v.stopDistance + v.length + 5 ≤ d then u + 2 else u) 0 target
          drive env w c

/-- `calculateTargetSpeed`, TL 73-87, SL 71-86, SC 74-85 and YA 74-88, when there is a distance. -/
def approach (v : View K) (d : K) : K := if d - (v.length * (1 / 2) + 1) < v.stopDistance then 0 else v.speed

/-- TL 127-133, SL 154-160, SC 137-143 -/
def lower (target : Option K) (w : K) : K := match target with
  | some t => if w < t then w else t
  | none => w

/-- TL 89-139 -/
def stopAtLight {B C : Type} (env : Env B C K) : Act (Car B C K) := fun r c =>
  let v := env.view c.body
  if !plain r then .ok (.failure, c)
  else if !v.lane then .ok (.failure, c)
  else if !v.seeAround then .ok (.failure, c)
  else if v.mustYield then .ok (.failure, c)
  else if v.speed < 0 then .ok (.failure, c)
  else match v.light with
    | none => .ok (.failure, c)
    | some d => if v.horizon < d then .ok (.failure, c) else drive env (lower v.target (approach v d)) c

/-- SL 88-165; `getLaneletPose` throws if there is none. -/
def stopAtLine {B C : Type} (env : Env B C K) : Act (Car B C K) := fun r c =>
  let v := env.view c.body
  if !plain r then .ok (.failure, c)
  else if !v.seeAround then .ok (.failure, c)
  else if v.mustYield then .ok (.failure, c)
  else if v.speed < 0 then .ok (.failure, c)
  else if !v.lane then .error .thrown
  else match v.stopLine with
    | none => .ok (.failure, c)
    | some d =>
      if blocks v.near (· ≤ d) then .ok (.failure, c)
      else if blocks v.conflict (· ≤ d) then .ok (.failure, c)
      else if v.speed < 1 / 1000 && decide (d ≤ v.length + 5) then drive env (v.target.getD v.limit) c
      else drive env (lower v.target (approach v d)) c

/-- SC 87-148 -/
def stopAtCrossing {B C : Type} (env : Env B C K) : Act (Car B C K) := fun r c =>
  let v := env.view c.body
  if !plain r then .ok (.failure, c)
  else if !v.lane then .ok (.failure, c)
  else if !v.seeAround then .ok (.failure, c)
  else if v.mustYield then .ok (.failure, c)
  else if v.speed < 0 then .ok (.failure, c)
  else match v.conflict with
    | none => .ok (.failure, c)
    | some d =>
      if blocks v.near (· ≤ d) then .ok (.failure, c)
      else if blocks v.stopLine (· ≤ d) then .ok (.failure, c)
      else drive env (lower v.target (approach v d)) c

/-- The end of YA 105-136, after the vehicle has moved: `calculateWaypoints`, YA 55-72, looks at the new state. -/
def afterYield {B C : Type} (env : Env B C K) (s : Status) (c : Car B C K) : Except Fault (Status × Car B C K) :=
  if !(env.view c.body).lane then .error .thrown
  else if (env.view c.body).speed < 0 then .ok (.failure, c)
  else .ok (s, c)

/-- YA 90-136 -/
def yielding {B C : Type} (env : Env B C K) : Act (Car B C K) := fun r c =>
  let v := env.view c.body
  if !plain r then .ok (.failure, c)
  else if !v.seeAround then .ok (.failure, c)
  else if !v.lane then .ok (.failure, c)
  else if !v.mustYield then do
    let b ← env.move (v.target.getD v.limit) c.body
    afterYield env .success { c with body := b }
  else do
    let b ← env.move (match v.yieldStop with
      | some d => approach v d
      | none => v.limit) c.body
    afterYield env .running { c with body := b }

/-- MB 55-83 -/
def moveBackward {B C : Type} (env : Env B C K) : Act (Car B C K) := fun r c =>
  let v := env.view c.body
  if !plain r then .ok (.failure, c)
  else if !v.lane then .ok (.failure, c)
  else if 0 ≤ v.speed then .ok (.failure, c)
  else drive env (v.target.getD v.backLimit) c

/-- FT 57-96 -/
def followTrajectory {B C : Type} (env : Env B C K) : Act (Car B C K) := fun r c =>
  if r ≠ .followTrajectory then .ok (.failure, c)
  else match env.follow c.body with
    | .error f => .error f
    | .ok none => .ok (.failure, c)
    | .ok (some (true, b)) => .ok (.running, { c with body := b })
    | .ok (some (false, b)) => .ok (.success, { c with body := b })

/-- LC 86-126: the curve is made, unless there is one; the result is the failure that ends the action. -/
def planLaneChange {B C : Type} (env : Env B C K) (p : LaneChange K) (c : Car B C K) : Except Fault (Option (C × Car B C K)) :=
  match c.lane.curve with
  | some curve => .ok (some (curve, c))
  | none =>
    let v := env.view c.body
    if !v.lane then .ok none
    else match env.path c.body p with
      | none => .ok none
      | some (curve, goal) => do
        let w := match p.type with
          | .none => v.speed
          | .lateralVelocity => env.arc curve / (env.across c.body p goal / p.value)
          | .longitudinalDistance => v.speed
          | .time => env.arc curve / p.value
        let w ← match v.target with
          | some t => clampE w 0 t
          | none => .ok w
        return some (curve, { c with lane := ⟨some curve, c.lane.s, goal, w⟩ })

/-- LC 129-171: the new speed and acceleration. A number is greater than an empty `std::optional`. -/
def speedOfChange {B C : Type} (env : Env B C K) (p : LaneChange K) (c : Car B C K) : Except Fault (K × K) :=
  if p.force then .ok (c.lane.velocity, 0)
  else do
    let v := env.view c.body
    let a := (c.lane.velocity - v.speed) / env.dt
    let faster := match v.target with
      | some t => decide (t < v.speed)
      | none => true
    let a ← if faster then clampE a (env.maxDeceleration c.body * -1) 0 else clampE a 0 (env.maxAcceleration c.body)
    let w ← clampE (v.speed + a * env.dt) (-10) (env.maxSpeed c.body)
    return (w, a)

/-- LC 128-213: the vehicle is moved along the curve, or onto the target lane. `calculateWaypoints`, LC 42-55, is empty for a negative speed. -/
def followCurve {B C : Type} (env : Env B C K) (p : LaneChange K) (curve : C) (c : Car B C K) : Except Fault (Status × Car B C K) := do
  let (w, a) ← speedOfChange env p c
  let s := c.lane.s + w * env.dt
  let b := env.setSpeed w a c.body
  if s < env.arc curve then
    let c : Car B C K := ⟨env.putOnCurve curve s b, { c.lane with s := s }⟩
    if w < 0 then return (.failure, c) else return (.running, c)
  else if w < 0 then return (.failure, ⟨b, { c.lane with s := s }⟩)
  else return (.success, ⟨env.putOnLane p.lanelet (s - env.arc curve + c.lane.targetS) 0 b, ⟨none, 0, c.lane.targetS, 0⟩⟩)

/-- LC 69-215 -/
def laneChange {B C : Type} (env : Env B C K) : Act (Car B C K) := fun r c =>
  if r ≠ .laneChange then .ok (.failure, { c with lane := { c.lane with curve := none, s := 0 } })
  else match env.change c.body with
    | none => .ok (.failure, { c with lane := { c.lane with curve := none, s := 0 } })
    | some p => match planLaneChange env p c with
      | .error f => .error f
      | .ok none => .ok (.failure, c)
      | .ok (some (curve, c)) => followCurve env p curve c

/-- The actions of vehicles by the node that runs them, VB 38-49 (../vehicle/behavior_tree.cpp). -/
def vehicleActs {B C : Type} (env : Env B C K) : Node → Act (Car B C K)
  | .laneChange => laneChange env
  | .followTrajectory => followTrajectory env
  | .followLane => followLane env
  | .front => followFront env
  | .light => stopAtLight env
  | .stopLine => stopAtLine env
  | .crossing => stopAtCrossing env
  | .yield => yielding env
  | .backward => moveBackward env
  | _ => fun _ c => .ok (.failure, c)

/-- One frame of a vehicle. -/
def frame {B C : Type} (env : Env B C K) : World (Car B C K) → Option (Except Fault (World (Car B C K))) :=
  update (vehicleTree (vehicleActs env))

end Verif.Behavior
