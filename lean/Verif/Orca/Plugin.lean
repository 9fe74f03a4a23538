import Verif.Orca.Model
/-
The pedestrian of /repo/simulation/context_gamma_planner: where it wants to go (planners and tree of actions), and how it is moved. Paths are relative
to /repo/simulation/context_gamma_planner/src. The tree of actions is run by BehaviorTree.CPP (not in /repo); of it are modelled `Fallback`, the
changes of status, and that a change to another status is announced. Orientations are level: a heading.
-/
namespace Verif.Orca
open Geometry Classical

/-! ### Planners -/

/-- `std::hypot` of the differences of x and y. -/
noncomputable def hypot2 (a b : Pt) : ℝ := Real.sqrt ((a.x - b.x) ^ 2 + (a.y - b.y) ^ 2)

/-- The second loop of planner/pedestrian/follow_lane_planner.cpp, lines 64-76, on goals that are not empty. -/
noncomputable def dropNear (threshold : ℝ) (own : Pt) (front : Pt) : List Pt → Pt × List Pt
  | [] => (front, [])
  | next :: rest => if hypot2 own front < threshold then dropNear threshold own next rest else (front, next :: rest)

/-- `FollowLanePlanner::calculateNextGoalPoint`, planner/pedestrian/follow_lane_planner.cpp, lines 39-77, after the checks. -/
noncomputable def laneGoal (threshold : ℝ) (own : Pt) (goals : List Pt) : Option Pt :=
  match goals.dropWhile (fun g => decide (threshold ≤ hypot2 own g)) with
  | [] => none
  | front :: rest => some (dropNear threshold own front rest).1

/-- x of `getRelativePose` is not negative: the point is not behind. Level orientations. -/
noncomputable def notBehind (own : Pt) (yaw : ℝ) (g : Pt) : Bool :=
  decide (0 ≤ (g.x - own.x) * Real.cos yaw + (g.y - own.y) * Real.sin yaw)

/-- The condition of planner/follow_polyline_trajectory_planner_base.cpp, lines 80-84. -/
noncomputable def reached (threshold : ℝ) (own : Pt) (yaw : ℝ) (g : Pt) : Bool :=
  notBehind own yaw g && decide (hypot2 own g ≤ threshold)

/-- One round of the loop of planner/follow_polyline_trajectory_planner_base.cpp, lines 79-92: `none` if it returns. -/
noncomputable def advance (threshold : ℝ) (own : Pt) (yaw : ℝ) (closed : Bool) : List Pt → Option (List Pt)
  | [] => none
  | g :: rest => if reached threshold own yaw g then some (if closed then rest ++ [g] else rest) else none

/-- The loop of planner/follow_polyline_trajectory_planner_base.cpp, lines 79-92, with its rounds counted: the goals where it returns, `none` if
it has not done so after `n` rounds. -/
noncomputable def advances (threshold : ℝ) (own : Pt) (yaw : ℝ) (closed : Bool) : Nat → List Pt → Option (List Pt)
  | 0, _ => none
  | n + 1, goals => match advance threshold own yaw closed goals with
    | none => some goals
    | some goals' => advances threshold own yaw closed n goals'

/-- `traffic_simulator_msgs::msg::PolylineTrajectory`, as far as it is read. Times are `none` if they are NaN. -/
structure Trajectory where
  vertices : List (Pt × Option ℝ)
  closed : Bool
  ignorable : Bool
  base : Option ℝ

/-- What the actions read in one frame. `center`: the center points of the route lanelets. `sampled`: points every metre on the Catmull-Rom spline
through points. -/
structure Env where
  position : Pt
  yaw : ℝ
  targetSpeed : Option ℝ
  center : List Pt
  trajectory : Option Trajectory
  sampled : List Pt → List Pt
  now : ℝ

/-- `setWaypoints`, planner/follow_polyline_trajectory_planner_base.cpp, lines 28-49. -/
def waypoints (sampled : List Pt → List Pt) (t : Trajectory) : List Pt :=
  if t.ignorable then t.vertices.map (·.1) else sampled (t.vertices.map (·.1))

/-- `std::fmod`. `none`: NaN. -/
noncomputable def fmod (a b : ℝ) : Option ℝ :=
  if b = 0 then none else some (a - b * if 0 ≤ a / b then (⌊a / b⌋ : ℝ) else (⌈a / b⌉ : ℝ))

/-- The vertex of `getCurrentTrajectoryWaypointIndex`, planner/follow_polyline_trajectory_planner_base.cpp, lines 51-61: the first that is not
behind, or the last. -/
noncomputable def currentVertex (own : Pt) (yaw : ℝ) (vertices : List (Pt × Option ℝ)) : Option (Pt × Option ℝ) :=
  match vertices.find? (fun v => notBehind own yaw v.1) with
  | some v => some v
  | none => vertices.getLast?

/-- `getTargetSpeed`, planner/follow_polyline_trajectory_planner_base.cpp, lines 96-114, on goals with `front`. `none`: NaN. -/
noncomputable def timedSpeed (own : Pt) (yaw : ℝ) (t : Trajectory) (front : Pt) (maxSpeed now : ℝ) : Option ℝ :=
  if (match t.base with | some b => decide (now < b) | none => false) then some 0
  else match (do
      let b ← t.base
      let v ← currentVertex own yaw t.vertices
      let l ← t.vertices.getLast?
      fmod (b + (← v.2)) (← l.2)) with
    | none => none
    | some goalTime => if goalTime ≤ now then some maxSpeed else some (hypot2 own front / (goalTime - now))

/-! ### Tree of actions -/

/-- `traffic_simulator::behavior::Request`. `other`: `LANE_CHANGE` and `WALK_STRAIGHT`. -/
inductive Request
  | nothing | followLane | followTrajectory | other
deriving DecidableEq

/-- `BT::NodeStatus`. -/
inductive Status
  | idle | running | success | failure
deriving DecidableEq

/-- The nodes of /repo/simulation/context_gamma_planner/config/pedestrian_behavior.xml. -/
inductive Node
  | root | followLane | followTrajectory
deriving DecidableEq

/-- What does not end with a new state of the tree. -/
inductive Fault
  | thrown | undefined | endless
deriving DecidableEq

/-- The tree, the planners' members and the values on the blackboard. `second`: the fallback is at its second child. `speed`: `planning_speed`, a
speed of NaN is `some none`. -/
structure Brain where
  request : Request
  root : Status
  lane : Status
  polyline : Status
  second : Bool
  action : Option Node
  goals : List Pt
  known : Option Trajectory
  given : Option Trajectory
  maxSpeed : ℝ
  goal : Pt
  speed : Option (Option ℝ)

/-- `getRequestString(request) == current_action_`, transition_events/reset_request_event.cpp, line 36. -/
def names : Request → Option Node → Bool
  | .followLane, some .followLane => true
  | .followTrajectory, some .followTrajectory => true
  | _, _ => false

/-- A change of status is announced: `TransitionEvent::updateCurrentAction`, transition_events/transition_event.cpp, lines 25-33 and 39-44, and
`ResetRequestEvent::callback`, transition_events/reset_request_event.cpp, lines 29-39. -/
def announce (n : Node) (s : Status) (b : Brain) : Brain :=
  if s = .idle then b
  else
    let action := if s = .success then b.action else some n
    { b with action, request := if (s = .success ∨ s = .failure) ∧ names b.request action then .nothing else b.request }

/-- `BT::TreeNode::setStatus` (BehaviorTree.CPP, not in /repo) -/
def setStatus (n : Node) (s : Status) (b : Brain) : Brain :=
  match n with
  | .root => if b.root = s then b else announce n s { b with root := s }
  | .followLane => if b.lane = s then b else announce n s { b with lane := s }
  | .followTrajectory => if b.polyline = s then b else announce n s { b with polyline := s }

/-- `FollowLaneAction::tick`, behavior/pedestrian/follow_lane_action.cpp, lines 27-57, with the checks of
planner/pedestrian/follow_lane_planner.cpp, lines 41-47. The waypoints that are shown are not modelled. -/
noncomputable def laneTick (e : Env) (b : Brain) : Except Fault (Status × Brain) :=
  if b.request ≠ .nothing ∧ b.request ≠ .followLane then .ok (.failure, b)
  else if e.center = [] then .error .thrown
  else match laneGoal 3 e.position e.center with
    | none => .ok (.success, { b with goal := e.position, speed := some (some 0) })
    | some g => .ok (.running, { b with goal := g, speed := e.targetSpeed.map some })

/-- `FollowPolylineTrajectoryAction::tick`, behavior/pedestrian/follow_polyline_trajectory_action.cpp, lines 26-69. As many rounds of the loop as
there are goals decide: then the goals are again as before. -/
noncomputable def polylineTick (e : Env) (b : Brain) : Except Fault (Status × Brain) :=
  if b.request = .followTrajectory ∧ e.trajectory = none then .error .thrown
  else
    let given := if b.request = .followTrajectory then e.trajectory else b.given
    if b.request ≠ .nothing ∧ b.request ≠ .followTrajectory then .ok (.failure, { b with given, goals := [] })
    else match given with
      | none => .error .undefined
      | some t =>
        if t.vertices = [] then .error .thrown
        else
          let maxSpeed := e.targetSpeed.getD b.maxSpeed
          let known := if b.goals = [] then some t else b.known
          let goals := if b.goals = [] then waypoints e.sampled t else b.goals
          match known with
          | none => .error .thrown
          | some k =>
            if goals = [] then .error .thrown
            else match advances 1 e.position e.yaw k.closed (goals.length + 1) goals with
              | none => .error .endless
              | some [] => .ok (.failure, { b with given, maxSpeed, known, goals := [] })
              | some (g :: rest) =>
                .ok (.running, { b with given, maxSpeed, known, goals := g :: rest, goal := g,
                                        speed := some (timedSpeed e.position e.yaw k g maxSpeed e.now) })

/-- The children are set back: `BT::ControlNode::resetChildren` (BehaviorTree.CPP, not in /repo) -/
def resetChildren (b : Brain) : Brain :=
  { setStatus .followTrajectory .idle (setStatus .followLane .idle b) with second := false }

/-- The fallback at its second child. -/
noncomputable def tickSecond (e : Env) (b : Brain) : Except Fault Brain := do
  let (s, b) ← polylineTick e b
  let b := setStatus .followTrajectory s b
  match s with
  | .running => return setStatus .root .running b
  | .success => return setStatus .root .success (resetChildren b)
  | _ => return setStatus .root .failure (resetChildren b)

/-- `tickOnce`, pedestrian_plugin.cpp, lines 146-151: `executeTick` of the fallback (BehaviorTree.CPP, not in /repo). -/
noncomputable def tick (e : Env) (b : Brain) : Except Fault Brain := do
  let b := setStatus .root .running b
  if b.second then tickSecond e b
  else
    let (s, b) ← laneTick e b
    let b := setStatus .followLane s b
    match s with
    | .running => return setStatus .root .running b
    | .success => return setStatus .root .success (resetChildren b)
    | _ => tickSecond e { b with second := true }

/-- Several ticks in one frame. -/
noncomputable def ticks (e : Env) : Nat → Brain → Except Fault Brain
  | 0, b => .ok b
  | n + 1, b => do ticks e n (← tick e b)

/-- The ticks of one frame, pedestrian_plugin.cpp, lines 84-87: at least one, and on until an action other than the root is current. There is no
state after a frame whose ticks never end. -/
inductive Frame (e : Env) : Brain → Brain → Prop
  | done {b b'} : tick e b = .ok b' → b'.action ≠ some .root → Frame e b b'
  | again {b b' b''} : tick e b = .ok b' → b'.action = some .root → Frame e b' b'' → Frame e b b''

/-! ### Motion -/

/-- An entity, with its linear velocity in its own frame. -/
structure Body where
  name : List Char
  position : Pt
  yaw : ℝ
  velocity : Pt
  box : BBox

/-- `transformLocalToGlobalVelocity`, pedestrian_plugin.cpp, lines 89-96. Level orientations. -/
noncomputable def Body.globalVelocity (b : Body) : Pt :=
  ⟨b.velocity.x * Real.cos b.yaw - b.velocity.y * Real.sin b.yaw, b.velocity.x * Real.sin b.yaw + b.velocity.y * Real.cos b.yaw, b.velocity.z⟩

/-- The middle of the box as seen from above, pedestrian_plugin.cpp, lines 106-107 and 124-127. -/
noncomputable def Body.middle (b : Body) : Pt :=
  ⟨b.position.x + (b.box.center.x * Real.cos b.yaw - b.box.center.y * Real.sin b.yaw),
    b.position.y + (b.box.center.x * Real.sin b.yaw + b.box.center.y * Real.cos b.yaw), b.position.z⟩

/-- The mark of names, pedestrian_plugin.cpp, line 112. -/
def mark : List Char := "__CONTEXT_GAMMA_IGNORE__".toList

/-- `std::string::find` finds the pattern. -/
def occurs (pattern : List Char) : List Char → Bool
  | [] => pattern.isPrefixOf []
  | c :: cs => pattern.isPrefixOf (c :: cs) || occurs pattern cs

/-- The lines of pedestrian_plugin.cpp, lines 109-135. Lines of NaN are left out: no comparison with them is true, so they forbid nothing. -/
noncomputable def linesOf (own : Body) (others : List Body) (step : ℝ) : List Line :=
  (others.filter (fun o => !occurs mark o.name)).filterMap fun o =>
    orcaLine own.globalVelocity (o.middle.sub own.middle) (own.globalVelocity.sub o.globalVelocity) own.box own.yaw o.box o.yaw step

/-- The velocity of pedestrian_plugin.cpp, lines 136-140. A limit of NaN: the wish, if no line forbids it. `none`: an exception, or numbers that are
NaN. -/
noncomputable def velocityFor (lines : List Line) (speed : Option (Option ℝ)) (wish : Pt) : Option Pt :=
  match speed with
  | some none => if lines.all (fun l => decide (violation l wish ≤ 0)) then some wish else none
  | some (some limit) => optimize lines limit wish false
  | none => optimize lines 0 wish false

/-- `updateEgoPose`, pedestrian_plugin.cpp, lines 153-168, with `setLinearVelocity` (/repo/simulation/traffic_simulator/src/data_type/entity_status.cpp,
lines 163-166). -/
noncomputable def moved (b : Body) (v : Pt) (step : ℝ) : Body :=
  { b with
    position := ⟨b.position.x + v.x * step, b.position.y + v.y * step, b.position.z⟩
    yaw := if v.x ≠ 0 ∨ v.y ≠ 0 then atan2 v.y v.x else b.yaw
    velocity := { b.velocity with x := v.norm } }

/-- `update`, pedestrian_plugin.cpp, lines 98-143, after the ticks. -/
noncomputable def move (own : Body) (others : List Body) (goal : Pt) (speed : Option (Option ℝ)) (step : ℝ) : Option Body :=
  (velocityFor (linesOf own others step) speed (goal.sub own.middle)).map (moved own · step)

end Verif.Orca
