/-
Requests to the ego vehicle and what is sent to Autoware.
EE is simulation/traffic_simulator/src/entity/ego_entity.cpp, EH is simulation/traffic_simulator/include/traffic_simulator/entity/ego_entity.hpp, FO is
external/concealer/src/field_operator_application.cpp, AP is simulation/traffic_simulator/src/api/api.cpp.
-/
namespace Verif.Operator

/-- Exceptions, and undefined behaviour: a failed `assert` aborts, and where `NDEBUG` is defined, `back()` of an empty vector follows. -/
inductive Fault where
  | thrown
  | undefined
  deriving DecidableEq

/-- `tier4_rtc_msgs::msg::Command::type` -/
inductive Action where
  | activate
  | deactivate
  deriving DecidableEq

/-- The part of `tier4_rtc_msgs::msg::CooperateStatus` that is read, FO 537-570. `M` is the type of modules and `U` that of their requests. -/
structure Cooperate (M U K : Type) where
  module : M
  uuid : U
  state : Action
  distance : K
  deriving DecidableEq

/-- What is put into the task queue, FO 166-183, 260-319, 334-370, 434-487, 588-600, 604-615. `P` is the type of poses and `I` that of lanelets. What the tasks do, and that they are done in
order, is in Verif.Autoware and Verif.TaskQueue. -/
inductive Task (P I M U K : Type) where
  | changeToStop
  | clearRoute
  | initialize (pose : P)
  | planPoints (goal : P) (waypoints : List P) (modification : Bool)
  | planSegments (goal : P) (segments : List I) (modification : Bool)
  | engage
  | enableControl
  | velocityLimit (v : K)
  | cooperate (module : M) (uuid : U) (command : Action)
  deriving DecidableEq

/-- What is asked of the map. `L` is the type of lanelet poses. -/
structure Road (P L I : Type) where
  /-- `static_cast<geometry_msgs::msg::Pose>(lanelet_pose)` -/
  pose : L → P
  /-- `pose::toCanonicalizedLaneletPose(pose, false)` -/
  lane : P → Option L
  /-- `getLaneletId` -/
  lanelet : L → I
  /-- `route::routeFromGraph` with lane changes allowed -/
  route : I → I → List I

/-- The part of `EgoEntity` that is read or written here: the tasks that were ever put into the queue; `initialized`; `is_controlled_by_simulator_`; `polyline_trajectory_`; `target_speed_`;
`behavior_parameter_.dynamic_constraints.max_speed`; and of the status its time, `S` for the rest, and the lanelet pose. `T` is the type of trajectories. -/
structure Ego (P L I M U T S K : Type) where
  tasks : List (Task P I M U K)
  initialized : Bool
  controlled : Bool
  trajectory : Option T
  targetSpeed : Option K
  maxSpeed : Option K
  time : K
  pose : P
  place : Option L
  rest : S

variable {P L I M U T S K : Type}

/-- The constructor, FO 80-183 and EH 36-39. -/
def Ego.spawn (time : K) (pose : P) (place : Option L) (rest : S) : Ego P L I M U T S K :=
  ⟨[.changeToStop], false, false, none, none, none, time, pose, place, rest⟩

/-- `task_queue.delay` -/
def Ego.delay (e : Ego P L I M U T S K) (t : Task P I M U K) : Ego P L I M U T S K := { e with tasks := e.tasks ++ [t] }

/-- FO 334-337: `std::exchange(initialized, true)`. -/
def Ego.initialize (e : Ego P L I M U T S K) : Ego P L I M U T S K :=
  if e.initialized then e else ({ e with initialized := true } : Ego P L I M U T S K).delay (.initialize e.pose)

/-- EE 301-308 and 344-351. -/
def Ego.submit (e : Ego P L I M U T S K) (plan : Task P I M U K) : Ego P L I M U T S K :=
  if !e.initialized then e.initialize.delay plan else (e.delay plan).delay .engage

/-- EE 281-288: the lanelets between the points. -/
def segments (road : Road P L I) : List L → List I → List I
  | [], ids => ids
  | p :: ps, ids => segments road ps (match ids.getLast? with
    | some last => ids ++ road.route last (road.lanelet p)
    | none => ids)

/-- `std::unique`, EE 290-297. -/
def unique [DecidableEq I] : List I → List I
  | [] => []
  | [a] => [a]
  | a :: b :: l => if a = b then unique (b :: l) else a :: unique (b :: l)

/-- EE 330-352: `requestAssignRoute` of poses, without `use_lane_ids_for_routing`. -/
def assignPoints (e : Ego P L I M U T S K) (route : List P) (modification : Bool) : Except Fault (Ego P L I M U T S K) :=
  match route.getLast? with
  | none => .error .undefined
  | some goal => .ok ((e.delay .clearRoute).submit (.planPoints goal route.dropLast modification))

/-- EE 250-316: `requestAssignRoute` of lanelet poses. -/
def assignLanes [DecidableEq I] (road : Road P L I) (e : Ego P L I M U T S K) (route : List L) (useIds modification : Bool) : Except Fault (Ego P L I M U T S K) :=
  if useIds then
    match route.getLast? with
    | none => .error .undefined
    | some goal => match e.place with
      | none => .error .thrown
      | some l => .ok ((e.delay .clearRoute).submit (.planSegments (road.pose goal) (unique (segments road route [road.lanelet l])) modification))
  else assignPoints e (route.map road.pose) modification

/-- EE 318-353: `requestAssignRoute` of poses. -/
def assignPoses [DecidableEq I] (road : Road P L I) (e : Ego P L I M U T S K) (route : List P) (useIds modification : Bool) : Except Fault (Ego P L I M U T S K) :=
  if useIds then assignLanes road e (route.filterMap road.lane) true modification else assignPoints e route modification

/-- EE 220-230: `requestAcquirePosition`. -/
def acquireLane [DecidableEq I] (road : Road P L I) (e : Ego P L I M U T S K) (goal : L) (useIds modification : Bool) : Except Fault (Ego P L I M U T S K) :=
  assignLanes road e [goal] useIds modification

def acquirePose [DecidableEq I] (road : Road P L I) (e : Ego P L I M U T S K) (goal : P) (useIds modification : Bool) : Except Fault (Ego P L I M U T S K) :=
  assignPoses road e [goal] useIds modification

/-- EE 399-423: `requestReplanRoute`. With more than one pose `std::transform` writes to the beginning of an empty vector. -/
def replan (e : Ego P L I M U T S K) (route : List P) (modification : Bool) : Except Fault (Ego P L I M U T S K) :=
  match route with
  | [] => .error .undefined
  | [goal] => .ok ((((e.delay .clearRoute).delay (.planPoints goal [] modification)).delay .enableControl).delay .engage)
  | _ :: _ :: _ => .error .undefined

/-- EE 357-363: `requestFollowTrajectory`. -/
def follow (e : Ego P L I M U T S K) (t : T) : Ego P L I M U T S K := { e with trajectory := some t, controlled := true }

/-- EE 365-379, 388-395, 446-452: changes of lanes and relative changes of speed. -/
def refused (_ : Ego P L I M U T S K) : Except Fault (Ego P L I M U T S K) := .error .thrown

/-- EE 381-386, 437-444: `requestSpeedChange`. -/
def speedChange [LT K] [DecidableLT K] [OfNat K 0] (e : Ego P L I M U T S K) (v : K) : Except Fault (Ego P L I M U T S K) :=
  if 0 < e.time then .error .thrown else .ok { e with targetSpeed := some v }

/-- EE 454-458: `setVelocityLimit`. -/
def velocityLimit (e : Ego P L I M U T S K) (v : K) : Ego P L I M U T S K := ({ e with maxSpeed := some v }).delay (.velocityLimit v)

/-- What the ego gets from a frame: where a trajectory leads to, `makeUpdatedStatus` in EE 185-190, or none when it is finished. -/
abbrev Advance (P L T S K : Type) := T → Option K → P → Option L → S → Except Fault (Option (P × Option L × S))

/-- EE 180-204: `onUpdate`, without what it reads from Autoware. A null pointer is followed if there is no trajectory. -/
def onUpdate [Add K] (advance : Advance P L T S K) (now step : K) (e : Ego P L I M U T S K) : Except Fault (Ego P L I M U T S K) :=
  if e.controlled then
    match e.trajectory with
    | none => .error .undefined
    | some t => match advance t e.targetSpeed e.pose e.place e.rest with
      | .error f => .error f
      | .ok (some (p, l, s)) => .ok { e with pose := p, place := l, rest := s, time := e.time + step }
      | .ok none => .ok { e.delay .enableControl with controlled := false }
  else .ok { e with time := now + step }

/-- AP 276-320: `respawn`, once the frame is that of the map. `set` is `setStatus` of a pose, EH 151-161; `answer` is what the simulator makes of the new status: none if it failed or answered about another entity,
otherwise the pose and the rest with twist and acceleration. `locate` finds the lanelet pose of the map pose, EE 460-469. -/
def respawn (set : P → Ego P L I M U T S K → Ego P L I M U T S K) (answer : Ego P L I M U T S K → Option (P × S)) (locate : P → Option L) (e : Ego P L I M U T S K) (pose goal : P) :
    Except Fault (Ego P L I M U T S K) :=
  let e := { set pose { e with controlled := true } with controlled := false }
  match answer e with
  | none => .error .thrown
  | some (p, s) => replan { e with pose := p, place := locate p, rest := s } [goal] false

/-- FO 537-546: `is_used_cooperate_status`. -/
def isUsed [DecidableEq M] [DecidableEq U] (used : List (Cooperate M U K)) (s : Cooperate M U K) : Bool :=
  used.any fun u => decide (u.module = s.module) && decide (u.uuid = s.uuid) && decide (u.state = s.state)

/-- FO 548-570: `is_valid_cooperate_status`. -/
def isValid [DecidableEq M] [LE K] [DecidableLE K] (bound : K) (s : Cooperate M U K) (command : Action) (module : M) : Bool :=
  decide (s.module = module) && decide (command ≠ s.state) && decide (bound ≤ s.distance)

/-- FO 514-602: `sendCooperateCommand`. `command` and `module` are none if the texts are not known; `bound` is -20 m. `used` is a static variable, the same for all egos. -/
def sendCommand [DecidableEq M] [DecidableEq U] [LE K] [DecidableLE K] (bound : K) (statuses used : List (Cooperate M U K)) (module : Option M) (command : Option Action) (e : Ego P L I M U T S K) :
    Except Fault (Ego P L I M U T S K × List (Cooperate M U K)) :=
  match command, module with
  | some c, some m => match statuses.find? fun s => isValid bound s c m && !isUsed used s with
    | none => .error .thrown
    | some s => .ok (e.delay (.cooperate s.module s.uuid c), used ++ [s])
  | _, _ => .error .thrown

end Verif.Operator
