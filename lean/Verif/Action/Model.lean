/-
Model of actions of the storyboard that take time: SpeedAction, SpeedProfileAction, LaneChangeAction and
FollowTrajectoryAction, and of the actions that add and delete entities.

Paths are relative to openscenario/openscenario_interpreter; S = src/syntax, H = include/openscenario_interpreter.

How an action is driven is given by H/syntax/storyboard_element.hpp 211-268: when it starts, `start()` is called and,
in the same evaluation, `run()` and `accomplished()`; in every later frame `run()` and `accomplished()` until the
latter yields true. The frames of an action are numbered from 0, the one in which it starts.

What the simulator reports for objects is an arbitrary function of the frame. A speed is a rational; NaN is `none`.
Not modelled: the checks of object types in the constructors, rounding.
-/
namespace Verif.Action

/-- A `ScenarioObject`, by its name. -/
abbrev Obj := Nat

/-- H/syntax/entity.hpp 45-88: an entity is a `ScenarioObject` or an `EntitySelection`, identified by its address `id`
(S/entity.cpp 49-52); `objects` is `Entity::objects` (S/entity.cpp 61-70): one object, or the members of the
selection in the order of the set. -/
structure Entity where
  id : Nat
  objects : List Obj
deriving DecidableEq, Repr

/-- S/speed_condition.cpp 49-83 `SpeedCondition::evaluate(entities, entity, nullopt)` in the present frame, for the default
`Compatibility::legacy`: the longitudinal speed; `none` is NaN, for objects not added. -/
abbrev Speeds := Obj → Option Rat

/-- `std::numeric_limits<double>::epsilon()`. -/
def epsilon : Rat := 1 / 4503599627370496

/-- `std::abs(a - b)`. -/
def distance (a b : Rat) : Rat := if a ≤ b then b - a else a - b

/-- H/functional/equal_to.hpp 33-60; comparisons with NaN are false. -/
def equalTo : Option Rat → Option Rat → Bool
  | some a, some b => decide (distance a b < epsilon)
  | _, _ => false

/-- A call of `std::all_of` over the accomplishments of the actors, with
`accomplishment.second = accomplishment.second or check(accomplishment.first)` for each:
S/speed_action.cpp 95-98, lane_change_action.cpp 48-55, follow_trajectory_action.cpp 54-68. It stops at the first actor
that has not accomplished. -/
def poll (check : Entity → Bool) : List (Entity × Bool) → Bool × List (Entity × Bool)
  | [] => (true, [])
  | (e, done) :: l =>
    if done || check e then
      let r := poll check l
      (r.1, (e, true) :: r.2)
    else (false, (e, false) :: l)

/-- S/speed_action.cpp 115-119, lane_change_action.cpp 64-68: `accomplishments` after `start`. `order` lists the actors
as `std::unordered_map<Entity, Boolean>` iterates over them: each once, in an unspecified order. -/
def initial (order : List Entity) : List (Entity × Bool) := order.map fun e => (e, false)

/-- The frame in which an action ends whose `run` does nothing and whose `accomplished` polls the actors with the
given check, one per frame; `none` if it has not ended after these frames. -/
def ends : List (Entity × Bool) → List (Entity → Bool) → Option Nat
  | _, [] => none
  | acc, check :: checks =>
    let r := poll check acc
    if r.1 then some 0 else (ends r.2 checks).map (· + 1)

/-! ### SpeedAction -/

/-- H/syntax/speed_target_value_type.hpp. -/
inductive ValueType where
  | delta | factor
deriving DecidableEq, Repr

/-- H/syntax/speed_action_target.hpp: `AbsoluteTargetSpeed` and `RelativeTargetSpeed`. The reference entity is taken to be
a ScenarioObject: for a selection the conversion to EntityRef throws (S/entity.cpp 83-92). -/
inductive Target where
  | absolute (value : Rat)
  | relative (reference : Obj) (type : ValueType) (value : Rat) (continuous : Bool)
deriving DecidableEq, Repr

/-- H/syntax/dynamics_shape.hpp 45-85. -/
inductive Shape where
  | linear | cubic | sinusoidal | step
deriving DecidableEq, Repr

/-- H/syntax/speed_action.hpp. -/
structure SpeedAction where
  shape : Shape
  target : Target
deriving DecidableEq, Repr

/-- S/speed_action.cpp 61-89: the target speed in the present frame. -/
def Target.now (t : Target) (s : Speeds) : Option Rat :=
  match t with
  | .absolute v => some v
  | .relative r .delta v _ => (s r).map (· + v)
  | .relative r .factor v _ => (s r).map (· * v)

/-- S/speed_action.cpp 57-90 `check`. -/
def SpeedAction.check (a : SpeedAction) (s : Speeds) (e : Entity) : Bool :=
  e.objects.all fun o => equalTo (a.target.now s) (s o)

/-- S/speed_action.cpp 52-55 `there_is_no_regular_ending`. -/
def Target.endless : Target → Bool
  | .relative _ _ _ continuous => continuous
  | .absolute _ => false

/-- S/speed_action.cpp 43-104 `accomplished`, 106-109 `endsImmediately`, in every frame. -/
def SpeedAction.ends (a : SpeedAction) (order : List Entity) (frames : List Speeds) : Option Nat :=
  if a.shape = .step then (if frames = [] then none else some 0)
  else if a.target.endless then none
  else Action.ends (initial order) (frames.map a.check)

/-! ### SpeedProfileAction -/

/-- H/syntax/speed_profile_entry.hpp; the time is NaN (`none`) where it is not given. -/
structure Entry where
  speed : Rat
  time : Option Rat
deriving DecidableEq, Repr

/-- S/speed_profile_action.cpp 123-137, lambda `accomplished`: the speeds of the actor are that of the entry, relative to
the reference entity if there is one. -/
def reaches (reference : Option Obj) (s : Speeds) (e : Entity) (entry : Entry) : Bool :=
  e.objects.all fun o =>
    equalTo (s o) (match reference with
      | some r => (s r).map (entry.speed + ·)
      | none => some entry.speed)

/-- What a SpeedProfileAction asks of the simulator: in a frame, for an actor, an entry (S/speed_profile_action.cpp 52-107
`apply`, called for all objects of the actor). -/
structure Request where
  frame : Nat
  actor : Entity
  entry : Entry
deriving DecidableEq, Repr

/-- S/speed_profile_action.cpp 147-157 `start`: the remaining entries of each actor, the current one first. -/
def profileStart (entries : List Entry) (order : List Entity) : List (Entity × List Entry) :=
  order.map fun e => (e, entries)

/-- S/speed_profile_action.cpp 153-156: the requests made at the start; the list of actors may name an actor twice. -/
def profileStartRequests (entries : List Entry) (actors : List Entity) : List Request :=
  match entries with
  | [] => []
  | e :: _ => actors.map fun a => ⟨0, a, e⟩

/-- S/speed_profile_action.cpp 120-145 `run`, for one actor: the entries left and the requests made. -/
def profileRun (reference : Option Obj) (s : Speeds) (frame : Nat) (e : Entity) :
    List Entry → List Entry × List Request
  | [] => ([], [])
  | entry :: rest =>
    if reaches reference s e entry then
      match rest with
      | [] => ([], [])
      | next :: rest' => (next :: rest', [⟨frame, e, next⟩])
    else (entry :: rest, [])

/-- S/speed_profile_action.cpp 120-145 `run`, over all actors. -/
def profileRunAll (reference : Option Obj) (s : Speeds) (frame : Nat) :
    List (Entity × List Entry) → List (Entity × List Entry) × List Request
  | [] => ([], [])
  | (e, l) :: r =>
    let x := profileRun reference s frame e l
    let y := profileRunAll reference s frame r
    ((e, x.1) :: y.1, x.2 ++ y.2)

/-- S/speed_profile_action.cpp 109-116 `accomplished`. -/
def profileAccomplished (l : List (Entity × List Entry)) : Bool := l.all fun x => x.2.isEmpty

/-- `run()` in each of the frames, beginning with the given number. -/
def profileFrames (reference : Option Obj) : Nat → List (Entity × List Entry) → List Speeds →
    List (Entity × List Entry) × List Request
  | _, l, [] => (l, [])
  | n, l, s :: ss =>
    let x := profileRunAll reference s n l
    let y := profileFrames reference (n + 1) x.1 ss
    (y.1, x.2 ++ y.2)

/-- The frame in which the action ends, the given ones being numbered from `n`: `accomplished` is evaluated after `run` in every
frame. -/
def profileEndsFrom (reference : Option Obj) : Nat → List (Entity × List Entry) → List Speeds → Option Nat
  | _, _, [] => none
  | n, l, s :: ss =>
    let x := profileRunAll reference s n l
    if profileAccomplished x.1 then some n else profileEndsFrom reference (n + 1) x.1 ss

/-- The frame in which a SpeedProfileAction ends. -/
def profileEnds (reference : Option Obj) (entries : List Entry) (order : List Entity) (frames : List Speeds) : Option Nat :=
  profileEndsFrom reference 0 (profileStart entries order) frames

/-- All requests made by a SpeedProfileAction in these frames. -/
def profileRequests (reference : Option Obj) (entries : List Entry) (actors order : List Entity) (frames : List Speeds) :
    List Request :=
  profileStartRequests entries actors ++ (profileFrames reference 0 (profileStart entries order) frames).2

/-! ### LaneChangeAction and FollowTrajectoryAction -/

/-- S/lane_change_action.cpp 46-56 `accomplished`: `busy o` says that the current action of the object is "lane_change". -/
def laneChangeCheck (busy : Obj → Bool) (e : Entity) : Bool := !(e.objects.all busy)

/-- S/lane_change_action.cpp 46-68, in every frame. -/
def laneChangeEnds (order : List Entity) (frames : List (Obj → Bool)) : Option Nat :=
  Action.ends (initial order) (frames.map laneChangeCheck)

/-- S/follow_trajectory_action.cpp 35-70 `accomplished`, in every frame: a closed trajectory never ends; the first call after
`start` only fills the accomplishments and yields false, and so does every call while there are none. `busy o` says that the
current action of the object is "follow_polyline_trajectory" (the only shape supported, 78-101). -/
def trajectoryEnds (closed : Bool) (order : List Entity) : List (Obj → Bool) → Option Nat
  | [] => none
  | _ :: frames =>
    if closed then none
    else if order = [] then none
    else (Action.ends (initial order) (frames.map laneChangeCheck)).map (· + 1)

/-- A vertex of a trajectory: a time (`none` is NaN) and a position. -/
structure Vertex (P : Type) where
  time : Option Rat
  position : P
deriving DecidableEq, Repr

/-- S/follow_trajectory_action.cpp 81-103 `repack_trajectory`: offset and scale of `Timing`. -/
def repack {P : Type} (offset scale : Rat) (vertices : List (Vertex P)) : List (Vertex P) :=
  vertices.map fun v => { time := v.time.map fun t => offset + scale * t, position := v.position }

/-- The trajectories in memory: `make_shared<PolylineTrajectory>` of each actor, by number, and which of them each object
follows. -/
structure Memory (P : Type) where
  trajectories : List (List (Vertex P))
  follows : Obj → Option Nat

/-- H/simulator_core.hpp 496-506 `applyFollowTrajectoryAction`: the present pose of the object is put in front of the trajectory
that `parameter` points to, and the entity follows what it points to (traffic_simulator/src/entity/vehicle_entity.cpp 234-239). -/
def applyTrajectory {P : Type} (pose : Obj → P) (parameter : Nat) (m : Memory P) (o : Obj) : Memory P where
  trajectories := m.trajectories.modify parameter fun l => ⟨none, pose o⟩ :: l
  follows := fun x => if x = o then some parameter else m.follows x

/-- S/follow_trajectory_action.cpp 80-118, for one actor. -/
def startTrajectory {P : Type} (pose : Obj → P) (vertices : List (Vertex P)) (m : Memory P) (e : Entity) : Memory P :=
  e.objects.foldl (applyTrajectory pose m.trajectories.length)
    { m with trajectories := m.trajectories ++ [vertices] }

/-- S/follow_trajectory_action.cpp 76-119 `start`. -/
def startTrajectories {P : Type} (pose : Obj → P) (offset scale : Rat) (vertices : List (Vertex P)) (actors : List Entity)
    (m : Memory P) : Memory P :=
  actors.foldl (startTrajectory pose (repack offset scale vertices)) m

/-- What an object follows. -/
def Memory.trajectoryOf {P : Type} (m : Memory P) (o : Obj) : Option (List (Vertex P)) :=
  (m.follows o).bind fun i => m.trajectories[i]?

end Verif.Action
