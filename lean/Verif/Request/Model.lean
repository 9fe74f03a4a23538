import Mathlib.Algebra.Order.Field.Basic
import Mathlib.Tactic.Linarith
import Mathlib.Tactic.Ring
import Mathlib.Tactic.FieldSimp
import Mathlib.Tactic.NormNum

/-!
# What an entity is asked to do, and its limits

`traffic_simulator/src/entity/{entity_base,vehicle_entity,pedestrian_entity}.cpp`,
`include/traffic_simulator/entity/misc_object_entity.hpp` and
`src/behavior/route_planner.cpp`, all under `/repo/simulation/traffic_simulator`.

`P` stands for poses on a lane, `M` for poses on the map, `T` for trajectories, `L` for the
parameters of a lane change. The numbers are those of an ordered field, not doubles.
-/
namespace Verif.Request

/-- `misc_object_entity.hpp`, `pedestrian_entity.hpp`, `vehicle_entity.hpp`: the entities the
simulator moves itself. -/
inductive Kind
  | vehicle
  | pedestrian
  | misc
  deriving DecidableEq, Repr

/-- `include/traffic_simulator/data_type/behavior.hpp`: `behavior::Request`. -/
inductive Req
  | none
  | laneChange
  | followLane
  | followTrajectory
  | walkStraight
  deriving DecidableEq, Repr

/-- What the entity keeps of what it was asked: the plugin's request, the waypoints of its route
planner, the plugin's trajectory and its lane change parameter. The plugin's goal poses are not
kept: no behaviour reads them. -/
structure State (P T L : Type) where
  request : Req
  waypoints : List P
  trajectory : Option T
  change : Option L
  deriving DecidableEq, Repr

/-- The map, as the requests use it: `snap c m` is `toCanonicalizedLaneletPose (m, …, c, …)`, with
`c` saying whether crosswalks count, and `samples t` the poses `requestFollowTrajectory` takes every
metre along the spline through the trajectory. -/
structure World (P M T : Type) where
  snap : Bool → M → Option P
  samples : T → List M

/-- The calls. `done` is not one: it is the plugin's own `setRequest (NONE)` when it has finished.
`direction` is `requestLaneChange (Direction)`, whose argument here is the parameter that
`laneChangeableLaneletId` leads to, if there is such a lane. -/
inductive Call (P M T L : Type)
  | acquire (p : P)
  | acquireAt (m : M)
  | route (ps : List P)
  | routeAt (ms : List M)
  | follow (t : Option T)
  | change (c : L)
  | direction (c : Option L)
  | straight
  | cancel
  | done

/-- What a call leaves, and whether it threw. -/
structure Result (P T L : Type) where
  state : State P T L
  error : Bool
  deriving DecidableEq, Repr

section
variable {P M T L : Type}

/-- `vehicle_entity.cpp` 178-186, `pedestrian_entity.cpp` 174-182. -/
def acquire (lane : Bool) (s : State P T L) (p : P) : State P T L :=
  { s with request := .followLane, waypoints := if lane then [p] else s.waypoints }

/-- `vehicle_entity.cpp` 202-215, `pedestrian_entity.cpp` 52-65. -/
def assign (lane : Bool) (s : State P T L) (ps : List P) : State P T L :=
  if lane then { s with request := .followLane, waypoints := ps } else s

/-- The loops of `vehicle_entity.cpp` 220-230 and `pedestrian_entity.cpp` 70-79: the poses on a
lane, or nothing as soon as one of them is not on one. -/
def allOn (snap : M → Option P) : List M → Option (List P)
  | [] => some []
  | m :: ms =>
    match snap m with
    | some p => (allOn snap ms).map (p :: ·)
    | none => none

/-- Do crosswalks count for this entity's goals? `vehicle_entity.cpp` 194 and 224: `false`;
`pedestrian_entity.cpp` 190 and 74: `true`. -/
def crosswalks : Kind → Bool
  | .vehicle => false
  | _ => true

/-- One call on an entity that is on a lane or not (`lane`).

For a vehicle `vehicle_entity.cpp` 53-57 and 178-278, for a pedestrian `pedestrian_entity.cpp` 52-107
and 169-202, for a misc object `misc_object_entity.hpp` 68-90, and for what they do not override
`entity_base.hpp` 218-234 (lane changes: nothing), `entity_base.cpp` 161-170 (by direction) and the
`cancelRequest`, `requestWalkStraight` and `requestFollowTrajectory` of `entity_base.cpp`. -/
def step (w : World P M T) (k : Kind) (lane : Bool) (s : State P T L) :
    Call P M T L → Result P T L
  | .acquire p =>
    match k with
    | .misc => ⟨s, true⟩
    | _ => ⟨acquire lane s p, false⟩
  | .acquireAt m =>
    match k with
    | .misc => ⟨s, true⟩
    | _ =>
      let s' := { s with request := .followLane }
      match w.snap (crosswalks k) m with
      | some p => ⟨acquire lane s' p, false⟩
      | none => ⟨s', true⟩
  | .route ps =>
    match k with
    | .misc => ⟨s, true⟩
    | _ => ⟨assign lane s ps, false⟩
  | .routeAt ms =>
    match k with
    | .misc => ⟨s, true⟩
    | _ =>
      match allOn (w.snap (crosswalks k)) ms with
      | some ps => ⟨assign lane s ps, false⟩
      | none => ⟨s, true⟩
  | .follow t =>
    match k, t with
    | .vehicle, some t =>
      ⟨{ s with request := .followTrajectory, trajectory := some t,
                waypoints := (w.samples t).filterMap (w.snap true) }, false⟩
    | .pedestrian, some t =>
      ⟨{ s with request := .followTrajectory, trajectory := some t }, false⟩
    | _, _ => ⟨s, true⟩
  | .change c =>
    match k with
    | .vehicle => ⟨{ s with request := .laneChange, change := some c }, false⟩
    | _ => ⟨s, false⟩
  | .direction c =>
    match k, lane, c with
    | .vehicle, true, some c => ⟨{ s with request := .laneChange, change := some c }, false⟩
    | _, _, _ => ⟨s, false⟩
  | .straight =>
    match k with
    | .pedestrian => ⟨{ s with request := .walkStraight }, false⟩
    | _ => ⟨s, true⟩
  | .cancel =>
    match k with
    | .misc => ⟨s, false⟩
    | _ => ⟨{ s with request := .none, waypoints := [] }, false⟩
  | .done => ⟨{ s with request := .none }, false⟩

/-- Calls one after the other; each says whether the entity is on a lane when it is made. One that
throws is caught by the caller, who goes on. -/
def run (w : World P M T) (k : Kind) (s : State P T L) :
    List (Bool × Call P M T L) → State P T L
  | [] => s
  | c :: cs => run w k (step w k c.1 s c.2).state cs

end

/-! ## Limits -/

/-- `DynamicConstraints.msg`. -/
structure Limits (K : Type) where
  speed : K
  acceleration : K
  accelerationRate : K
  deceleration : K
  decelerationRate : K
  deriving DecidableEq, Repr

/-- The five limits one can set. -/
inductive Which
  | speed
  | acceleration
  | accelerationRate
  | deceleration
  | decelerationRate
  deriving DecidableEq, Repr

section
variable {K : Type} [Field K] [LinearOrder K] [IsStrictOrderedRing K]

/-- What one of the setters writes. -/
def Limits.put (l : Limits K) (x : K) : Which → Limits K
  | .speed => { l with speed := x }
  | .acceleration => { l with acceleration := x }
  | .accelerationRate => { l with accelerationRate := x }
  | .deceleration => { l with deceleration := x }
  | .decelerationRate => { l with decelerationRate := x }

/-- `setVelocityLimit`, …, `setDecelerationRateLimit`: `vehicle_entity.cpp` 294-342,
`pedestrian_entity.cpp` 245-295; for a misc object `misc_object_entity.hpp` 100-123 (nothing).
The `Bool` says whether the call threw. -/
def setLimit (k : Kind) (l : Limits K) (f : Which) (x : K) : Limits K × Bool :=
  match k with
  | .misc => (l, false)
  | _ => if x < 0 then (l, true) else (l.put x f, false)

/-- `ego_entity.cpp` 454-458: `EgoEntity::setVelocityLimit`, without the call to Autoware. -/
def setEgoSpeedLimit (l : Limits K) (x : K) : Limits K × Bool :=
  (l.put x .speed, false)

/-- Setters one after the other, each of which may throw. -/
def setAll (k : Kind) (l : Limits K) : List (Which × K) → Limits K
  | [] => l
  | c :: cs => setAll k (setLimit k l c.1 c.2).1 cs

/-- `std::clamp`. -/
def clamp (x lo hi : K) : K :=
  if x < lo then lo else if hi < x then hi else x

/-- `getMaxAcceleration`: `vehicle_entity.cpp` 280-285, `pedestrian_entity.cpp` 235-238;
`misc_object_entity.hpp` 125-128 throws (`none`). `perf` is `performance.max_acceleration`. -/
def maxAcceleration (k : Kind) (perf : K) (l : Limits K) : Option K :=
  match k with
  | .vehicle => some (clamp l.acceleration 0 perf)
  | .pedestrian => some l.acceleration
  | .misc => none

/-- `getMaxDeceleration`: `vehicle_entity.cpp` 287-292, `pedestrian_entity.cpp` 240-243;
`misc_object_entity.hpp` 130-133. -/
def maxDeceleration (k : Kind) (perf : K) (l : Limits K) : Option K :=
  match k with
  | .vehicle => some (clamp l.deceleration 0 perf)
  | .pedestrian => some l.deceleration
  | .misc => none

/-- The defaults `resetDynamicConstraints` (`entity_base.cpp` 156-159) goes back to:
`DynamicConstraints.msg` for a vehicle, `pedestrian_entity.cpp` 114-123 for a pedestrian. -/
def defaults : Kind → Limits K
  | .pedestrian => ⟨50, 1, 1, 1, 1⟩
  | _ => ⟨50, 10, 3, 10, 3⟩

/-! ## Synchronising with another entity -/

/-- What the job of `requestSynchronize` looks at in one frame: is the entity on a lane, how far it
has to go (`none`: no distance), is the other one there and on a lane, how far the other one has to go,
the two speeds. -/
structure Sight (K : Type) where
  onLane : Bool
  distance : Option K
  other : Bool
  otherDistance : Option K
  otherSpeed : K
  speed : K
  deriving DecidableEq, Repr

/-- What the job does with it: it throws, it ends, or it sets the target speed and stays. -/
inductive Act (K : Type)
  | error
  | over
  | target (v : K)
  deriving DecidableEq, Repr

/-- `entity_base.cpp` 818-822. `eps` is `numeric_limits<double>::epsilon ()`. -/
def arrival (eps distance speed : K) : K :=
  if eps < |speed| then distance / speed else 0

/-- `entity_base.cpp` 824-838. `up` is `getMaxAcceleration () * step_time_`, `down` the same with
`getMaxDeceleration ()`. -/
def pace (up down speed goal time distance : K) : K :=
  let border := (speed + goal) * time / 2
  if border < distance then speed + up
  else if distance < border then speed - down
  else speed

/-- `entity_base.cpp` 780-846: one run of the job. -/
def sync (eps up down goal : K) (s : Sight K) : Act K :=
  if !s.onLane then .error
  else
    match s.distance with
    | none => .error
    | some d =>
      if !s.other then .error
      else
        match s.otherDistance with
        | none => .over
        | some e =>
          if e < 0 then .over
          else .target (pace up down s.speed goal (arrival eps e s.otherSpeed) d)

/-- What `requestSynchronize` itself did (`entity_base.cpp` 750-778 and 849). -/
inductive Answer
  | refused
  | arrived
  | waiting
  deriving DecidableEq, Repr

/-- `entity_base.cpp` 750-778: is the entity the ego, how far it is from its place as the crow flies,
and the target speed it has; the new target speed comes with the answer. -/
def requestSync (ego : Bool) (far tolerance goal old : K) : Answer × K :=
  if ego then (.refused, old)
  else if far < tolerance then (.arrived, goal)
  else (.waiting, old)

/-- The job over the frames: the target speed after each of them, until it ends or throws. The `Bool`
says whether it threw. -/
def syncRun (eps up down goal : K) (old : K) : List (Sight K) → K × Bool
  | [] => (old, false)
  | s :: ss =>
    match sync eps up down goal s with
    | .error => (old, true)
    | .over => (old, false)
    | .target v => syncRun eps up down goal v ss

/-! ## Out of range -/

/-- The ranges of `activateOutOfRangeJob`. -/
structure Ranges (K : Type) where
  minSpeed : K
  maxSpeed : K
  minAcceleration : K
  maxAcceleration : K
  minJerk : K
  maxJerk : K

/-- One frame: speed, acceleration and jerk once the behaviour has moved the entity, and whether it
then is at the end of the lanes. -/
structure Frame (K : Type) where
  speed : K
  acceleration : K
  jerk : K
  atEnd : Bool

/-- `entity_base.cpp` 695. -/
def tolerance : K := 1 / 100

/-- `entity_base.cpp` 706, 711 and 716. -/
def fits (lo hi x : K) : Bool :=
  decide (lo ≤ x + tolerance) && decide (x - tolerance ≤ hi)

/-- `entity_base.cpp` 702-722: which of the three the job complains about. -/
inductive Complaint
  | speed
  | acceleration
  | jerk
  deriving DecidableEq, Repr

/-- `entity_base.cpp` 702-722. -/
def check (r : Ranges K) (f : Frame K) : Option Complaint :=
  if !fits r.minSpeed r.maxSpeed f.speed then some .speed
  else if !fits r.minAcceleration r.maxAcceleration f.acceleration then some .acceleration
  else if !fits r.minJerk r.maxJerk f.jerk then some .jerk
  else none

/-- `vehicle_entity.cpp` 169-176: at the end of the lanes a vehicle is stopped
(`entity_base.cpp` 729-734) and its jobs are not run. Pedestrians do the same. The frame after the
update, and the complaint. -/
def postUpdate (r : Ranges K) (f : Frame K) : Frame K × Option Complaint :=
  if f.atEnd then (⟨0, 0, 0, f.atEnd⟩, none) else (f, check r f)

/-- Frames one after the other, up to the first complaint: the number of the frame and the
complaint. -/
def watch (r : Ranges K) : Nat → List (Frame K) → Option (Nat × Complaint)
  | _, [] => none
  | n, f :: fs =>
    match (postUpdate r f).2 with
    | some c => some (n, c)
    | none => watch r (n + 1) fs

end

end Verif.Request
