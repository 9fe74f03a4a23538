import Verif.Job.Model
import Verif.Speed.Model
/-
Requests for changes of speed with a transition and a constraint.

Cited files, below TS = /repo/simulation/traffic_simulator:
EB = TS/src/entity/entity_base.cpp, EH = TS/include/traffic_simulator/entity/entity_base.hpp,
VE = TS/src/entity/vehicle_entity.cpp, PE = TS/src/entity/pedestrian_entity.cpp,
SC = TS/src/data_type/speed_change.cpp, SH = TS/include/traffic_simulator/data_type/speed_change.hpp,
SP = TS/src/behavior/longitudinal_speed_planning.cpp

Numbers are the elements of a linearly ordered field. Modelled: the part of an entity which the requests read and write, with the
job list of `Verif.Job` and the speed planner of `Verif.Speed`. The travelled distance and the duration of standing still
(`Verif.Entity`) are left out, and so are the positions. A frame is one of an entity that follows a free lane. Not modelled:
`EgoEntity` and `MiscObjectEntity`, which override the requests.
-/
namespace Verif.Pace
open Verif.Job

/-- `speed_change::Transition`, SH:26-32 -/
inductive Transition
  | linear
  | step
  | auto
  deriving DecidableEq

/-- `speed_change::Constraint`, SH:34-48 -/
inductive Constraint (K : Type)
  | acceleration (a : K)
  | time (T : K)
  | none

/-- `RelativeTargetSpeed::Type`, SH:52-55 -/
inductive Kind
  | delta
  | factor
  deriving DecidableEq

/-- `speed_change::RelativeTargetSpeed`, SH:50-69 -/
structure Relative (K : Type) where
  reference : String
  kind : Kind
  value : K

/-- The members of `EntityBase` (EH:358-376) the requests work on: the name, the longitudinal motion in `status_`,
`target_speed_`, the dynamic constraints of the behaviour parameter, the default ones (VE:64-69, PE:114-123), the speeds in
`other_status_`, and whether `speed_planner_` points to a planner. -/
structure Ent (K : Type) where
  name : String
  motion : Speed.State K
  target : Option K
  constraints : Speed.Constraints K
  standard : Speed.Constraints K
  others : String → Option K
  planner : Bool

/-- What a call does: it changes the entity, throws an error, or its behaviour is undefined. No request changes anything
before it throws. -/
inductive Res (α : Type)
  | ok (a : α)
  | throws
  | undefined

def Res.bind {α β : Type} : Res α → (α → Res β) → Res β
  | .ok a, f => f a
  | .throws, _ => .throws
  | .undefined, _ => .undefined

/-- `std::sqrt` and `std::numeric_limits<double>::epsilon()`. -/
structure Num (K : Type) where
  sqrt : K → K
  eps : K

variable {K : Type} [Field K] [LinearOrder K]

/-- `setLinearVelocity`, EB:648-651 -/
def setSpeed (v : K) (s : S (Ent K) K) : S (Ent K) K :=
  { s with st := { s.st with motion := { s.st.motion with speed := v } } }

/-- `setLinearAcceleration`, EB:653-656 -/
def setAcceleration (a : K) (s : S (Ent K) K) : S (Ent K) K :=
  { s with st := { s.st with motion := { s.st.motion with acceleration := a } } }

/-- `setDynamicConstraints`, EB:561-567 -/
def setConstraints (c : Speed.Constraints K) (s : S (Ent K) K) : S (Ent K) K :=
  { s with st := { s.st with constraints := c } }

/-- `setAccelerationLimit`, VE:305-312 and PE:255-263 -/
def setAccelerationLimit (a : K) (s : S (Ent K) K) : Res (S (Ent K) K) :=
  if a < 0 then .throws else .ok (setConstraints { s.st.constraints with maxAcceleration := a } s)

/-- `setDecelerationLimit`, VE:324-332 and PE:275-283 -/
def setDecelerationLimit (a : K) (s : S (Ent K) K) : Res (S (Ent K) K) :=
  if a < 0 then .throws else .ok (setConstraints { s.st.constraints with maxDeceleration := a } s)

/-- `resetDynamicConstraints`, EB:156-159 -/
def reset (e : Ent K) : Ent K := { e with constraints := e.standard }

/-- `isTargetSpeedReached`, EB:129-132, and what the caller does with the answer. `speed_planner_` is not set by the constructor
(EB:35-66) but by `onUpdate` (EB:146-148). -/
def asking {α : Type} (v : K) (e : Ent K) (f : Bool → Res α) : Res α :=
  if e.planner then f (Speed.isTargetSpeedReached v e.motion.speed) else .undefined

/-- `RelativeTargetSpeed::getAbsoluteValue`, SC:33-63; `none` is the error. -/
def absolute (r : Relative K) (e : Ent K) : Option K :=
  match e.others r.reference with
  | some w => some (match r.kind with | .delta => w + r.value | .factor => w * r.value)
  | none =>
    if e.name = r.reference then
      some (match r.kind with | .delta => e.motion.speed + r.value | .factor => e.motion.speed * r.value)
    else none

/-! ### Absolute targets -/

/-- EB:470-473 and EB:484-490. In a frame there is a planner. -/
def plainBody (v : K) (continuous : Bool) : K → Ent K → Ent K × Outcome :=
  fun _ e =>
    if !continuous && Speed.isTargetSpeedReached v e.motion.speed then (e, .returns true)
    else ({ e with target := some v }, .returns false)

/-- EB:477 and EB:494 -/
def plainCleanup (continuous : Bool) (e : Ent K) : Ent K := if continuous then e else { e with target := none }

/-- `requestSpeedChange(target_speed, continuous)`, EB:459-497 -/
def plain (v : K) (continuous : Bool) (s : S (Ent K) K) : Res (S (Ent K) K) :=
  asking v s.st fun reached =>
    if reached && !continuous then .ok s
    else .ok (append (plainBody v continuous) (plainCleanup continuous) .linearVelocity true .post
      { s with st := { s.st with target := some v } })

/-- The jobs of type `LINEAR_ACCELERATION` for an absolute target, EB:237-244, 248-256 and 295-311: a condition on the speed. -/
def watch (done : K → Bool) (s : S (Ent K) K) : S (Ent K) K :=
  append (fun _ e => (e, .returns (done e.motion.speed))) reset .linearAcceleration true .post s

/-- EB:219-260, the case `AUTO` -/
def autoAcceleration (v a : K) (continuous : Bool) (s : S (Ent K) K) : Res (S (Ent K) K) :=
  asking v s.st fun reached =>
    if reached && !continuous then .ok s
    else if s.st.motion.speed ≤ v then
      (setAccelerationLimit |a| s).bind fun s => plain v continuous (watch (fun w => decide (v ≤ w)) s)
    else
      (setDecelerationLimit |a| s).bind fun s => plain v continuous (watch (fun w => decide (w ≤ v)) s)

/-- `requestSpeedChangeWithConstantAcceleration`, EB:219-268 -/
def withAcceleration (v : K) (tr : Transition) (a : K) (continuous : Bool) (s : S (Ent K) K) : Res (S (Ent K) K) :=
  asking v s.st fun reached =>
    if reached && !continuous then .ok s
    else match tr with
      | .linear => autoAcceleration v a continuous (setAcceleration a s)
      | .auto => autoAcceleration v a continuous s
      | .step => (plain v continuous s).bind fun s => .ok (setSpeed v s)

/-- EB:270-321, the case `STEP` -/
def stepTime (v : K) (s : S (Ent K) K) : Res (S (Ent K) K) :=
  asking v s.st fun reached =>
    if reached then .ok s else (plain v false s).bind fun s => .ok (setSpeed v s)

/-- `requestSpeedChangeWithTimeConstraint`, EB:270-321 -/
def withTime (N : Num K) (v : K) (tr : Transition) (T : K) (s : S (Ent K) K) : Res (S (Ent K) K) :=
  asking v s.st fun reached =>
    if reached then .ok s
    else if |T| ≤ N.eps ∧ tr ≠ .step then stepTime v s
    else match tr with
      | .linear => withAcceleration v .linear ((v - s.st.motion.speed) / T) false s
      | .auto =>
        match Speed.planConstraints N.sqrt s.st.constraints v s.st.motion T with
        | none => .throws
        | some c => plain v false (watch (fun w => decide (|w - v| < 1 / 100)) (setConstraints c s))
      | .step => (plain v false s).bind fun s => .ok (setSpeed v s)

/-- `requestSpeedChange(target_speed, transition, constraint, continuous)`, EB:323-342 -/
def request (N : Num K) (v : K) (tr : Transition) (c : Constraint K) (continuous : Bool) (s : S (Ent K) K) : Res (S (Ent K) K) :=
  asking v s.st fun reached =>
    if reached && !continuous then .ok s
    else match c with
      | .acceleration a => withAcceleration v tr a continuous s
      | .time T => withTime N v tr T s
      | .none => plain v continuous s

/-! ### Relative targets -/

/-- `isTargetSpeedReached` of a relative target, EB:134-139 -/
def askingRelative {α : Type} (r : Relative K) (e : Ent K) (f : Bool → Res α) : Res α :=
  match absolute r e with
  | none => .throws
  | some v => asking v e f

/-- EB:510-516 and EB:523-532 -/
def relativeBody (r : Relative K) (continuous : Bool) : K → Ent K → Ent K × Outcome :=
  fun _ e =>
    match e.others r.reference with
    | none => (e, .returns true)
    | some _ =>
      match absolute r e with
      | none => (e, .throws)
      | some v =>
        if !continuous && Speed.isTargetSpeedReached v e.motion.speed then (e, .returns true)
        else ({ e with target := some v }, .returns false)

/-- `requestSpeedChange(RelativeTargetSpeed, continuous)`, EB:499-539 -/
def plainRelative (r : Relative K) (continuous : Bool) (s : S (Ent K) K) : Res (S (Ent K) K) :=
  askingRelative r s.st fun reached =>
    if reached && !continuous then .ok s
    else .ok (append (relativeBody r continuous) (plainCleanup continuous) .linearVelocity true .post s)

/-- EB:362-383; the limits are absolute values, so setting them does not throw. -/
def limitBody (r : Relative K) (a : K) : K → Ent K → Ent K × Outcome :=
  fun _ e =>
    match absolute r e with
    | none => (e, .throws)
    | some v =>
      let diff := v - e.motion.speed
      if |diff| ≤ 1 / 10 then (e, .returns true)
      else if 1 / 10 < diff then ({ e with constraints := { e.constraints with maxAcceleration := |a| } }, .returns false)
      else if diff < -(1 / 10) then ({ e with constraints := { e.constraints with maxDeceleration := |a| } }, .returns false)
      else (e, .returns false)

/-- EB:344-391, the case `AUTO` -/
def autoRelative (r : Relative K) (a : K) (continuous : Bool) (s : S (Ent K) K) : Res (S (Ent K) K) :=
  askingRelative r s.st fun reached =>
    if reached && !continuous then .ok s
    else plainRelative r continuous (append (limitBody r a) reset .linearAcceleration true .post s)

/-- EB:392-396 and EB:427-431: a request, and then the speed is set to the target. -/
def jump (r : Relative K) (continuous : Bool) (s : S (Ent K) K) : Res (S (Ent K) K) :=
  (plainRelative r continuous s).bind fun s =>
    match absolute r s.st with
    | none => .throws
    | some v => .ok (setSpeed v s)

/-- `requestSpeedChangeWithConstantAcceleration` with a relative target, EB:344-398 -/
def relativeAcceleration (r : Relative K) (tr : Transition) (a : K) (continuous : Bool) (s : S (Ent K) K) : Res (S (Ent K) K) :=
  askingRelative r s.st fun reached =>
    if reached && !continuous then .ok s
    else match tr with
      | .linear => autoRelative r a continuous (setAcceleration a s)
      | .auto => autoRelative r a continuous s
      | .step => jump r continuous s

/-- `requestSpeedChangeWithTimeConstraint` with a relative target, EB:400-433 -/
def relativeTime (N : Num K) (r : Relative K) (tr : Transition) (T : K) (s : S (Ent K) K) : Res (S (Ent K) K) :=
  askingRelative r s.st fun reached =>
    if reached then .ok s
    else if |T| ≤ N.eps ∧ tr ≠ .step then jump r false s
    else match tr with
      | .linear => match absolute r s.st with
        | none => .throws
        | some v => withTime N v .linear T s
      | .auto => match absolute r s.st with
        | none => .throws
        | some v => withTime N v .auto T s
      | .step => jump r false s

/-- `requestSpeedChange(RelativeTargetSpeed, transition, constraint, continuous)`, EB:435-457 -/
def requestRelative (N : Num K) (r : Relative K) (tr : Transition) (c : Constraint K) (continuous : Bool) (s : S (Ent K) K) :
    Res (S (Ent K) K) :=
  askingRelative r s.st fun reached =>
    if reached && !continuous then .ok s
    else match c with
      | .acceleration a => relativeAcceleration r tr a continuous s
      | .time T => if continuous then .throws else relativeTime N r tr T s
      | .none => plainRelative r continuous s

/-! ### Frames -/

/-- What an entity meets in a frame: the speed limit of the lane and the speeds of the others. -/
structure World (K : Type) where
  lane : K
  others : String → Option K

/-- `VehicleEntity::onUpdate`, VE:143-176, with `EntityBase::onUpdate` and `onPostUpdate`, EB:141-154, on a free lane: the behaviour
goes for the target speed, or for the speed limit of the lane if there is none (follow_lane_action.cpp 162-165), with the
dynamic constraints (vehicle_action_node.cpp 42-47, action_node.cpp 411-430). Not modelled: the end of the lanelets
(VE:169-174). -/
def frame (dt : K) (w : World K) (s : S (Ent K) K) : Res (S (Ent K) K) :=
  let r := update dt .pre { s with st := { s.st with others := w.others } }
  if r.2 then .throws
  else
    let e := r.1.st
    match Speed.step dt e.constraints (e.target.getD w.lane) e.motion with
    | none => .undefined
    | some m =>
      let r := update dt .post { r.1 with st := { e with motion := m, planner := true } }
      if r.2 then .throws else .ok r.1

/-- Frame by frame. -/
def frames (dt : K) : List (World K) → S (Ent K) K → Res (S (Ent K) K)
  | [], s => .ok s
  | w :: ws, s => (frame dt w s).bind (frames dt ws)

end Verif.Pace
