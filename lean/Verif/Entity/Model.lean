import Verif.Job.Model
/-
Speed requests, stand-still duration and travelled distance of an entity.

Cited files, below TS = /repo/simulation/traffic_simulator:
EB = TS/src/entity/entity_base.cpp, VE = TS/src/entity/vehicle_entity.cpp,
PE = TS/src/entity/pedestrian_entity.cpp

Numbers are of an arbitrary type `V`. Modelled: the jobs of an entity and the part of its state they
read and write. The behaviour plugin is an arbitrary new speed in every frame. Not modelled:
`EgoEntity`, which overrides the requests, and `MiscObjectEntity`, whose `onUpdate` has no jobs.
-/
namespace Verif.Entity
open Verif.Job

/-- The operations on numbers that decide: `std::abs`, the comparison with `epsilon` of EB:58, and
`isTargetSpeedReached target current` of EB:129-132. -/
structure Num (V : Type) where
  abs : V → V
  still : V → Bool
  reached : V → V → Bool

/-- The members of `EntityBase` the jobs work on: the speed of `status_`, `target_speed_`, the
acceleration limit in force (`none` is the default one), `traveled_distance_`,
`stand_still_duration_`, `step_time_`, and the speed of the reference entity in `other_status_`
(`none`: there is no such entity). -/
structure Ent (V : Type) where
  speed : V
  target : Option V
  limit : Option V
  travelled : V
  standStill : V
  step : V
  reference : Option V

variable {V : Type} [Zero V] [Add V] [Mul V]

/-- EB:42-45 -/
def travelledBody (N : Num V) : V → Ent V → Ent V × Outcome :=
  fun _ e => ({ e with travelled := e.travelled + N.abs e.speed * e.step }, .returns false)

/-- EB:57-64 -/
def standStillBody (N : Num V) : V → Ent V → Ent V × Outcome :=
  fun _ e => ({ e with standStill := if N.still e.speed then e.standStill + e.step else 0 }, .returns false)

/-- The constructor, EB:35-66 -/
def construct (N : Num V) (e : Ent V) : S (Ent V) V :=
  append (standStillBody N) id .standStillDuration true .post
    (append (travelledBody N) id .traveledDistance true .post
      { st := { e with travelled := 0, standStill := 0, target := none, step := 0 }, jobs := [], log := [] })

/-- EB:470-473 and EB:484-490 -/
def absoluteBody (N : Num V) (v : V) (continuous : Bool) : V → Ent V → Ent V × Outcome :=
  fun _ e =>
    if !continuous && N.reached v e.speed then (e, .returns true)
    else ({ e with target := some v }, .returns false)

/-- EB:477 and EB:494 -/
def cancelSpeed (continuous : Bool) (e : Ent V) : Ent V :=
  if continuous then e else { e with target := none }

/-- `requestSpeedChange(target_speed, continuous)`, EB:459-497 -/
def requestSpeed (N : Num V) (v : V) (continuous : Bool) (s : S (Ent V) V) : S (Ent V) V :=
  if N.reached v s.st.speed && !continuous then s
  else append (absoluteBody N v continuous) (cancelSpeed continuous) .linearVelocity true .post
    { s with st := { s.st with target := some v } }

/-- EB:510-516 and EB:523-532; `f` is `RelativeTargetSpeed::getAbsoluteValue` as a function of the speed
of the reference entity. -/
def relativeBody (N : Num V) (f : V → V) (continuous : Bool) : V → Ent V → Ent V × Outcome :=
  fun _ e =>
    match e.reference with
    | none => (e, .returns true)
    | some r =>
      if !continuous && N.reached (f r) e.speed then (e, .returns true)
      else ({ e with target := some (f r) }, .returns false)

/-- `requestSpeedChange(RelativeTargetSpeed, continuous)`, EB:499-539; `getAbsoluteValue` throws if there
is no reference entity, in which case nothing happens. -/
def requestRelative (N : Num V) (f : V → V) (continuous : Bool) (s : S (Ent V) V) : S (Ent V) V :=
  match s.st.reference with
  | none => s
  | some r =>
    if N.reached (f r) s.st.speed && !continuous then s
    else append (relativeBody N f continuous) (cancelSpeed continuous) .linearVelocity true .post s

/-- The limit of a speed change with a constraint until the speed is reached, EB:234-258 and
EB:292-311: a job with a condition on the speed and a clean-up that resets the limit. -/
def requestLimit (limit : V) (done : V → Bool) (s : S (Ent V) V) : S (Ent V) V :=
  append (fun _ e => (e, .returns (done e.speed))) (fun e => { e with limit := none })
    .linearAcceleration true .post { s with st := { s.st with limit := some limit } }

/-- What the job of `requestSynchronize` does, EB:779-847: throw, finish, or set the target speed. -/
inductive Sync (V : Type)
  | throws
  | finishes
  | sets (v : V)

/-- `requestSynchronize`, EB:778-848, when the entity has not arrived yet. -/
def requestSync (f : V → Sync V) (s : S (Ent V) V) : S (Ent V) V :=
  append (fun _ e => match f e.speed with
      | .throws => (e, .throws)
      | .finishes => (e, .returns true)
      | .sets v => ({ e with target := some v }, .returns false))
    id .linearAcceleration true .post s

/-- `activateOutOfRangeJob`, EB:687-727 -/
def requestRange (ok : V → Bool) (s : S (Ent V) V) : S (Ent V) V :=
  append (fun _ e => (e, if ok e.speed then .returns false else .throws)) id .outOfRange true .post s

/-- `VehicleEntity::onUpdate`, VE:143-176, and `PedestrianEntity::onUpdate`, PE:295-312, with
`EntityBase::onUpdate` and `onPostUpdate`, EB:141-154. `speed` is what the behaviour makes of the speed;
at the end of the lanelets the entity is stopped and the function returns early. The result tells
whether an exception leaves it. -/
def frame (step speed : V) (atEnd : Bool) (reference : Option V) (s : S (Ent V) V) : S (Ent V) V × Bool :=
  let r := update step .pre { s with st := { s.st with reference } }
  if r.2 then r
  else
    let s' := { r.1 with st := { r.1.st with step, speed } }
    if atEnd then ({ s' with st := { s'.st with speed := 0 } }, false)
    else update step .post s'

/-- What can happen to an entity. -/
inductive EOp (V : Type)
  | frame (step speed : V) (atEnd : Bool) (reference : Option V)
  | speed (v : V) (continuous : Bool)
  | relative (f : V → V) (continuous : Bool)
  | limit (limit : V) (done : V → Bool)
  | sync (f : V → Sync V)
  | range (ok : V → Bool)
  /-- `setLinearVelocity`, EB:648-651 -/
  | setSpeed (v : V)

def exec (N : Num V) (s : S (Ent V) V) : EOp V → S (Ent V) V
  | .frame step speed atEnd reference => (frame step speed atEnd reference s).1
  | .speed v c => requestSpeed N v c s
  | .relative f c => requestRelative N f c s
  | .limit l d => requestLimit l d s
  | .sync f => requestSync f s
  | .range ok => requestRange ok s
  | .setSpeed v => { s with st := { s.st with speed := v } }

/-- A history of an entity. -/
def run (N : Num V) (e : Ent V) (ops : List (EOp V)) : S (Ent V) V := ops.foldl (exec N) (construct N e)

end Verif.Entity
