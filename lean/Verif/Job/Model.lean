/-
Jobs of an entity.

Cited files, below TS = /repo/simulation/traffic_simulator:
JOB = TS/src/job/job.cpp, LIST = TS/src/job/job_list.cpp, HPP = TS/include/traffic_simulator/job/job.hpp

`σ` is everything a job body can see and change; bodies are arbitrary functions on it. Bodies do not
append jobs (`list_` is a `std::vector`, so that would invalidate the iteration; no body in the code
does). The calls of bodies are recorded in a log, which the code does not have.
-/
namespace Verif.Job

/-- `job::Type`, HPP:26-33 -/
inductive JType
  | unknown
  | linearVelocity
  | linearAcceleration
  | standStillDuration
  | traveledDistance
  | outOfRange
  deriving DecidableEq

/-- `job::Event`, HPP:40-43 -/
inductive Event
  | pre
  | post
  deriving DecidableEq

/-- What a call of `func_on_update_` does: return a boolean, or throw. -/
inductive Outcome
  | returns (finished : Bool)
  | throws
  deriving DecidableEq

/-- `Job`, HPP:45-76 -/
structure Job (σ T : Type) where
  onUpdate : T → σ → σ × Outcome
  onCleanup : σ → σ
  type : JType
  exclusive : Bool
  event : Event
  active : Bool
  duration : T

/-- A call of a function of the job at a position in the list. -/
inductive Call
  | ran (job : Nat)
  | cleaned (job : Nat)
  deriving DecidableEq

/-- `JobList` with the state its bodies work on and the log of the calls. -/
structure S (σ T : Type) where
  st : σ
  jobs : List (Job σ T)
  log : List Call

variable {σ T : Type}

/-- The loop of `JobList::append`, LIST:26-30, with `Job::inactivate`, JOB:35-39. `i` is the position
of the first job. -/
def inactivateLoop (m : Job σ T → Bool) : Nat → σ → List (Job σ T) → σ × List (Job σ T) × List Call
  | _, st, [] => (st, [], [])
  | i, st, j :: js =>
    if m j && j.active then
      let r := inactivateLoop m (i + 1) (j.onCleanup st) js
      (r.1, { j with active := false } :: r.2.1, .cleaned i :: r.2.2)
    else
      let r := inactivateLoop m (i + 1) st js
      (r.1, j :: r.2.1, r.2.2)

/-- `JobList::append`, LIST:22-32 -/
def append [Zero T] (onUpdate : T → σ → σ × Outcome) (onCleanup : σ → σ) (type : JType)
    (exclusive : Bool) (event : Event) (s : S σ T) : S σ T :=
  let r := inactivateLoop (fun j => j.type == type && j.exclusive == exclusive) 0 s.st s.jobs
  { st := r.1
    jobs := r.2.1 ++ [{ onUpdate, onCleanup, type, exclusive, event, active := true, duration := 0 }]
    log := s.log ++ r.2.2 }

/-- The loop of `JobList::update`, LIST:34-41, with `Job::onUpdate`, JOB:43-55. The last component
tells whether a body has thrown, which ends the loop. -/
def updateLoop [Add T] (step : T) (ev : Event) :
    Nat → σ → List (Job σ T) → σ × List (Job σ T) × List Call × Bool
  | _, st, [] => (st, [], [], false)
  | i, st, j :: js =>
    if j.event = ev ∧ j.active = true then
      match j.onUpdate j.duration st with
      | (st', .throws) => (st', j :: js, [.ran i], true)
      | (st', .returns true) =>
        let r := updateLoop step ev (i + 1) (j.onCleanup st') js
        (r.1, { j with active := false, duration := j.duration + step } :: r.2.1,
          .ran i :: .cleaned i :: r.2.2.1, r.2.2.2)
      | (st', .returns false) =>
        let r := updateLoop step ev (i + 1) st' js
        (r.1, { j with duration := j.duration + step } :: r.2.1, .ran i :: r.2.2.1, r.2.2.2)
    else
      let r := updateLoop step ev (i + 1) st js
      (r.1, j :: r.2.1, r.2.2.1, r.2.2.2)

/-- `JobList::update`, LIST:34-41; the second component tells whether an exception leaves it. -/
def update [Add T] (step : T) (ev : Event) (s : S σ T) : S σ T × Bool :=
  let r := updateLoop step ev 0 s.st s.jobs
  ({ st := r.1, jobs := r.2.1, log := s.log ++ r.2.2.1 }, r.2.2.2)

/-- One thing that happens to a job list: an append, an update, or any change of the state by others. -/
inductive Op (σ T : Type)
  | append (onUpdate : T → σ → σ × Outcome) (onCleanup : σ → σ) (type : JType) (exclusive : Bool)
      (event : Event)
  | update (step : T) (event : Event)
  | other (f : σ → σ)

def exec [Zero T] [Add T] (s : S σ T) : Op σ T → S σ T
  | .append u c t x e => append u c t x e s
  | .update d e => (update d e s).1
  | .other f => { s with st := f s.st }

/-- A history, from an empty list. -/
def run [Zero T] [Add T] (st : σ) (ops : List (Op σ T)) : S σ T :=
  ops.foldl exec { st, jobs := [], log := [] }

end Verif.Job
