import Verif.RandomTest.Model
/-
How random tests are executed (TE = test_runner/random_test_runner/include/random_test_runner/test_executor.hpp,
AS, CM, GM = metrics/{almost_standstill_metric,ego_collision_metric,goal_reached_metric}.hpp next to it,
RT = src/random_test_runner.cpp, AP = simulation/traffic_simulator/src/api/api.cpp,
SC = simulation/traffic_simulator/{include/traffic_simulator,src}/simulation_clock/simulation_clock.{hpp,cpp}).

Times are numbers or none, for not-a-number.  What the simulator, the ego and the vehicles do is given by
frames; messages to the user are left out, but what is written to the results is kept, without texts.
-/
namespace Verif.RandomTest
section
variable {K : Type} [Field K] [LinearOrder K]

/-- The kinds of exceptions that are told apart (TE 260-278). -/
inductive Exc | autoware | simulator | runtime | unknown
  deriving DecidableEq, Repr

/-- An error in the results (file_interactions/junit_xml_reporter.hpp 34-46). -/
inductive Report (K : Type)
  | collision (npc : String) (time : Option K)
  | standStill
  | timeout
  | exception (e : Exc)
  deriving DecidableEq, Repr

/-- What becomes of an update of the simulation (AP 126-151): it is carried out; it is refused before the
entities are updated, or after that; it ends with an exception. -/
inductive Outcome | done | early | late | thrown (e : Exc)
  deriving DecidableEq, Repr

/-- Where the ego is, and its speed forwards. -/
structure Ego (K : Type) where
  place : Point K
  speed : K
  deriving DecidableEq, Repr

/-- What is found in an update of the executor. -/
structure Frame (K : Type) where
  ego : Option (Ego K)
  engaged : Except Exc Bool
  touching : List String
  outcome : Outcome

/-- What is given: the timeout, the time of a step, the vehicles of the test, a square root. -/
structure Setting (K : Type) where
  timeout : K
  step : K
  npcs : List String
  sqrt : K → K

/-- An executor and its clock: the time since the simulator and the one at which the scenario was started
(SC), the time of the ego's status, what the metrics keep, the goal, whether it is completed, its
results. -/
structure State (K : Type) where
  now : K
  base : Option K
  stamp : Option K
  last : Option (Option K)
  still : Option K
  contacts : List (String × Option K)
  goal : Option (Point K)
  completed : Bool
  reports : List (Report K)
  deriving DecidableEq, Repr

/-- A new executor (TE 61-72, 281-293, SC). -/
def State.fresh : State K := ⟨0, none, none, none, some 0, [], none, false, []⟩

/-- Differences and sums with not-a-number, and what is greater than a number. -/
def minus (a b : Option K) : Option K := a.bind fun x => b.map fun y => x - y
def plus (a b : Option K) : Option K := a.bind fun x => b.map fun y => x + y
def above (a : Option K) (k : K) : Bool := a.any fun x => decide (k < x)

/-- `getCurrentTime`, `getCurrentScenarioTime` (AP 67, SC). -/
def State.time (s : State K) : Option K := minus (some s.now) s.base

/-- `AlmostStandstillMetric::isAlmostStandingStill` for a status of this speed (AS 28-52). -/
def State.standing (s : State K) (speed : K) : State K × Bool :=
  match s.last with
  | none => ({ s with last := some s.stamp }, false)
  | some l =>
    if above (minus s.stamp l) 2 then ({ s with last := none }, false)
    else
      let still := if speed < 1 / 100 then plus s.still (minus s.stamp l) else some 0
      ({ s with still := still, last := some s.stamp }, above still 10)

/-- `EgoCollisionMetric::isThereEgosCollisionWith` (CM 23-46). -/
def contact (contacts : List (String × Option K)) (npc : String) (time : Option K) :
    List (String × Option K) × Bool :=
  let kept := contacts.filter fun c => !above (minus time c.2) (1 / 2)
  if kept.any (fun c => c.1 == npc) then (kept.map fun c => if c.1 = npc then (npc, time) else c, false)
  else (kept ++ [(npc, time)], true)

/-- The loop over the vehicles of the test (TE 212-221). -/
def State.collide (touching : List String) (s : State K) (npc : String) : State K :=
  if npc ∈ touching then
    let r := contact s.contacts npc s.time
    { s with contacts := r.1, reports := if r.2 then s.reports ++ [.collision npc s.time] else s.reports }
  else s

/-- `GoalReachedMetric::isGoalReached` (GM 30-44). -/
def State.reached (g : Setting K) (s : State K) (ego : Ego K) : Bool :=
  match s.goal with
  | none => false
  | some p => decide (distance g.sqrt ego.place p < 3)

/-- `API::startNpcLogic` (AP 55-63): the clock of the scenario starts, and the status of the ego is of
now. -/
def State.start (s : State K) : State K := { s with base := some s.now, stamp := some 0 }

/-- Whether the scenario starts (TE 181-190). -/
def State.tryStart (s : State K) (f : Frame K) : State K × Option Exc :=
  match s.base with
  | some _ => (s, none)
  | none =>
    match f.ego with
    | none => (s.start, none)
    | some _ =>
      match f.engaged with
      | .error e => (s, some e)
      | .ok true => (s.start, none)
      | .ok false => (s, none)

/-- `API::updateFrame` (AP 126-151): entities are updated to the end of the step if the scenario has
started; its result is not used by the executor (TE 235). -/
def State.frame (g : Setting K) (s : State K) (f : Frame K) : State K × Option Exc :=
  let updated := match s.time with
    | none => s
    | some t => { s with stamp := some (t + g.step) }
  match f.outcome with
  | .thrown e => (s, some e)
  | .early => (s, none)
  | .late => (updated, none)
  | .done => ({ updated with now := s.now + g.step }, none)

/-- The latter part of an update: collisions, standstill, the next frame (TE 212-235). -/
def State.rest (g : Setting K) (s : State K) (f : Frame K) : State K × Option Exc :=
  let s := g.npcs.foldl (State.collide f.touching) s
  match f.ego with
  | none => (s, some .simulator)
  | some ego =>
    let r := s.standing ego.speed
    let s :=
      if r.2 then
        { r.1 with
          reports := if r.1.reached g ego then r.1.reports else r.1.reports ++ [.standStill]
          completed := true }
      else r.1
    s.frame g f

/-- What an update does before an exception, if there is one (TE 181-235). -/
def State.body (g : Setting K) (s : State K) (f : Frame K) : State K × Option Exc :=
  match s.tryStart f with
  | (s, some e) => (s, some e)
  | (s, none) =>
    match s.time with
    | none => s.rest g f
    | some t =>
      match f.ego with
      | none => (s, some .simulator)
      | some ego =>
        let s := if s.reached g ego then { s with completed := true } else s
        if g.timeout ≤ t then
          ({ s with
              reports := if s.reached g ego then s.reports else s.reports ++ [.timeout]
              completed := true }, none)
        else s.rest g f

/-- `TestExecutor::executeWithErrorHandling` (TE 256-279): errors of Autoware and of the simulator are
in the results, all others are not. -/
def handle (r : State K × Option Exc) : State K :=
  match r.2 with
  | none => r.1
  | some .autoware => { r.1 with reports := r.1.reports ++ [.exception .autoware], completed := true }
  | some .simulator => { r.1 with reports := r.1.reports ++ [.exception .simulator], completed := true }
  | some .runtime => { r.1 with completed := true }
  | some .unknown => { r.1 with completed := true }

/-- `TestExecutor::update` (TE 178-237). -/
def State.update (g : Setting K) (s : State K) (f : Frame K) : State K := handle (s.body g f)

/-- How an executor is initialized: the ego has no place on the map; an exception before its goal is
known to the executor, or after that; or all is well. -/
inductive Setup | noEgo | before (e : Exc) | after (e : Exc) | ready
  deriving DecidableEq, Repr

/-- `TestExecutor::initialize` (TE 74-176), whose frame is carried out or not. -/
def State.initialize (g : Setting K) (goal : Point K) (carried : Bool) (u : Setup) (s : State K) : State K :=
  let s := { s with completed := false }
  let moved := if carried then { s with now := s.now + g.step } else s
  match u with
  | .noEgo => handle (s, some .runtime)
  | .before e => handle (moved, some e)
  | .after e => handle ({ moved with goal := some goal }, some e)
  | .ready => { moved with goal := some goal }

/-- A test: its setting and its goal. -/
structure Case (K : Type) where
  setting : Setting K
  goal : Point K

/-- What is found in a call of the runner: of the end of a test, of the start of the next one, and of the
update. -/
structure Tick (K : Type) where
  ending : Option Exc
  carried : Bool
  setup : Setup
  frame : Frame K

/-- The runner: the executors that have ended, the one that runs and its test, the tests left, and the
results once they are written. -/
structure Runner (K : Type) where
  ended : List (State K)
  case : Case K
  current : State K
  left : List (Case K)
  written : Option (List (List (Report K)))

/-- `RandomTestRunner::start` (RT 218-227). -/
def Runner.start (c : Case K) (left : List (Case K)) (carried : Bool) (u : Setup) : Runner K :=
  ⟨[], c, State.fresh.initialize c.setting c.goal carried u, left, none⟩

/-- `RandomTestRunner::update` and `stop` (RT 199-216, 229-234; TE 239-251); after that there are no more calls. -/
def Runner.update (r : Runner K) (t : Tick K) : Runner K :=
  match r.written with
  | some _ => r
  | none =>
    if r.current.completed then
      let old := handle (r.current, t.ending)
      match r.left with
      | [] => { r with ended := r.ended ++ [old], written := some ((r.ended ++ [old]).map (·.reports)) }
      | c :: left =>
        ⟨r.ended ++ [old], c, (State.fresh.initialize c.setting c.goal t.carried t.setup).update c.setting t.frame, left, none⟩
    else { r with current := r.current.update r.case.setting t.frame }

/-- Updates, one after another. -/
def State.run (g : Setting K) (s : State K) (fs : List (Frame K)) : State K := fs.foldl (State.update g) s
def Runner.run (r : Runner K) (ts : List (Tick K)) : Runner K := ts.foldl Runner.update r

end
end Verif.RandomTest
