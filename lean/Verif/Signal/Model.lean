import Verif.Light.Model
/-
Traffic signal controllers of the interpreter.

Abbreviations of cited files (all under /repo/openscenario/openscenario_interpreter):
  TSC = src/syntax/traffic_signal_controller.cpp
  TSS = src/syntax/traffic_signals.cpp
  TST = src/syntax/traffic_signal_state.cpp
  PHA = src/syntax/phase.cpp
  CIT = include/openscenario_interpreter/iterator/circular_iterator.hpp
  TCA = src/syntax/traffic_signal_controller_action.cpp

Times are values of an arbitrary type `T` with the operations the code uses on `double`; no law is
assumed of them unless a theorem says so, so rounding, infinities and NaN are covered.

Simplifications: controllers and phases are addressed by position instead of by name/iterator, and
`resolve_reference` (TSS:45-63) is taken as done: `reference` is the position of the referenced
controller. The map `current_states` (TSC:151) is a list in order of first insertion; the code's
iteration order is unspecified.
-/
namespace Verif.Signal
open Light

/-- The operations on `double` used by TSC. `toInt` is the conversion to `int` (`none`: the
conversion is undefined behaviour, e.g. of infinity), used by `std::accumulate(…, 0, …)` TSC:100-105. -/
class Time (T : Type) where
  add : T → T → T
  sub : T → T → T
  le : T → T → Bool
  lt : T → T → Bool
  isInf : T → Bool
  toInt : T → Option Int
  ofInt : Int → T

inductive Channel
  | conventional
  | v2i
  deriving DecidableEq

/-- `TrafficSignalState`, TST:40-52, after parsing of its target. -/
structure SignalState where
  id : Id
  channel : Channel
  detected : Bool
  state : Text

/-- `Phase`, PHA:23-28 -/
structure Phase (T : Type) where
  name : String
  duration : T
  states : List SignalState

/-- The declaration of a controller, TSC:24-47, with the reference resolved. -/
structure Decl (T : Type) where
  phases : List (Phase T)
  reference : Option Nat
  delay : T

/-- The mutable part of a controller. `current = none` is the end iterator. -/
structure Ctl (T : Type) where
  current : Option Nat
  startedAt : T
  changeToBegin : Option T

/-- What an observer sees of controllers. Events are only recorded, never read. -/
inductive Event (T : Type)
  /-- controller `i` was evaluated at time `t` -/
  | evaluated (i : Nat) (t : T)
  /-- an action commanded controller `i` at time `t` to change its phase -/
  | commanded (i : Nat) (t : T)
  /-- controller `i` began to change to phase `p` (`none`: it has no phase) at time `t` -/
  | entered (i : Nat) (p : Option Nat) (t : T)

structure World (T : Type) where
  ctl : Nat → Ctl T
  lights : Lights
  /-- calls of `addV2ITrafficLightsStatePrediction` since the last clearing, oldest first -/
  predictions : List (Id × Text × T)
  /-- ghost: newest first -/
  log : List (Event T)

/-- How an operation ends: normally, by an exception, or in undefined behaviour. -/
inductive Out
  | ok
  | thrown
  | undefined
  deriving DecidableEq

variable {T : Type} [Time T] (m : RoadMap) (prog : List (Decl T))

/-- `TrafficSignalState::clear`, TST:54-75 -/
def SignalState.clear (s : SignalState) (w : Lights) : Lights × Bool :=
  match s.channel, s.detected with
  | .conventional, true => ({ w with convDetected := detectedClear s.id w.convDetected }, true)
  | .conventional, false => convClear m s.id w
  | .v2i, true => ({ w with v2iDetected := detectedClear s.id w.v2iDetected }, true)
  | .v2i, false => v2iClear m s.id w

/-- `TrafficSignalState::evaluate`, TST:77-99 -/
def SignalState.evaluate (s : SignalState) (w : Lights) : Lights × Bool :=
  match s.channel, s.detected with
  | .conventional, true =>
    let r := detectedAdd m s.id s.state w.convDetected; ({ w with convDetected := r.1 }, r.2)
  | .conventional, false => convAdd m s.id s.state w
  | .v2i, true =>
    let r := detectedAdd m s.id s.state w.v2iDetected; ({ w with v2iDetected := r.1 }, r.2)
  | .v2i, false => v2iAdd m s.id s.state w

/-- A `for` loop of operations that may throw. -/
def each (f : SignalState → Lights → Lights × Bool) : List SignalState → Lights → Lights × Bool
  | [], w => (w, true)
  | s :: ss, w => let r := f s w; if r.2 then each f ss r.1 else r

/-- `Phase::clearStates`, PHA:41-46 -/
def Phase.clearStates (p : Phase T) : Lights → Lights × Bool := each (SignalState.clear m) p.states

/-- `Phase::evaluate`, PHA:30-39 -/
def Phase.evaluate (p : Phase T) : Lights → Lights × Bool :=
  andThen (p.clearStates m) (each (SignalState.evaluate m) p.states)

/-- `CircularIterator::operator++`, CIT:63-72, over `n` elements. -/
def circularNext (n : Nat) : Option Nat → Option Nat
  | none => if n = 0 then none else some 0
  | some p => if p + 1 = n then (if n = 0 then none else some 0) else some (p + 1)

/-- `std::begin(phases)` -/
def Decl.begin (d : Decl T) : Option Nat := if d.phases.length = 0 then none else some 0

/-- `TrafficSignalController::cycleTime`, TSC:100-105. The accumulator is an `int`. -/
def cycleTime (phases : List (Phase T)) : Option Int :=
  phases.foldlM (fun sum p => Time.toInt (Time.add (Time.ofInt sum : T) p.duration)) 0

/-- `states[id].push_back(state)`, TSC:159,169 -/
def insertState (i : Id) (s : Text) : List (Id × List Text) → List (Id × List Text)
  | [] => [(i, [s])]
  | (j, l) :: r => if j = i then (j, l ++ [s]) :: r else (j, l) :: insertState i s r

/-- `collect_states`, TSC:153-175: explicit V2I states first, then conventional states of lights with
the feature enabled that have no explicit V2I state in this phase. The `detected` flag is not looked at. -/
def collectStates (enabled : Id → Bool) (p : Phase T) : List (Id × List Text) :=
  let v2i := p.states.filter (·.channel = .v2i)
  let conv := p.states.filter fun s =>
    s.channel = .conventional && !(v2i.any fun v => v.id = s.id) && enabled s.id
  (v2i ++ conv).foldl (fun acc s => insertState s.id s.state acc) []

/-- `current_states[id] = states`, TSC:190 -/
def overwrite (i : Id) (l : List Text) : List (Id × List Text) → List (Id × List Text)
  | [] => [(i, l)]
  | (j, k) :: r => if j = i then (j, l) :: r else (j, k) :: overwrite i l r

/-- The loop of TSC:177-203. `left` is `6 - extracted_phases_number`, `it` the phase iterator,
`acc` the accumulated time. -/
def predictLoop (phases : List (Phase T)) (enabled : Id → Bool) :
    (left : Nat) → (it : Option Nat) → (acc : T) → (cur : List (Id × List Text)) →
    Option (List (Id × Text × T))
  | 0, _, _, _ => some []
  | left + 1, it, acc, cur =>
    let it := circularNext phases.length it
    match it.bind (phases[·]?) with
    | none => none
    | some p =>
      if Time.isInf acc || Time.isInf p.duration then some []
      else
        let go :=
          let cur := (collectStates enabled p).foldl (fun c x => overwrite x.1 x.2 c) cur
          (predictLoop phases enabled left it (Time.add acc p.duration) cur).map fun rest =>
            (cur.flatMap fun x => x.2.map fun s => (x.1, s, acc)) ++ rest
        if left + 1 = 6 then
          match cycleTime phases with
          | none => none
          | some c => if Time.lt (Time.ofInt c) acc then some [] else go
        else go

/-- `TrafficSignalController::updatePredictions`, TSC:136-206: the new list of predictions, `none` for
undefined behaviour. `now - startedAt` is computed by the caller's clock. -/
def updatePredictions (d : Decl T) (c : Ctl T) (now : T) (w : World T) : Option (List (Id × Text × T)) :=
  match c.current with
  | none => some w.predictions
  | some p =>
    match d.phases[p]? with
    | none => none
    | some ph =>
      predictLoop d.phases w.lights.enabled 6 (some p)
        (Time.sub ph.duration (Time.sub now c.startedAt)) []

/-- `TrafficSignalController::notifyBegin`, TSC:118-121, of all observers of controller `i`
(TSS:56 registers each controller with its reference), TSC:65-69. -/
def notifyObservers (i : Nat) (now : T) (ctl : Nat → Ctl T) : Nat → Ctl T := fun k =>
  match prog[k]? with
  | some d => if d.reference = some i then { ctl k with changeToBegin := some (Time.add now d.delay) } else ctl k
  | none => ctl k

/-- Continue after a step on the lights. -/
def withLights (f : Lights → Lights × Bool) (k : World T → World T × Out) (w : World T) : World T × Out :=
  let r := f w.lights
  if r.2 then k { w with lights := r.1 } else ({ w with lights := r.1 }, .thrown)

/-- The phase the iterator points at, if any. -/
def Decl.phase? (d : Decl T) (p : Option Nat) : Option (Phase T) := p.bind (d.phases[·]?)

/-- Run `f` on the phase if there is one. -/
def onPhase (f : Phase T → Lights → Lights × Bool) : Option (Phase T) → Lights → Lights × Bool
  | some p, w => f p w
  | none, w => (w, true)

/-- `current_phase_started_at = …; current_phase = next; updatePredictions(); evaluate`, TSC:76-81 -/
def enterPhase (i : Nat) (d : Decl T) (next : Option Nat) (now : T) (w : World T) : World T × Out :=
  let c : Ctl T := { w.ctl i with startedAt := now, current := next }
  let w := { w with ctl := upd w.ctl i c }
  match updatePredictions d c now w with
  | none => (w, .undefined)
  | some ps =>
    withLights (onPhase (Phase.evaluate m) (d.phase? next)) (fun w => (w, .ok)) { w with predictions := ps }

/-- `TrafficSignalController::changePhaseTo`, TSC:63-82 -/
def changePhaseTo (i : Nat) (d : Decl T) (next : Option Nat) (now : T) (w : World T) : World T × Out :=
  let w := { w with log := .entered i next now :: w.log,
                    ctl := if next = d.begin then notifyObservers prog i now w.ctl else w.ctl }
  withLights (onPhase (Phase.clearStates m) (d.phase? (w.ctl i).current)) (enterPhase m i d next now) w

/-- `TrafficSignalController::currentPhaseExceeded`, TSC:84-88 -/
def exceeded (d : Decl T) (c : Ctl T) (now : T) : Bool :=
  match d.phase? c.current with
  | some p => Time.le p.duration (Time.sub now c.startedAt)
  | none => false

/-- `TrafficSignalController::shouldChangePhaseToBegin`, TSC:123-134, with its effect on
`change_to_begin_time`. -/
def shouldBegin (d : Decl T) (c : Ctl T) (now : T) : Bool × Ctl T :=
  match d.reference with
  | none => (c.current.isNone, c)
  | some _ =>
    match c.changeToBegin with
    | some b => if Time.lt b now then (true, { c with changeToBegin := none }) else (false, c)
    | none => (false, c)

/-- `TrafficSignalController::evaluate`, TSC:107-116 -/
def evaluate (i : Nat) (d : Decl T) (now : T) (w : World T) : World T × Out :=
  let w := { w with log := .evaluated i now :: w.log }
  let r := shouldBegin d (w.ctl i) now
  let w := { w with ctl := upd w.ctl i r.2 }
  if r.1 then changePhaseTo m prog i d d.begin now w
  else if exceeded d (w.ctl i) now then
    changePhaseTo m prog i d (circularNext d.phases.length (w.ctl i).current) now w
  else (w, .ok)

/-- `TrafficSignals::evaluate`, TSS:36-43: the controllers from position `i` on. -/
def evaluateFrom (now : T) : (i : Nat) → List (Decl T) → World T → World T × Out
  | _, [], w => (w, .ok)
  | i, d :: ds, w =>
    let r := evaluate m prog i d now w
    if r.2 = .ok then evaluateFrom now (i + 1) ds r.1 else r

/-- What happens to the controllers during a scenario. -/
inductive Op (T : Type)
  /-- one frame at time `now`: `TrafficSignals::evaluate` -/
  | tick (now : T)
  /-- `TrafficSignalControllerAction` (TCA:36-39, TSC:49-61) on controller `i` -/
  | action (i : Nat) (phase : String) (now : T)
  /-- anything else that changes the lights, e.g. a TrafficSignalStateAction or `setV2IFeature` -/
  | lights (l : Lights)

/-- `changePhaseTo(name)`, TSC:49-61 -/
def changePhaseByName (i : Nat) (name : String) (now : T) (w : World T) : World T × Out :=
  match prog[i]? with
  | none => (w, .thrown)
  | some d =>
    match d.phases.findIdx? (·.name = name) with
    | none => (w, .thrown)
    | some p => changePhaseTo m prog i d (some p) now { w with log := .commanded i now :: w.log }

def Op.apply (w : World T) : Op T → World T × Out
  | .tick now => evaluateFrom m prog now 0 prog w
  | .action i name now => changePhaseByName m prog i name now w
  | .lights l => ({ w with lights := l }, .ok)

/-- A run in which nothing throws; `none` if an operation does not end normally. -/
def run : List (Op T) → World T → Option (World T)
  | [], w => some w
  | o :: os, w => let r := o.apply m prog w; if r.2 = .ok then run os r.1 else none

/-- The state after construction, TSC:24-31 (`t0` is the initial value of
`current_phase_started_at`, never read before it is overwritten). -/
def World.initial (t0 : T) : World T :=
  ⟨fun _ => ⟨none, t0, none⟩, ⟨fun _ => [], fun _ => [], fun _ => none, fun _ => none, fun _ => false⟩, [], []⟩

end Verif.Signal
