/-
Model of how the field operator application reads Autoware's state and calls its services.

CO = external/concealer.
-/
namespace Verif.Autoware

/-- CO/include/concealer/legacy_autoware_state.hpp 38-47. -/
inductive AState
  | undefined | initializing | waitingForRoute | planning | waitingForEngage | driving | arrivedGoal | finalizing
  deriving DecidableEq, Repr

/-- The values of the enumerators, legacy_autoware_state.hpp 38-47. -/
def AState.rank : AState → Nat
  | undefined => 0 | initializing => 1 | waitingForRoute => 2 | planning => 3 | waitingForEngage => 4
  | driving => 5 | arrivedGoal => 6 | finalizing => 7

/-- The codes of autoware_adapi_v1_msgs (LocalizationInitializationState, RouteState, OperationModeState).
The messages are not part of the repository; codes without a name can be received nevertheless. -/
inductive Localization | unknown | uninitialized | initializing | initialized | other (code : Nat)
  deriving DecidableEq
inductive RouteS | unknown | unset | set | arrived | changing | other (code : Nat)
  deriving DecidableEq
inductive Mode | unknown | stop | autonomous | «local» | remote | other (code : Nat)
  deriving DecidableEq

/-- The latest messages. `sinceArrival` is `now - route_state.stamp` in units of which two seconds are `2 * sec`. -/
structure Messages where
  localization : Localization
  route : RouteS
  mode : Mode
  controlEnabled : Bool
  autonomousAvailable : Bool
  sinceArrival : Int

/-- CO/include/concealer/subscriber.hpp 32: before a message is received a value initialised one is read;
its codes are zero, `UNKNOWN`. -/
def Messages.initial (t : Int) : Messages :=
  { localization := .unknown, route := .unknown, mode := .unknown, controlEnabled := false,
    autonomousAvailable := false, sinceArrival := t }

/-- legacy_autoware_state.hpp 80-142. -/
def classify (sec : Int) (m : Messages) : AState :=
  if m.localization = .unknown ∨ m.route = .unknown ∨ m.mode = .unknown then .initializing
  else match m.localization with
    | .uninitialized => .initializing
    | .initializing => .initializing
    | .initialized =>
      match m.route with
      | .arrived => if m.sinceArrival < 2 * sec then .arrivedGoal else .waitingForRoute
      | .unset => .waitingForRoute
      | .set => byMode m
      | .changing => byMode m
      | _ => .undefined
    | _ => .undefined
where
  /-- legacy_autoware_state.hpp 114-130 -/
  byMode (m : Messages) : AState :=
    let stopped : AState := if m.autonomousAvailable then .waitingForEngage else .planning
    match m.mode with
    | .autonomous => if m.controlEnabled then .driving else stopped
    | .local => if m.controlEnabled then .driving else stopped
    | .remote => if m.controlEnabled then .driving else stopped
    | .stop => stopped
    | _ => .undefined

/-- How a call of a service ends: the number of requests sent, and whether it returned or threw. -/
structure Call where
  sent : Nat
  ok : Bool
  deriving DecidableEq

/-- CO/include/concealer/service.hpp 101-113: the attempts from number `k` on, `n` of them left.
`outcome k`: attempt `k` is answered in time and the answer means success. -/
def attempts (outcome : Nat → Bool) (k : Nat) : Nat → Call
  | 0 => ⟨k, false⟩
  | n + 1 => if outcome k then ⟨k + 1, true⟩ else attempts outcome (k + 1) n

/-- service.hpp 56-65: waiting for the service. At the `i`-th look: ROS runs, the service is ready, the
deadline has passed. `true`: go on; `false`: it throws. -/
def available (rosOk ready late : Nat → Bool) (i : Nat) : Option Bool := do
  if rosOk i && !ready i then
    if late i then some false else available rosOk ready late (i + 1)
  else some true
partial_fixpoint

/-- service.hpp 51-114 `operator()`. `none`: it waits for ever. -/
def call (rosOk ready late outcome : Nat → Bool) (n : Nat) : Option Call :=
  (available rosOk ready late 0).map fun a => if a then attempts outcome 0 n else ⟨0, false⟩

/-- service.hpp 77-87: a response with a list of results is a success if all of them are. -/
def receiveAll (results : List Bool) : Bool := results.all id

/-- What a task sees: at the `i`-th look the state of Autoware, whether the application is being destroyed,
whether the time limit has passed. -/
structure World where
  state : Nat → AState
  finalized : Nat → Bool
  late : Nat → Bool
  /-- whether the service call succeeds (within all its attempts) -/
  accepts : Bool

/-- CO/include/concealer/field_operator_application.hpp 131-153 `waitForAutowareStateToBe`, from look `i`
on: the look with which it returned, or that it threw; `none`: it waits for ever. -/
def wait (w : World) (a b : AState) (i : Nat) : Option (Except Unit Nat) := do
  if !w.finalized i && (decide (a.rank ≤ (w.state i).rank) && decide ((w.state i).rank < b.rank)) then
    if w.late i then some (.error ()) else wait w a b (i + 1)
  else some (.ok i)
partial_fixpoint

/-- Consecutive waits. -/
def waits (w : World) : List (AState × AState) → Nat → Option (Except Unit Nat)
  | [], i => some (.ok i)
  | (a, b) :: l, i => do
    match ← wait w a b i with
    | .error _ => some (.error ())
    | .ok j => waits w l j

/-- How a task ends: whether it returned or threw, the last look, and the look at which it sent its
request. -/
structure Task where
  ok : Bool
  last : Nat
  sent : Option Nat
  deriving DecidableEq

/-- The common shape: waits, the request, waits. -/
def request (w : World) (before after : List (AState × AState)) : Option Task := do
  match ← waits w before 0 with
  | .error _ => some ⟨false, 0, none⟩
  | .ok i =>
    if w.accepts then
      match ← waits w after i with
      | .error _ => some ⟨false, 0, some i⟩
      | .ok j => some ⟨true, j, some i⟩
    else some ⟨false, i, some i⟩

/-- CO/src/field_operator_application.cpp 280-318, the task of `engage`. -/
def engage (w : World) : Option Task :=
  let after := [(.waitingForEngage, .driving)]
  match w.state 0 with
  | .initializing => request w [(.initializing, .waitingForRoute), (.waitingForRoute, .planning), (.planning, .waitingForEngage)] after
  | .waitingForRoute => request w [(.waitingForRoute, .planning), (.planning, .waitingForEngage)] after
  | .planning => request w [(.planning, .waitingForEngage)] after
  | .waitingForEngage => request w [] after
  | .driving => some ⟨true, 0, none⟩
  | _ => some ⟨false, 0, none⟩

/-- field_operator_application.cpp 438-458 and 466-486, the tasks of `plan`. -/
def plan (w : World) : Option Task :=
  let after := [(.waitingForRoute, .planning), (.planning, .waitingForEngage)]
  match w.state 0 with
  | .initializing => request w [(.initializing, .waitingForRoute)] after
  | .arrivedGoal => request w [(.arrivedGoal, .waitingForRoute)] after
  | .waitingForRoute => request w [] after
  | _ => some ⟨false, 0, none⟩

/-- field_operator_application.cpp 337-372, the task of `initialize`. -/
def initializeTask (w : World) : Option Task :=
  let after := [(.initializing, .waitingForRoute)]
  match w.state 0 with
  | .undefined => request w [(.undefined, .initializing)] after
  | .initializing => request w [] after
  | .waitingForRoute => request w [] after
  | _ => some ⟨false, 0, none⟩

end Verif.Autoware
