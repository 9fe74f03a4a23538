/-!
The actions of `Init`.

SY = openscenario/openscenario_interpreter/src/syntax, IA = SY/init_actions.cpp, PR = SY/private.cpp,
SE = openscenario/openscenario_interpreter/include/openscenario_interpreter/syntax/storyboard_element.hpp.
-/

namespace Verif.Init

/-- The kinds of actions: SY/global_action.cpp 24-31, user_defined_action.cpp 22-27, private_action.cpp 24-34. -/
inductive Kind where
  | environment | entity | parameterSet | parameterModify | signalState | signalController
  | custom (instant : Bool)
  | speed (step : Bool) | speedProfile | laneChange | controller | teleport | assignRoute | acquirePosition | followTrajectory
  deriving DecidableEq

/-- `endsImmediately` of each: SY/environment_action.cpp 37, entity_action.cpp 37, parameter_action.cpp 34, traffic_signal_state_action.cpp 30,
traffic_signal_controller_action.cpp 33, custom_command_action.hpp 189 and 221, speed_action.cpp 106-109, speed_profile_action.cpp 118, lane_change_action.cpp 58,
controller_action.cpp 47-50, teleport_action.cpp 42, assign_route_action.cpp 53, acquire_position_action.hpp 44, follow_trajectory_action.cpp 72. -/
def Kind.endsImmediately : Kind → Bool
  | .environment => false
  | .entity => true
  | .parameterSet => true
  | .parameterModify => true
  | .signalState => true
  | .signalController => true
  | .custom instant => instant
  | .speed step => step
  | .speedProfile => false
  | .laneChange => false
  | .controller => true
  | .teleport => true
  | .assignRoute => true
  | .acquirePosition => true
  | .followTrajectory => false

/-- `accomplished` of each; `reached` is whether the goal of an action that takes time is reached: SY/environment_action.cpp 35, entity_action.cpp 35,
parameter_set_action.cpp 30-33, parameter_modify_action.cpp 30, traffic_signal_state_action.cpp 28, traffic_signal_controller_action.cpp 31, custom_command_action.hpp 187 and 219,
speed_action.cpp 92-103, speed_profile_action.cpp 109-116, lane_change_action.cpp 46-56, controller_action.cpp 42-45, teleport_action.cpp 40, assign_route_action.cpp 51,
acquire_position_action.hpp 42, follow_trajectory_action.cpp 35-70. -/
def Kind.accomplished (reached : Bool) : Kind → Bool
  | .environment => false
  | .entity => true
  | .parameterSet => true
  | .parameterModify => true
  | .signalState => true
  | .signalController => true
  | .custom instant => instant || reached
  | .speed step => step || reached
  | .speedProfile => reached
  | .laneChange => reached
  | .controller => true
  | .teleport => true
  | .assignRoute => true
  | .acquirePosition => true
  | .followTrajectory => reached

/-- An action, with its place in the document. -/
structure Action where
  id : Nat
  kind : Kind
  deriving DecidableEq

/-- A child of `Actions` in the document. -/
inductive Node where
  | global (a : Action)
  | user (a : Action)
  | priv (l : List Action)
  /-- any other name -/
  | other (name : String)
  deriving DecidableEq

/-- `InitActions`. -/
structure Actions where
  globals : List Action
  users : List Action
  privates : List (List Action)
  deriving DecidableEq

/-- IA 29-42, for one child. -/
def Actions.put (s : Actions) : Node → Actions
  | .global a => { s with globals := s.globals ++ [a] }
  | .user a => { s with users := s.users ++ [a] }
  | .priv l => { s with privates := s.privates ++ [l] }
  | .other _ => s

/-- IA 27-43. -/
def read (l : List Node) : Actions := l.foldl Actions.put ⟨[], [], []⟩

/-- What is done. -/
inductive Op where
  | start (id : Nat)
  | run (id : Nat)
  deriving DecidableEq

/-- IA 87-109, PR 70-77. -/
def startInstantaneous (s : Actions) : List Op :=
  s.globals.map (.start ·.id) ++ (s.users.filter (·.kind.endsImmediately)).map (.start ·.id) ++
    s.privates.flatMap fun l => (l.filter (·.kind.endsImmediately)).map (.start ·.id)

/-- IA 111-124, PR 79-86. -/
def startLong (s : Actions) : List Op :=
  (s.users.filter (!·.kind.endsImmediately)).map (.start ·.id) ++ s.privates.flatMap fun l => (l.filter (!·.kind.endsImmediately)).map (.start ·.id)

/-- IA 126-140, PR 50-57. -/
def runInstantaneous (s : Actions) : List Op :=
  s.globals.map (.run ·.id) ++ (s.users.filter (·.kind.endsImmediately)).map (.run ·.id) ++
    s.privates.flatMap fun l => (l.filter (·.kind.endsImmediately)).map (.run ·.id)

/-- IA 142-155, PR 59-66. -/
def runLong (s : Actions) : List Op :=
  (s.users.filter (!·.kind.endsImmediately)).map (.run ·.id) ++ s.privates.flatMap fun l => (l.filter (!·.kind.endsImmediately)).map (.run ·.id)

/-- IA 47-62, PR 34-39. -/
def accomplished (s : Actions) (reached : Nat → Bool) : Bool :=
  let ok := fun a : Action => a.kind.accomplished (reached a.id)
  s.globals.all ok && s.users.all ok && s.privates.all fun l => l.all ok

/-- SY/init.cpp 30-39: before the first frame, openscenario_interpreter.cpp 270. -/
def before (s : Actions) : List Op := startInstantaneous s ++ runInstantaneous s

inductive State where
  | standby | running | complete
  deriving DecidableEq

/-- SE 188-310 of `InitActions`, which has no triggers, so that its start trigger always is and its stop trigger never is true, and is executed once: one frame. -/
def frame (s : Actions) (st : State) (reached : Nat → Bool) : List Op × State := match st with
  | .standby => (startLong s ++ runLong s, if accomplished s reached then .complete else .running)
  | .running => (runLong s, if accomplished s reached then .complete else .running)
  | .complete => ([], .complete)

/-- The frames of a scenario: what was done, and the state. -/
def frames (s : Actions) : List (Nat → Bool) → List Op × State
  | [] => ([], .standby)
  | r :: l =>
    let (ops, st) := frames s l
    let (more, st) := frame s st r
    (ops ++ more, st)

end Verif.Init
