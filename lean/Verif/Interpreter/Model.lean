import Verif.Preprocessor.Model
/-
Model of the lifecycle node of the interpreter, of the test runner driving it and of the result checker.

IC = openscenario/openscenario_interpreter/src/openscenario_interpreter.cpp,
IH = openscenario/openscenario_interpreter/include/openscenario_interpreter/openscenario_interpreter.hpp,
TR = test_runner/scenario_test_runner/scenario_test_runner/scenario_test_runner.py,
RC = test_runner/scenario_test_runner/scenario_test_runner/result_checker.py,
JU = common/simple_junit/include/simple_junit/junit5.hpp.

The node runs in a single threaded executor: a history is a sequence of lifecycle requests and timer callbacks.
What a scenario does in a callback is given: it ends normally or with an exception. Not modelled: failures of
the handlers themselves (publishing, despawning, writing files), messages, recording, publishers.
-/
namespace Verif.Interpreter

/-- The exceptions that can leave the interpreter: IH 161-203 with
common/scenario_simulator_exception/include/scenario_simulator_exception/exception.hpp 27-58 and
openscenario/openscenario_interpreter/include/openscenario_interpreter/syntax/custom_command_action.hpp 29-37.
`standard` is any other class derived from `std::exception`, `foreign` anything else. -/
inductive Exc
  | exitSuccess | exitFailure | autoware | semantic | simulation | syntax | specification | standard | foreign
  deriving DecidableEq

/-- The classes named in the handlers. -/
inductive Class
  | exitSuccess | exitFailure | autoware | semantic | simulation | syntax | exception | any
  deriving DecidableEq

/-- Which exceptions a handler for a class catches: the class relation of the headers cited at `Exc`. -/
def Class.catches : Class → Exc → Bool
  | .exitSuccess, e => e = .exitSuccess
  | .exitFailure, e => e = .exitFailure
  | .autoware, e => e = .autoware
  | .semantic, e => e = .semantic
  | .simulation, e => e = .simulation
  | .syntax, e => e = .syntax
  | .exception, e => e ≠ .exitSuccess ∧ e ≠ .foreign
  | .any, _ => true

/-- JU 33-112: the verdicts, with their types. -/
inductive Verdict
  | pass
  | failure (type : String)
  | error (type : String)
  deriving DecidableEq

/-- IH 157-204: the handlers in their order. -/
def handlers : List (Class × Verdict) :=
  [(.exitSuccess, .pass), (.exitFailure, .failure "SimulationFailure"), (.autoware, .error "AutowareError"),
   (.semantic, .error "SemanticError"), (.simulation, .error "SimulationError"), (.syntax, .error "SyntaxError"),
   (.exception, .error "InternalError"), (.any, .error "UnknownError")]

/-- IH 157-204: the first handler that catches; `none` would be an exception that escapes. -/
def caught (e : Exc) : Option Verdict := (handlers.find? (fun h => h.1.catches e)).map (·.2)

inductive Life | unconfigured | inactive | active | finalized
  deriving DecidableEq

/-- A test case of the result file: the path of the scenario (suite and case name), and a verdict. -/
abbrev Record := String × Verdict

/-- IH 67-93 and `SimulatorCore::core`; `file` is the result file on disk. -/
structure Node where
  life : Life
  scenarios : Nat
  core : Bool
  timer : Bool
  path : String
  result : Verdict
  records : List Record
  file : Option (List Record)
  deriving DecidableEq

/-- IC 38-68: a new node, with whatever file an earlier run has left. -/
def Node.new (file : Option (List Record)) : Node :=
  { life := .unconfigured, scenarios := 0, core := false, timer := false, path := "", result := .pass,
    records := [], file := file }

/-- IH 125-152 `set`. -/
def Node.set (n : Node) (v : Verdict) : Node :=
  { n with result := v, records := n.records ++ [(n.path, v)], file := some (n.records ++ [(n.path, v)]) }

/-- IC 348-396 `reset`; `none`: `pop_front` of an empty list. -/
def Node.reset (n : Node) : Option Node :=
  match n.scenarios with
  | 0 => none
  | k + 1 => some { n with timer := false, core := false, scenarios := k }

/-- Requests and callbacks. `none` as an outcome is a normal end. -/
inductive Op
  | configure (path : String) (outcome : Option Exc)
  | activate (outcome : Option Exc)
  | frame (outcome : Option Exc)
  | deactivate
  | cleanup
  | shutdown

/-- `withExceptionHandler`, IH 154-204: record the verdict, then handle. An exception that no handler catches would
leave the callback: `none`. -/
def Node.handle (n : Node) (e : Exc) (k : Node → Option Node) : Option Node :=
  match caught e with
  | some v => k (n.set v)
  | none => none

/-- IC 99-328: the callbacks. A request that is not allowed in the current state is rejected by the lifecycle
and changes nothing. -/
def step (n : Node) : Op → Option Node
  | .configure p o =>
    if n.life = .unconfigured then
      let n := { n with result := .failure "Timeout", path := p }
      match o with
      | none => some { n with scenarios := 1, life := .inactive }
      | some e => n.handle e some
    else some n
  | .activate o =>
    if n.life = .inactive then
      if n.scenarios = 0 then some n
      else
        -- `SimulatorCore::activate` throws if there is a core already
        match (if n.core then some .standard else o) with
        | none => some { n with core := true, timer := true, life := .active }
        | some e => n.handle e Node.reset
    else some n
  | .frame o =>
    if n.timer then
      match o with
      | none => some n
      | some e => n.handle e (fun n => (Node.reset n).map ({ · with life := .inactive }))
    else some n
  | .deactivate =>
    if n.life = .active then (Node.reset n).map ({ · with life := .inactive }) else some n
  | .cleanup =>
    if n.life = .inactive then some { n with scenarios := 0, life := .unconfigured } else some n
  | .shutdown => some { n with timer := false, scenarios := 0, core := false, life := .finalized }

def run : Node → List Op → Option Node
  | n, [] => some n
  | n, o :: l => (step n o).bind (run · l)

/-! ### The runner -/

/-- How a scenario behaves: the outcomes of configuring, of activating and of the frames up to the time limit. -/
structure Behaviour where
  configure : Option Exc
  activate : Option Exc
  frames : List (Option Exc)

/-- TR 150-160: frames go by until the node is inactive or the time is over, then it is deactivated. -/
def wait (n : Node) : List (Option Exc) → Option Node
  | [] => step n .deactivate
  | o :: l => if n.life = .inactive then some n else (step n (.frame o)).bind (wait · l)

/-- TR 146-160 `spin`: activate as long as that succeeds. The further behaviours are for further rounds; the list
ends when the runner is interrupted. -/
def spin (n : Node) : List Behaviour → Option Node
  | [] => some n
  | b :: bs => (step n (.activate b.activate)).bind fun n =>
    if n.life = .active then (wait n b.frames).bind (spin · bs) else some n

/-- TR 208-233: one turn of the loop of `run_preprocessed_scenarios`. -/
def runOne (n : Node) (path : String) (b : Behaviour) (more : List Behaviour) : Option Node :=
  (step n (.configure path b.configure)).bind fun n =>
    (if n.life = .unconfigured then some n else spin n (b :: more)).bind (step · .cleanup)

/-- A scenario given to the runner: its path, what the preprocessor meets (see Verif.Preprocessor), and how it behaves. -/
structure Given where
  path : String
  file : Preprocessor.File
  behaviour : Behaviour

/-- TR 171-183: everything that can be derived. -/
def deriveAll (s : Preprocessor.State) : Nat → Preprocessor.State × List Preprocessor.Scenario
  | 0 => (s, [])
  | k + 1 => match (Preprocessor.step s .derive) with
    | (s', .derived (some d)) => let r := deriveAll s' k; (r.1, d :: r.2)
    | (s', _) => (s', [])

/-- TR 162-187: for each scenario load it, whatever the answer (TR 256-257 does not look at `has_succeeded`), derive
all and run them. -/
def runAll : Preprocessor.State → Node → List Given → Option Node
  | _, n, [] => some n
  | s, n, g :: gs =>
    let s := (Preprocessor.step s (.load g.path 30 g.file)).1
    let d := deriveAll s s.queue.length
    (d.2.foldlM (fun n d => runOne n d.path g.behaviour []) n).bind (runAll d.1 · gs)

/-- RC 47-75 `check`: `none` if there is no file to parse. `bag` tells whether there is a recording of the scenario. -/
def check (bag : String → Bool) : Option (List Record) → Bool
  | none => false
  | some l => l.all (fun r => decide (r.2 = .pass) && bag r.1)

end Verif.Interpreter
