import Mathlib.Algebra.Order.Floor.Semiring
import Mathlib.Data.Rat.Floor
import Mathlib.Tactic.Linarith
import Mathlib.Tactic.Ring
import Mathlib.Tactic.FieldSimp
import Mathlib.Tactic.NormNum

/-!
# The result file, the statistics file and the start of a scenario

JU = `common/simple_junit/include/simple_junit/junit5.hpp`,
IH = `openscenario/openscenario_interpreter/include/openscenario_interpreter/openscenario_interpreter.hpp`,
IC = `openscenario/openscenario_interpreter/src/openscenario_interpreter.cpp`,
ET = `openscenario/openscenario_interpreter/include/openscenario_interpreter/utility/execution_timer.hpp`,
SC = `simulation/traffic_simulator/src/simulation_clock/simulation_clock.cpp`, all in `/repo`.
-/
namespace Verif.Report

/-! ## The result file -/

/-- JU 31-112: the verdicts. A failure and an error have a type and a message. -/
inductive Verdict
  | pass
  | failure (type message : String)
  | error (type message : String)
  deriving DecidableEq, Repr

/-- JU 170-196 `SimpleTestCase`, without what is never set. -/
structure Case where
  passes : Nat
  failures : List (String × String)
  errors : List (String × String)
  deriving DecidableEq, Repr

/-- JU 196: a new test case. -/
def Case.new : Case := ⟨0, [], []⟩

/-- IH 137-146: `push_back`. -/
def Case.add (c : Case) : Verdict → Case
  | .pass => { c with passes := c.passes + 1 }
  | .failure t m => { c with failures := c.failures ++ [(t, m)] }
  | .error t m => { c with errors := c.errors ++ [(t, m)] }

/-- JU 262 and 337: `unordered_map`, as a list of pairs whose names differ. The order of a list is not
meant: see `write`. -/
abbrev Map (α : Type) := List (String × α)

/-- JU 277-285 and 343-351, `testcase` and `testsuite`: what is there under the name, or else a new one,
and then (`f`) what the caller does to it. -/
def Map.at {α : Type} (new : α) (f : α → α) (n : String) : Map α → Map α
  | [] => [(n, f new)]
  | e :: m => if e.1 = n then (n, f e.2) :: m else e :: Map.at new f n m

/-- JU 337: the results. -/
structure Results where
  name : String
  suites : Map (Map Case)
  deriving DecidableEq, Repr

/-- JU 341: no results. -/
def Results.new : Results := ⟨"", []⟩

/-- The path of a scenario, taken apart: what its directory is in, the name of the directory, and the
name of the file without and with what follows the last point. -/
structure Path where
  above : String
  directory : String
  stem : String
  extension : String
  deriving DecidableEq, Repr

/-- IH 125-147, `set`: the results are called after what the directory is in, the suite after the
directory, the case after the file. -/
def Results.set (r : Results) (p : Path) (v : Verdict) : Results :=
  ⟨p.above, Map.at [] (Map.at Case.new (·.add v) p.stem) p.directory r.suites⟩

/-- Verdicts one after the other. -/
def record (vs : List (Path × Verdict)) : Results :=
  vs.foldl (fun r v => r.set v.1 v.2) Results.new

/-- An element `testcase` of the file. -/
structure XCase where
  name : String
  errors : List (String × String)
  failures : List (String × String)
  deriving DecidableEq, Repr

/-- An element `testsuite` of the file. -/
structure XSuite where
  name : String
  cases : List XCase
  failures : Nat
  errors : Nat
  tests : Nat
  deriving DecidableEq, Repr

/-- The element `testsuites`, which is the file. -/
structure XFile where
  name : String
  suites : List XSuite
  failures : Nat
  errors : Nat
  tests : Nat
  deriving DecidableEq, Repr

/-- JU 198-238. An empty type or message is left out; here it is empty. -/
def writeCase (c : String × Case) : XCase := ⟨c.1, c.2.errors, c.2.failures⟩

/-- JU 292-306: one turn of the loop over the cases: passes, failures and errors. -/
def tally (t : Nat × Nat × Nat) (c : String × Case) : Nat × Nat × Nat :=
  (t.1 + c.2.passes, t.2.1 + c.2.failures.length, t.2.2 + c.2.errors.length)

/-- JU 287-311. The order in which an `unordered_map` is gone through is `σ`. -/
def writeSuite (σ : ∀ α : Type, List α → List α) (s : String × Map Case) : XSuite :=
  let t := (σ _ s.2).foldl tally (0, 0, 0)
  ⟨s.1, (σ _ s.2).map writeCase, t.2.1, t.2.2, t.1 + t.2.1 + t.2.2⟩

/-- JU 364-374: one turn of the loop over the suites, with a copy of the suite that is gone through by
its names. -/
def tallySuite (σ : ∀ α : Type, List α → List α) (t : Nat × Nat × Nat) (s : String × Map Case) :
    Nat × Nat × Nat :=
  (σ _ s.2).foldl tally t

/-- JU 353-392. -/
def write (σ : ∀ α : Type, List α → List α) (r : Results) : XFile :=
  let t := (σ _ r.suites).foldl (tallySuite σ) (0, 0, 0)
  ⟨r.name, (σ _ r.suites).map (writeSuite σ), t.2.1, t.2.2, t.2.1 + t.2.2 + t.1⟩

/-! ## The statistics file -/

/-- ET 33-37: what an `accumulator_set` knows of what it was given, in nanoseconds. The mean and the
variance are functions of these sums. -/
structure Stat where
  count : Nat
  least : Int
  greatest : Int
  sum : Int
  squares : Int
  deriving DecidableEq, Repr

/-- ET 55: one more. -/
def Stat.add (s : Option Stat) (x : Int) : Stat :=
  match s with
  | none => ⟨1, x, x, x, x * x⟩
  | some s => ⟨s.count + 1, min s.least x, max s.greatest x, s.sum + x, s.squares + x * x⟩

/-- What happens to an `ExecutionTimer`: it is cleared (IC 268, in `on_activate`), it times something
under a tag (ET 45-58), which takes `x` nanoseconds or throws, or the file is written (IH 151, at every
verdict). -/
inductive Use
  | clear
  | invoke (tag : String) (x : Int) (throws : Bool)
  | save
  deriving DecidableEq, Repr

/-- The statistics under each tag, and the file. -/
structure Timer where
  stats : List (String × Stat)
  file : List (String × Stat)
  deriving DecidableEq, Repr

/-- ET 55, `(*this)[tag] (x)`. -/
def put (tag : String) (x : Int) : List (String × Stat) → List (String × Stat)
  | [] => [(tag, Stat.add none x)]
  | e :: m => if e.1 = tag then (tag, Stat.add (some e.2) x) :: m else e :: put tag x m

/-- ET 41-80. -/
def Timer.step (t : Timer) : Use → Timer
  | .clear => { t with stats := [] }
  | .invoke tag x throws => if throws then t else { t with stats := put tag x t.stats }
  | .save => { t with file := t.stats }

/-- A history of uses. -/
def Timer.run (t : Timer) (us : List Use) : Timer := us.foldl Timer.step t

/-- The mean, in seconds (ET 72-73). -/
def Stat.mean (s : Stat) : ℚ := (s.sum : ℚ) / s.count * (1 / 1000000000)

/-- The variance (boost: the mean of the squares less the square of the mean), in nanoseconds squared. -/
def Stat.variance (s : Stat) : ℚ := (s.squares : ℚ) / s.count - ((s.sum : ℚ) / s.count) ^ 2

/-! ## The start of a scenario -/

/-- What IC 164-175 looks at in an entity of the scenario. -/
structure Seen where
  scenarioObject : Bool
  added : Bool
  autoware : Bool
  engaged : Bool
  deriving DecidableEq, Repr

/-- IC 169-172. -/
def Seen.ready (s : Seen) : Bool := !s.scenarioObject || !s.added || !s.autoware || s.engaged

/-- The clock in steps: since the simulator started, and when the scenario did
(SC 33-36 and 55-63). -/
structure Clock where
  steps : Nat
  started : Option Nat
  deriving DecidableEq, Repr

/-- `getCurrentScenarioTime`, in steps: not a number (`none`) before the start. -/
def Clock.time (c : Clock) : Option Nat := c.started.map (c.steps - ·)

/-- IC 161-187: one frame, which gives the time at which the storyboard was evaluated, if it was. -/
def frame (c : Clock) (entities : List Seen) : Clock × Option Nat :=
  let r : Clock × Option Nat :=
    match c.time with
    | none => (if entities.all Seen.ready then { c with started := some c.steps } else c, none)
    | some t => (c, some t)
  ({ r.1 with steps := r.1.steps + 1 }, r.2)

/-- Frames one after the other: when the storyboard was evaluated in each. -/
def frames (c : Clock) : List (List Seen) → List (Option Nat)
  | [] => []
  | e :: es => (frame c e).2 :: frames (frame c e).1 es

/-- IC 253-266: what `on_activate` leaves, after one update of the simulator. -/
def activated : Clock := ⟨1, none⟩

/-! ## The frame rate -/

/-- IC 72-75, `currentLocalFrameRate`, in milliseconds. -/
def period (rate : ℚ) : ℕ := ⌊1 / rate * 1000⌋₊

/-- SC 33-36: how much simulated time a frame takes, in milliseconds. -/
def simulated (factor rate : ℚ) : ℚ := factor / rate * 1000

end Verif.Report
