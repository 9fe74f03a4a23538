/-
Model of openscenario/openscenario_preprocessor.

PC = openscenario/openscenario_preprocessor/src/openscenario_preprocessor.cpp, PH = the header
include/openscenario_preprocessor/openscenario_preprocessor.hpp. The four services run under one mutex or in the
single threaded executor of the node, so a history is a sequence of requests. The file system and the XML
parser are not modelled: a request comes with what they answer.
-/
namespace Verif.Preprocessor

/-- A parameter declaration: name and value. -/
abbrev Declaration := String × String

/-- PC 110-113: `find_child_by_attribute` and `set_value`: the first declaration with the name is changed. -/
def setFirst (name value : String) : List Declaration → List Declaration
  | [] => []
  | d :: l => if d.1 = name then (d.1, value) :: l else d :: setFirst name value l

/-- PC 109-120: the loop over the table of overrides, in its (arbitrary) order. -/
def override (overrides : List (String × String)) (ds : List Declaration) : List Declaration :=
  overrides.foldl (fun ds o => setFirst o.1 o.2 ds) ds

/-- What the file system, the validator and the parser answer for the file of a load request:
PC 86 the file is valid, 87 it can be parsed, 88 it is a parameter value distribution whose base file, 91-92,
exists and is valid, 124-125 the file can be moved, 129 it can be written. -/
structure File where
  valid : Bool
  parses : Bool
  distribution : Bool
  baseOk : Bool
  movable : Bool
  writable : Bool
  declarations : List Declaration

/-- PH 31-52 `ScenarioSet`, and the declarations of the file written. -/
structure Scenario where
  path : String
  rate : Nat
  declarations : List Declaration
  deriving DecidableEq

/-- PH 74-78. -/
structure State where
  queue : List Scenario
  overrides : List (String × String)

def State.new : State := { queue := [], overrides := [] }

/-- PC 81-141 `preprocessScenario`: `none` is an exception. -/
def preprocess (s : State) (path : String) (rate : Nat) (f : File) : Option State :=
  if f.valid then
    if f.parses then
      if f.distribution then
        if f.baseOk then some s else none
      else if f.movable then
        if f.writable then
          some { s with queue := s.queue ++ [⟨path, rate, override s.overrides f.declarations⟩] }
        else none
      else none
    else none
  else none

inductive Request
  | load (path : String) (rate : Nat) (file : File)
  | derive
  | check
  | setParameter (name value : String)

inductive Response
  | loaded (succeeded : Bool)
  | derived (s : Option Scenario)
  | remained (b : Bool)
  | set
  deriving DecidableEq

/-- PC 23-72: the four services. `derived none` is the answer "no output". -/
def step (s : State) : Request → State × Response
  | .load p r f => match preprocess s p r f with
    | some s' => (s', .loaded true)
    | none => ({ s with queue := [] }, .loaded false)
  | .derive => match s.queue with
    | [] => (s, .derived none)
    | d :: q => ({ s with queue := q }, .derived (some d))
  | .check => (s, .remained (!s.queue.isEmpty))
  | .setParameter n v => ({ s with overrides := (n, v) :: s.overrides.filter (fun o => o.1 ≠ n) }, .set)

def run : State → List Request → State × List Response
  | s, [] => (s, [])
  | s, r :: l =>
    let a := step s r
    let b := run a.1 l
    (b.1, a.2 :: b.2)

end Verif.Preprocessor
