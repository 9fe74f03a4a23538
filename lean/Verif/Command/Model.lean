import Verif.Parameter.Model
/-
Custom commands and user defined values: CC = /repo/openscenario/openscenario_interpreter/src/syntax/custom_command_action.cpp,
UV = /repo/openscenario/openscenario_interpreter/src/syntax/user_defined_value_condition.cpp,
FE = /repo/openscenario/openscenario_interpreter/include/openscenario_interpreter/regex/function_call_expression.hpp,
FX = /repo/openscenario/openscenario_interpreter/src/posix/fork_exec.cpp.

Texts are lists of characters; the program works on bytes, and its regular expressions know the letters and spaces of ASCII only.
-/
namespace Verif.Command

abbrev Text := List Char

/-- `\s` -/
def isSpace (c : Char) : Bool := c = ' ' || c = '\t' || c = '\n' || c = '\r' || c = '\x0b' || c = '\x0c'
/-- `[\w@]`, FE 39 -/
def isName (c : Char) : Bool := c.isAlphanum || c = '_' || c = '@'
/-- `[^\("\s,\)]`, FE 39 and 45 -/
def isAtom (c : Char) : Bool := !(c = '(' || c = '"' || isSpace c || c = ',' || c = ')')

/-- `,?\s*` -/
def skip : Text → Text
  | ',' :: s => s.dropWhile isSpace
  | s => s.dropWhile isSpace

/-- What comes before the next quotation mark and what comes after it. -/
def quoted : Text → Option (Text × Text)
  | [] => none
  | c :: s => if c = '"' then some ([], s) else (quoted s).map fun p => (c :: p.1, p.2)

theorem dropWhile_length (f : Char → Bool) (s : Text) : (s.dropWhile f).length ≤ s.length := by
  induction s with
  | nil => simp
  | cons c s ih => simp only [List.dropWhile_cons]; split <;> simp <;> omega

theorem skip_length (s : Text) : (skip s).length ≤ s.length := by
  unfold skip
  split
  · simp only [List.length_cons]; exact Nat.le_trans (dropWhile_length _ _) (Nat.le_succ _)
  · exact dropWhile_length _ _

theorem quoted_length {s : Text} : ∀ {p}, quoted s = some p → p.2.length < s.length := by
  induction s with
  | nil => intro p h; simp [quoted] at h
  | cons c s ih =>
    intro p h
    simp only [quoted] at h
    split at h
    · cases h; simp
    · cases hq : quoted s with
      | none => rw [hq] at h; simp at h
      | some q => rw [hq] at h; simp at h; subst h; have := ih hq; simp; omega

/-- One match of `([^\("\s,\)]+|\"[^"]*\"),?\s*` at the beginning of a text: the first group and the rest. The parts after the group may be empty, so the
greedy choice succeeds. -/
def piece (s : Text) : Option (Text × Text) := match s with
  | [] => none
  | c :: s' =>
    if isAtom c then some ((c :: s').takeWhile isAtom, skip ((c :: s').dropWhile isAtom))
    else if c = '"' then (quoted s').map fun p => ('"' :: p.1 ++ ['"'], skip p.2)
    else none

theorem piece_length {s : Text} {p} (h : piece s = some p) : p.2.length < s.length := by
  cases s with
  | nil => simp [piece] at h
  | cons c s =>
    simp only [piece] at h
    split at h
    · rename_i hc
      cases h
      simp only [List.dropWhile_cons, hc, if_true, List.length_cons]
      have h1 := skip_length (s.dropWhile isAtom)
      have h2 := dropWhile_length isAtom s
      omega
    · split at h
      · cases hq : quoted s with
        | none => rw [hq] at h; simp at h
        | some q =>
          rw [hq] at h; simp at h; subst h
          have h1 := quoted_length hq
          have h2 := skip_length q.2
          simp; omega
      · cases h

/-- `splitParameters`, FE 43-55: `std::sregex_iterator` looks for the next match and goes on behind it. -/
def split (s : Text) : List Text := match _h : piece s with
  | some p => p.1 :: split p.2
  | none => match s with
    | [] => []
    | _ :: s' => split s'
termination_by s.length
decreasing_by
  · exact piece_length _h
  · simp

/-- `(?:(?:[^\("\s,\)]+|\"[^"]*\"),?\s*)*`, FE 39, as a whole. -/
def body (s : Text) : Bool := match _h : piece s with
  | some p => body p.2
  | none => s.isEmpty
termination_by s.length
decreasing_by exact piece_length _h

/-- `std::regex_match` with `FunctionCallExpression::pattern()`, FE 36-41: `result[1]` and `result[3]`. -/
def call (s : Text) : Option (Text × Text) :=
  let name := s.takeWhile isName
  if name.isEmpty then none
  else match s.dropWhile isName with
    | [] => some (name, [])
    | '(' :: r => match r.getLast? with
      | some ')' => if body r.dropLast then some (name, r.dropLast) else none
      | _ => none
    | _ => none

/-- What a command does to the simulation. -/
inductive Effect
  /-- CC 102, level and name of each event -/
  | publish (events : List (Text × Text))
  /-- CC 117 -/
  | confidence (id : Int) (value : Parameter.Dbl)
  /-- CC 139 -/
  | cooperate (module' command : Text)
  /-- CC 163 -/
  | rate (value : Parameter.Dbl)
  /-- CC 167 -/
  | state (id : Int) (value : Text)
  /-- CC 193 and 211 -/
  | feature (id : Int) (on : Bool)
  /-- CC 223 and 227 -/
  | walk (entity : Text)
  /-- FX 49-74: a process with these arguments was run, and has ended -/
  | ran (arguments : List Text)
  deriving DecidableEq

/-- How `start` ends. -/
inductive Outcome
  | done
  | error
  /-- an index out of range, or a null pointer -/
  | undefined
  | exitSuccess
  | exitFailure
  deriving DecidableEq

/-- How texts are read. -/
structure Readers where
  /-- `boost::lexical_cast<std::int64_t>` -/
  int : Text → Option Int
  /-- `boost::lexical_cast<double>` -/
  double : Text → Option Parameter.Dbl
  /-- `std::stoi`, `std::stod` -/
  stoi : Text → Option Int
  stod : Text → Option Parameter.Dbl
  /-- `std::stringstream(s) >> std::quoted(s)` -/
  unquote : Text → Text

/-- The commands, CC 349-370. -/
inductive Command
  | nothing | disableV2I | enableV2I | fault1 | fault2 | confidence | cooperate | v2iState | walkStraight
  | debugError | debugSegmentationFault | dummyLongRunning | exitFailure | exitSuccess | printParameter | test
  deriving DecidableEq

def Command.names : List (String × Command) :=
  [("DisableTrafficSignalV2IFeatureAction@v1", .disableV2I), ("EnableTrafficSignalV2IFeatureAction@v1", .enableV2I), ("FaultInjectionAction", .fault1),
    ("FaultInjectionAction@v1", .fault1), ("FaultInjectionAction@v2", .fault2), ("PseudoTrafficSignalDetectorConfidenceSetAction@v1", .confidence),
    ("RequestToCooperateCommandAction@v1", .cooperate), ("V2ITrafficSignalStateAction", .v2iState), ("WalkStraightAction", .walkStraight), ("debugError", .debugError),
    ("debugSegmentationFault", .debugSegmentationFault), ("dummyLongRunningAction", .dummyLongRunning), ("exitFailure", .exitFailure), ("exitSuccess", .exitSuccess),
    ("printParameter", .printParameter), ("test", .test)]

/-- `makeCustomCommand`, CC 342-382: a command with its parameters, or a program, CC 328-340. -/
inductive Made
  | command (c : Command) (parameters : List Text)
  | program (type content : Text)
  deriving DecidableEq

def make (type content : Text) : Made :=
  if type = ":".toList then .command .nothing []
  else match call type with
    | some (name, arguments) => match Command.names.lookup (String.ofList name) with
      | some c => .command c (split arguments)
      | none => .program type content
    | none => .program type content

/-- CC 80-96. -/
def level (l : Text) : Option Text :=
  if l = "OK".toList then some l
  else if l = "WARN".toList ∨ l = "WARNING".toList then some "WARN".toList
  else if l = "ERROR".toList then some l
  else if l = "STALE".toList then some l
  else none

/-- CC 192-194 and 210-212: the identifiers one after the other. -/
def features (r : Readers) (on : Bool) : List Text → List Effect × Outcome
  | [] => ([], .done)
  | p :: l => match r.int p with
    | some id => let rest := features r on l; (.feature id on :: rest.1, rest.2)
    | none => ([], .error)

/-- `boost::split` with `is_space` and without compression, /repo/openscenario/openscenario_interpreter/include/openscenario_interpreter/string/split.hpp 27-32. -/
def words : Text → List Text
  | [] => [[]]
  | c :: s => if isSpace c then [] :: words s else match words s with
    | w :: l => (c :: w) :: l
    | [] => [[c]]

/-- `start`: the effects and the end. `actors` are the objects the action belongs to, and `known` says which parameters `Scope::ref` finds. -/
def start (r : Readers) (actors : List Text) (known : Text → Bool) : Made → List Effect × Outcome
  /- CC 339, FX 27-81: what becomes of the process is not looked at -/
  | .program type content => ([.ran (words (if content.isEmpty then type else type ++ ' ' :: content))], .done)
  | .command c ps => match c with
    /- the base class -/
    | .nothing => ([], .done)
    /- CC 59-103 -/
    | .fault1 => ([.publish (ps.map fun p => ("ERROR".toList, p))], .done)
    | .fault2 => match ps with
      | [] => ([], .undefined)
      | [l] => match level l with
        | some _ => ([], .undefined)
        | none => ([], .error)
      | l :: n :: _ => match level l with
        | some l => ([.publish [(l, n)]], .done)
        | none => ([], .error)
    /- CC 113-126; which of the arguments is read first does not matter -/
    | .confidence => match ps with
      | [a, b] => match r.stoi a, r.stod b with
        | some id, some v => ([.confidence id v], .done)
        | _, _ => ([], .error)
      | _ => ([], .error)
    /- CC 135-146 -/
    | .cooperate => match ps with
      | [a, b] => ([.cooperate a b], .done)
      | _ => ([], .error)
    /- CC 154-177 -/
    | .v2iState => match ps with
      | [a, b] => match r.int a with
        | some id => ([.state id (r.unquote b)], .done)
        | none => ([], .error)
      | [a, b, c] => match r.double c with
        | some v => match r.int a with
          | some id => ([.rate v, .state id (r.unquote b)], .done)
          | none => ([.rate v], .error)
        | none => ([], .error)
      | _ => ([], .error)
    /- CC 185-195 and 203-213 -/
    | .enableV2I => if ps.isEmpty then ([], .error) else features r true ps
    | .disableV2I => if ps.isEmpty then ([], .error) else features r false ps
    /- CC 220-229 -/
    | .walkStraight => ((ps ++ actors).map .walk, .done)
    /- CC 232-248 -/
    | .debugError => ([], .error)
    | .debugSegmentationFault => ([], .undefined)
    /- CC 260-282, without the callbacks, which print messages; the time at which it ends is in `Long` -/
    | .dummyLongRunning => match ps with
      | [] => ([], .error)
      | p :: _ => match r.double p with
        | some _ => ([], .done)
        | none => ([], .error)
    /- CC 285-297 -/
    | .exitSuccess => ([], .exitSuccess)
    | .exitFailure => ([], .exitFailure)
    /- CC 299-326: only messages -/
    | .printParameter => if ps.all known then ([], .done) else ([], .error)
    | .test => ([], .done)

/-- `DummyLongRunningAction`, CC 250-262: `end_time`, initially the greatest number, as a state machine over starts and times; rounding is not modelled. -/
structure Long where
  end' : Option Rat

def Long.start (_ : Long) (now duration : Rat) : Long := ⟨some (now + duration)⟩
def Long.accomplished (l : Long) (now : Rat) : Bool := match l.end' with
  | some e => decide (e < now)
  | none => false

/-! ### User defined values -/

/-- `([^.]+)\.(.+)`, UV 123: what is before the first dot and what is behind it; `.` is no line break. -/
def dotted (s : Text) : Option (Text × Text) :=
  let a := s.takeWhile (· ≠ '.')
  match s.dropWhile (· ≠ '.') with
  | '.' :: b => if a.isEmpty || b.isEmpty || b.any (fun c => c = '\n' || c = '\r') then none else some (a, b)
  | _ => none

/-- `\w` and `[\w-]` -/
def isWord (c : Char) : Bool := c.isAlphanum || c = '_'

/-- The segments of a text between slashes. -/
def segments : Text → List Text
  | [] => [[]]
  | c :: s => if c = '/' then [] :: segments s else match segments s with
    | w :: l => (c :: w) :: l
    | [] => [[c]]

/-- `^(?:\/[\w-]+)*\/([\w]+)$`, UV 173 -/
def topic (s : Text) : Bool := match segments s with
  | [] :: x :: l => (x :: l).dropLast.all (fun w => !w.isEmpty && w.all fun c => isWord c || c = '-') &&
      match (x :: l).getLast? with
      | some w => !w.isEmpty && w.all isWord
      | none => false
  | _ => false

/-- What the name of a user defined value stands for, UV 118-211. -/
inductive Source
  /-- UV 124-153 -/
  | entity (name key : Text)
  /-- UV 154-172 -/
  | heading (arguments : List Text)
  /-- UV 173-202 -/
  | topic (name : Text)
  deriving DecidableEq

def keys : List String := ["currentState", "currentMinimumRiskManeuverState.behavior", "currentMinimumRiskManeuverState.state", "currentEmergencyState", "currentTurnIndicatorsState"]

/-- The constructor, UV 123-210; `none` is an exception. -/
def source (name : Text) : Option Source := match dotted name with
  | some (e, k) => if keys.contains (String.ofList k) then some (.entity e k) else none
  | none => match call name with
    | some (f, a) => if String.ofList f = "RelativeHeadingCondition" then some (.heading (split a)) else none
    | none => if topic name then some (.topic name) else none

/-- `UserDefinedValueType` -/
inductive Kind | boolean | dateTime | double | integer | string | unsignedInt | unsignedShort | other
  deriving DecidableEq

/-- `UserDefinedValue` -/
structure Message where
  kind : Kind
  value : String

/-- `MagicSubscription`, UV 34-116: the last message that arrived. Initially the message of the default constructor. -/
def received (l : List Message) : Message := l.getLast?.getD ⟨.other, ""⟩

/-- What is compared: `unspecified`, a value, or an exception. -/
inductive Seen
  | unspecified
  | value (v : Parameter.Value)
  | error

/-- UV 179-202; `cast` are the constructors of the types from texts. -/
def seenTopic (cast : Kind → String → Option Parameter.Value) (m : Message) : Seen :=
  if m.value = "" then .unspecified
  else if m.kind = .other then .unspecified
  else match cast m.kind m.value with
    | some v => .value v
    | none => .error

/-- UV 124-152; `state` is what the entity answers. -/
def seenEntity (key : Text) (value state : String) : Seen :=
  if String.ofList key = "currentState" ∧ value = "EMERGENCY" then .error else .value (.string state)

/-- UV 159-169; `own` is the angle to the lane of the entity, `other` that to a given position, each not a number if there is none. -/
def seenHeading (r : Readers) (own : Text → Parameter.Dbl) (other : Text → Text → Parameter.Dbl → Parameter.Dbl) : List Text → Seen
  | [e] => .value (.double (own e))
  | [e, lane, s] => match r.double s with
    | some s => .value (.double (other e lane s))
    | none => .error
  | _ => .value (.double .nan)

/-- `UserDefinedValueCondition::evaluate`, UV 222-229; `none` is an exception. -/
def evaluate (read : Parameter.Value → String → Option Parameter.Value) (s : Seen) (rule : Parameter.Rule) (value : String) : Option Bool := match s with
  | .unspecified => some false
  | .value v => Parameter.compare read v rule value
  | .error => none

end Verif.Command
