/-
Scopes of the interpreter: declaration and lookup of names.

Abbreviations of cited files (under /repo/openscenario/openscenario_interpreter):
  SH = include/openscenario_interpreter/scope.hpp
  SC = src/scope.cpp
  NH = include/openscenario_interpreter/name.hpp

`EnvironmentFrame`s live in a store and are addressed by their position in it; a frame is created
after its outer frame. Objects are values of an arbitrary type; the type `T` looked for is a
predicate on them (`is_also<T>`). Frames are never destroyed in the model (the code keeps raw
pointers to inner frames and never removes them).
-/
namespace Verif.Scope


/-- `EnvironmentFrame`, SH:34-45 -/
structure Frame (Obj : Type) where
  variables : List (String × Obj)
  outer : Option Nat
  inner : List (String × Nat)
  unnamed : List Nat

abbrev Store (Obj : Type) := List (Frame Obj)

variable {Obj : Type}

/-- `EnvironmentFrame()` of the outermost scope, SH:60, SC:82-87 -/
def Store.initial : Store Obj := [⟨[], none, [], []⟩]

/-- `EnvironmentFrame(outer_frame, name)`, SC:26-35, via `Scope(name, outer)`, SC:89-96. -/
def Store.newFrame (s : Store Obj) (outer : Nat) (name : String) : Store Obj :=
  (s.modify outer fun f =>
    if name = "" then { f with unnamed := f.unnamed ++ [s.length] }
    else { f with inner := f.inner ++ [(name, s.length)] }) ++ [⟨[], some outer, [], []⟩]

/-- `EnvironmentFrame::define`, SC:37-40 -/
def Store.define (s : Store Obj) (f : Nat) (name : String) (o : Obj) : Store Obj :=
  s.modify f fun fr => { fr with variables := fr.variables ++ [(name, o)] }

/-- How a lookup ends: with an object, `AmbiguousReferenceTo`, or `NoSuchVariableNamed`. -/
inductive Result (Obj : Type)
  | found (o : Obj)
  | ambiguous
  | missing
  deriving DecidableEq

/-- The objects of type `T` a list of frames declares under the name, SH:77-88. -/
def objects (s : Store Obj) (is : Obj → Bool) (name : String) (frames : List Nat) : List Obj :=
  (frames.flatMap fun f => match s[f]? with
    | some fr => (fr.variables.filter (·.1 = name)).map (·.2)
    | none => []).filter is

/-- The unnamed inner frames of a list of frames, SH:92-100. -/
def descend (s : Store Obj) (frames : List Nat) : List Nat :=
  frames.flatMap fun f => match s[f]? with
    | some fr => fr.unnamed
    | none => []

/-- The breadth first search of `find`, SH:75-107; `none` if no frame is left. `fuel` bounds the number
of levels; `bfs_fuel` shows that the number of frames is enough. -/
def bfs (s : Store Obj) (is : Obj → Bool) (name : String) : Nat → List Nat → Option (Result Obj)
  | 0, _ => none
  | _, [] => none
  | fuel + 1, frames =>
    match objects s is name frames with
    | [] => bfs s is name fuel (descend s frames)
    | [o] => some (.found o)
    | _ => some .ambiguous

/-- `EnvironmentFrame::find<T>(Name)`, SH:71-110. -/
def find (s : Store Obj) (is : Obj → Bool) (name : String) (f : Nat) : Result Obj :=
  match bfs s is name (s.length + 1) [f] with
  | some r => r
  | none =>
    match s[f]?.bind (·.outer) with
    | none => .missing
    | some o => if o < f then find s is name o else .missing
termination_by f

/-- `EnvironmentFrame::resolvePrefix`, SC:44-62: inner frames of that name, otherwise those found
through unnamed inner frames. -/
def resolvePrefix (s : Store Obj) (pre : String) : Nat → Nat → List Nat
  | 0, _ => []
  | fuel + 1, f =>
    match s[f]? with
    | none => []
    | some fr =>
      match (fr.inner.filter (·.1 = pre)).map (·.2) with
      | [] => fr.unnamed.flatMap fun c => resolvePrefix s pre fuel c
      | r => r

/-- `EnvironmentFrame::find<T>(Prefixed<Name>)`, SH:112-128. -/
def findPrefixed (s : Store Obj) (is : Obj → Bool) (name : String) : List String → Nat → Result Obj
  | [], f => find s is name f
  | p :: ps, f =>
    match resolvePrefix s p (s.length + 1) f with
    | [] => .missing
    | [g] => findPrefixed s is name ps g
    | _ => .ambiguous

/-- `EnvironmentFrame::lookupFrame`, SC:69-92; `none` if several frames match. -/
def lookupFrame (s : Store Obj) (pre : String) (f : Nat) : Option Nat :=
  match s[f]?.bind (·.outer) with
  | none => some f
  | some o =>
    match resolvePrefix s pre (s.length + 1) o with
    | [] => if o < f then lookupFrame s pre o else some f
    | [g] => some g
    | _ => none
termination_by f

/-- `EnvironmentFrame::outermostFrame`, SC:64-67 -/
def outermost (s : Store Obj) (f : Nat) : Nat :=
  match s[f]?.bind (·.outer) with
  | none => f
  | some o => if o < f then outermost s o else f
termination_by f

/-- `EnvironmentFrame::ref<T>`, SH:130-140, of a name split by `Prefixed::separate` (NH:74-92). -/
def ref (s : Store Obj) (is : Obj → Bool) (absolute : Bool) (prefixes : List String) (name : String)
    (f : Nat) : Result Obj :=
  if absolute then findPrefixed s is name prefixes (outermost s f)
  else match prefixes with
    | [] => find s is name f
    | p :: ps =>
      match lookupFrame s p f with
      | none => .ambiguous
      | some g => findPrefixed s is name ps g

/-- What the interpreter does with scopes while it reads a scenario. -/
inductive Op (Obj : Type)
  | newFrame (outer : Nat) (name : String)
  | define (f : Nat) (name : String) (o : Obj)

def Op.apply (s : Store Obj) : Op Obj → Store Obj
  | .newFrame o n => if o < s.length then s.newFrame o n else s
  | .define f n o => s.define f n o

def build (ops : List (Op Obj)) : Store Obj := ops.foldl Op.apply Store.initial

end Verif.Scope
