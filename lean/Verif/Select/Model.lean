/-
Model of the entities of a scenario, of selections of them and of the collision condition, in
/repo/openscenario/openscenario_interpreter:
  ES = src/syntax/entities.cpp
  EN = src/syntax/entity.cpp
  SE = src/syntax/entity_selection.cpp
  SM = src/syntax/selected_entities.cpp
  BO = src/syntax/by_object_type.cpp
  CC = src/syntax/collision_condition.cpp
  TR = include/openscenario_interpreter/syntax/triggering_entities_rule.hpp
and API::checkCollision, /repo/simulation/traffic_simulator/src/api/api.cpp 345-359.

Not modelled: an empty entityRef (a null pointer), what an object is beyond its name, its type and whether
it is added, whether two bodies overlap (a relation given). The objects of an entity are held in a set ordered
by address, each a copy made anew: the model has them as a list, in the order of the document, with those named
twice twice.
-/
namespace Verif.Select

/-- `ObjectType`; `external` is refused where it can be asked for (BO 28-30). -/
inductive Kind where
  | misc | pedestrian | vehicle | external
deriving DecidableEq

/-- `Entity`: a ScenarioObject, or an EntitySelection of entities or of types. -/
inductive Entity where
  | object (name : String) (kind : Kind)
  | selection (name : String) (members : List Entity) (types : List Kind)

/-- A ScenarioObject that is declared: its name, its type. -/
structure Obj where
  name : String
  kind : Kind
deriving DecidableEq

/-- The members of a selection as written: names, or types (SM 31-43: one of the two). -/
inductive Members where
  | refs (names : List String)
  | types (kinds : List Kind)
  | neither
  | both

/-- Errors of the reading. -/
inductive Error where
  | undeclared | members | external
deriving DecidableEq

/-- The entities by name. -/
abbrev Table := List (String × Entity)

/-- `emplace` of a map: a name that is there keeps its entity (ES 28, 34). -/
def put (t : Table) (name : String) (e : Entity) : Table :=
  if (t.lookup name).isSome then t else t ++ [(name, e)]

/-- ES 27-29: the objects. -/
def readObjects (t : Table) (os : List Obj) : Table := os.foldl (fun t o => put t o.name (.object o.name o.kind)) t

/-- EN 39-42, ES 45-52. -/
def ref (t : Table) (name : String) : Except Error Entity :=
  match t.lookup name with
  | some e => .ok e
  | none => .error .undeclared

/-- SM 32: the references, in turn. -/
def refs (t : Table) : List String → Except Error (List Entity)
  | [] => .ok []
  | n :: ns =>
    match ref t n with
    | .error e => .error e
    | .ok x =>
      match refs t ns with
      | .error e => .error e
      | .ok xs => .ok (x :: xs)

/-- SE 32-36, SM 31-43. -/
def readSelection (t : Table) (name : String) (ms : Members) : Except Error Entity :=
  match ms with
  | .refs names =>
    match refs t names with
    | .error e => .error e
    | .ok xs => if names.isEmpty then .error .members else .ok (.selection name xs [])
  | .types kinds => if kinds.isEmpty then .error .members else .ok (.selection name [] kinds)
  | .neither => .error .members
  | .both => .error .members

/-- ES 33-35: the selections, in the order of the document. -/
def readSelections (t : Table) : List (String × Members) → Except Error Table
  | [] => .ok t
  | (name, ms) :: rest =>
    match readSelection t name ms with
    | .error e => .error e
    | .ok s => readSelections (put t name s) rest

/-- ES 25-36 (`Entities`). -/
def readEntities (os : List Obj) (ss : List (String × Members)) : Except Error Table :=
  readSelections (readObjects [] os) ss

/-- The names of the ScenarioObjects of some types, of an entry of the table (SE 48-50, BO 37-39). -/
def nameIf (kinds : List Kind) (entry : String × Entity) : Option String :=
  match entry.2 with
  | .object _ k => if k ∈ kinds then some entry.1 else none
  | .selection .. => none

/-- All ScenarioObjects of some types (SE 46-51, BO 33-42). -/
def objectsOf (t : Table) (kinds : List Kind) : List String := t.filterMap (nameIf kinds)

mutual
/-- EN 61-70, SE 38-54 (`objects`); `t` are the entities of the scenario. -/
def Entity.objects (t : Table) : Entity → List String
  | .object n _ => [n]
  | .selection _ [] types => objectsOf t types
  | .selection _ (m :: ms) _ => Entity.objects t m ++ memberObjects t ms

/-- SE 42-44. -/
def memberObjects (t : Table) : List Entity → List String
  | [] => []
  | m :: ms => Entity.objects t m ++ memberObjects t ms
end

/-- The simulation: which objects have been added (`is_added`), which entities exist, which bodies overlap. -/
structure Sim where
  added : String → Bool
  alive : String → Bool
  touch : String → String → Bool

/-- ES 38-43 (`isAdded`). -/
def isAdded (t : Table) (s : Sim) (e : Entity) : Bool := (e.objects t).all s.added

/-- api.cpp 345-359 (`checkCollision`). -/
def checkCollision (s : Sim) (a b : String) : Bool :=
  if a ≠ b ∧ s.alive a ∧ s.alive b then s.touch a b else false

/-- A value, or the exception of `Entity::operator EntityRef` for a selection (EN 83-92). -/
inductive Eval where
  | value (b : Bool)
  | thrown
deriving DecidableEq

/-- CC 64: a collision of an object with an entity, which must be an object. -/
def collides (s : Sim) (o : String) : Entity → Eval
  | .object n _ => .value (checkCollision s o n)
  | .selection .. => .thrown

/-- CC 63-66: all objects are looked at, then `not size or min`. -/
def allOf (f : String → Eval) : List String → Eval
  | [] => .value true
  | o :: os =>
    match f o with
    | .thrown => .thrown
    | .value b =>
      match allOf f os with
      | .thrown => .thrown
      | .value c => .value (b && c)

/-- TR 45-49: `all` or `any` (`none` cannot be read). -/
inductive Rule where
  | all | any
deriving DecidableEq

/-- TR 55-71: `std::all_of` stops at the first that is false, `std::any_of` at the first that is true. -/
def Rule.apply (r : Rule) (f : Entity → Eval) : List Entity → Eval
  | [] => .value (decide (r = .all))
  | e :: es =>
    match f e with
    | .thrown => .thrown
    | .value b =>
      match r with
      | .all => if b then Rule.apply r f es else .value false
      | .any => if b then .value true else Rule.apply r f es

/-- What the condition asks for: CC 32-35. -/
inductive Another where
  | entity (e : Entity)
  | byType (k : Kind)

/-- CC 57-82 (`evaluate`). -/
def collision (t : Table) (s : Sim) (rule : Rule) (triggering : List Entity) (another : Another) : Eval :=
  match another with
  | .entity e =>
    if isAdded t s e then
      rule.apply (fun x => allOf (fun o => collides s o e) (x.objects t)) triggering
    else .value false
  | .byType k =>
    rule.apply (fun x => allOf (fun o => .value ((objectsOf t [k]).any fun y => checkCollision s o y)) (x.objects t))
      triggering

/-- BO 25-31, CC 32-35: the reading of what the condition asks for. -/
def readAnother (t : Table) (a : String ⊕ Kind) : Except Error Another :=
  match a with
  | .inl name =>
    match ref t name with
    | .error e => .error e
    | .ok e => .ok (.entity e)
  | .inr k => if k = .external then .error .external else .ok (.byType k)

end Verif.Select
