import Verif.Modify.Model
/-
Model of catalogs and of references to them, in /repo/openscenario/openscenario_interpreter:
  CL = src/syntax/catalog_location.cpp
  CS = src/syntax/catalog_locations.cpp
  CR = src/syntax/catalog_reference.cpp

Not modelled: the parsing of XML (a function given), the content of an entry other than the declarations
of its parameters and the attributes read after them, the order in which attributes are read (an attribute
of a vehicle read before its declarations is resolved outside), the text of errors.
-/
namespace Verif.Catalog

/-- An attribute as it is written: a value, or `$name`. -/
inductive Attr where
  | lit (v : String)
  | ref (name : String)
deriving DecidableEq

/-- A child of a catalog: the name of the element, its attribute `name` (none if there is none), the
parameters it declares with their values, its other attributes. -/
structure Element where
  kind : String
  name : Option String
  declared : List (String × String)
  attrs : List (String × Attr)
deriving DecidableEq

/-- What is read of a file: the element Catalog within OpenSCENARIO, with its attribute `name` and its
children; none if there is no such element (CL 64-67). -/
structure Document where
  catalog : Option (Option String × List Element)
deriving DecidableEq

/-- A file of a directory: CL 51-57, by its extension. A YAML file is converted; `crashed` says that the
converter ended with a status other than zero. -/
inductive File where
  | xosc (text : Modify.Text)
  | yaml (crashed : Bool) (stem : Modify.Text) (rules : Option (List Modify.Modifier)) (text : Modify.Text)
  | other

/-- What the world does: Python's printing of numbers, the schema, the parsing of XML (none if the text is
not well formed; the result of `load_file` is ignored, CL 59). -/
structure World where
  print : ℚ → Modify.Text
  valid : Modify.Text → Bool
  parse : Modify.Text → Option Document

/-- Errors, all of them `SyntaxError`. -/
inductive Error where
  | noDirectory | conversion | noLocations | noCatalog | noEntry | manyEntries | unsupported | notCatalogued
  | noVariable | wrongKind
deriving DecidableEq

/-- CL 58-60: an empty document if the file does not exist or is not well formed. -/
def load (w : World) (text : Option Modify.Text) : Document := (text.bind w.parse).getD ⟨none⟩

/-- CL 25-39 and 51-61: the document of a file; none if the file is passed over. -/
def File.document (w : World) : File → Except Error (Option Document)
  | .xosc text => .ok (some (load w (some text)))
  | .yaml crashed stem rules text =>
    if crashed then .error .conversion
    else .ok (some (load w ((Modify.convert w.print w.valid rules stem text fun _ => none).1 ⟨stem, none⟩)))
  | .other => .ok none

/-- CL 51-61: the documents, in the order of the directory. -/
def documents (w : World) : List File → Except Error (List Document)
  | [] => .ok []
  | f :: fs =>
    match f.document w with
    | .error e => .error e
    | .ok d =>
      match documents w fs with
      | .error e => .error e
      | .ok ds => .ok (d.toList ++ ds)

/-- A location: catalogs by name. -/
abbrev Location := List (String × List Element)

/-- `emplace` of a map: a name that is there keeps its catalog (CL 70). -/
def emplace (l : Location) (name : String) (es : List Element) : Location :=
  if (l.lookup name).isSome then l else l ++ [(name, es)]

/-- CL 63-74, one document. -/
def addDocument (l : Location) (d : Document) : Location :=
  match d.catalog with
  | some (some name, es) => emplace l name es
  | _ => l

/-- CL 41-75. `files` is none if the directory does not exist or is none. -/
def location (w : World) (files : Option (List File)) : Except Error Location :=
  match files with
  | none => .error .noDirectory
  | some fs =>
    match documents w fs with
    | .error e => .error e
    | .ok ds => .ok (ds.foldl addDocument [])

/-- The locations, by the class of what they are for (CS 24-39), in the order of the hash table that holds
them. -/
abbrev Locations := List (String × Location)

/-- A reference: CR 75-79. -/
structure Reference where
  catalog : String
  entry : String
  assignments : List (String × String)

/-- CR 81-101: the catalog of the first location that has one so named. -/
def findCatalog (ls : Option Locations) (name : String) : Except Error (List Element) :=
  match ls with
  | none => .error .noLocations
  | some ls =>
    match ls.findSome? fun l => l.2.lookup name with
    | some es => .ok es
    | none => .error .noCatalog

/-- CR 36-73 (`choice_by_attribute`), with the one name: the child whose attribute `name` it is; a child
without the attribute has the empty name. -/
def choose (es : List Element) (name : String) : Except Error Element :=
  match es.filter fun e => e.name.getD "" = name with
  | [] => .error .noEntry
  | [e] => .ok e
  | _ => .error .manyEntries

/-- What is made of an entry. -/
structure Made where
  kind : String
  name : String
  values : List (String × String)
deriving DecidableEq

/-- An attribute read within an entry: a parameter it declares, else one of the scope of the reference. -/
def readAttr (declared : List (String × String)) (scope : String → Option String) : Attr → Except Error String
  | .lit v => .ok v
  | .ref n =>
    match declared.lookup n with
    | some v => .ok v
    | none =>
      match scope n with
      | some v => .ok v
      | none => .error .noVariable

/-- All attributes of an entry. -/
def readAttrs (declared : List (String × String)) (scope : String → Option String) :
    List (String × Attr) → Except Error (List (String × String))
  | [] => .ok []
  | (k, a) :: as =>
    match readAttr declared scope a with
    | .error e => .error e
    | .ok v =>
      match readAttrs declared scope as with
      | .error e => .error e
      | .ok vs => .ok ((k, v) :: vs)

/-- `make<Vehicle>(node, scope)` and so on (CR 110-115): vehicle.cpp 24-32, controller.cpp 25-31,
maneuver.cpp 24-31. -/
def construct (scope : String → Option String) (e : Element) : Except Error Made :=
  match readAttrs e.declared scope e.attrs with
  | .error x => .error x
  | .ok vs => .ok ⟨e.kind, e.name.getD "", vs⟩

/-- CR 108-119 and 122-135: by the name of the element. -/
def dispatch (scope : String → Option String) (e : Element) : Except Error Made :=
  if e.kind = "Vehicle" ∨ e.kind = "Controller" ∨ e.kind = "Pedestrian" ∨ e.kind = "MiscObject" ∨
      e.kind = "Maneuver" then construct scope e
  else if e.kind = "Environment" ∨ e.kind = "Trajectory" ∨ e.kind = "Route" then .error .unsupported
  else .error .notCatalogued

/-- CR 75-137: the reference is read, then `make` is called. -/
def make (ls : Option Locations) (scope : String → Option String) (r : Reference) : Except Error Made :=
  match findCatalog ls r.catalog with
  | .error e => .error e
  | .ok es =>
    match choose es r.entry with
    | .error e => .error e
    | .ok e => dispatch scope e

/-- What a place that takes a reference does with it. -/
inductive Used where
  | with (m : Made)
  | nothing
deriving DecidableEq

/-- entity_object.cpp 24-32, and the visitor of entity_object.hpp 46-60 and object.hpp 91-103 when the entity
is used: a vehicle, a pedestrian or an object. -/
def entityObject (ls : Option Locations) (scope : String → Option String) (r : Reference) : Except Error Used :=
  match make ls scope r with
  | .error e => .error e
  | .ok m =>
    if m.kind = "Vehicle" ∨ m.kind = "Pedestrian" ∨ m.kind = "MiscObject" then .ok (.with m)
    else .error .wrongKind

/-- object_controller.cpp 29-43, assign_controller_action.cpp 34-50: a controller is used if it is one. -/
def objectController (ls : Option Locations) (scope : String → Option String) (r : Reference) : Except Error Used :=
  match make ls scope r with
  | .error e => .error e
  | .ok m => if m.kind = "Controller" then .ok (.with m) else .ok .nothing

/-- storyboard_element.hpp 158-169, from maneuver_group.cpp 30-32. -/
def maneuver (ls : Option Locations) (scope : String → Option String) (r : Reference) : Except Error Used :=
  match make ls scope r with
  | .error e => .error e
  | .ok m => if m.kind = "Maneuver" then .ok (.with m) else .error .wrongKind

end Verif.Catalog
