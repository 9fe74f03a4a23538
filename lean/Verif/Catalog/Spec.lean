import Verif.Catalog.Model
/-
What the theorems about catalogs say, apart from the model's own functions.
-/
namespace Verif.Catalog

/-- The classes of which an entry can be made. -/
def Supported (kind : String) : Prop :=
  kind ∈ ["Vehicle", "Controller", "Pedestrian", "MiscObject", "Maneuver"]

/-- The entry has this name. -/
def Named (name : String) (e : Element) : Prop := e.name = some name ∨ (e.name = none ∧ name = "")

/-- The value an attribute has in the scope of an entry. -/
def Attr.Is (declared : List (String × String)) (scope : String → Option String) (a : Attr) (v : String) : Prop :=
  a = .lit v ∨ ∃ n, a = .ref n ∧
    (declared.lookup n = some v ∨ (declared.lookup n = none ∧ scope n = some v))

/-- What is made of an entry: of the same class, with the same name, every attribute with its value. -/
def Element.Makes (scope : String → Option String) (e : Element) (m : Made) : Prop :=
  m.kind = e.kind ∧ m.name = e.name.getD "" ∧
    List.Forall₂ (fun a v => v.1 = a.1 ∧ a.2.Is e.declared scope v.2) e.attrs m.values

/-- What OpenSCENARIO says the value is: an assignment of the reference goes before the declaration. -/
def Attr.Should (assigned declared : List (String × String)) (scope : String → Option String) (a : Attr)
    (v : String) : Prop :=
  a = .lit v ∨ ∃ n, a = .ref n ∧
    (assigned.lookup n = some v ∨ (assigned.lookup n = none ∧ (declared.lookup n = some v ∨
      (declared.lookup n = none ∧ scope n = some v))))

/-- The document has a catalog of this name, with these entries. -/
def Document.Has (d : Document) (name : String) (es : List Element) : Prop := d.catalog = some (some name, es)

end Verif.Catalog
