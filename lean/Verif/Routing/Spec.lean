import Verif.Routing.Model

namespace Verif.Routing

/-- Autoware drives an object: the controller has its name, or says so. -/
def DrivenByAutoware (o : Object) : Prop :=
  ∃ c, o.controller = some c ∧
    (c.properties.lookup "isEgo" = some "true" ∨
      c.name = "Autoware" ∧
        (c.properties.lookup "isEgo" = none ∨ c.properties.lookup "isEgo" = some "" ∨
          c.properties.lookup "isEgo" = some "false"))

/-- The controller of an object has a property. -/
def HasProperty (o : Object) (name text : String) : Prop :=
  ∃ c, o.controller = some c ∧ c.properties.lookup name = some text

/-- The property `isEgo` of the controller, if there is one, can be read. -/
def Readable (o : Object) : Prop :=
  ∀ t, HasProperty o "isEgo" t → t = "" ∨ t = "true" ∨ t = "false"

/-- The truth value that is a text of a property. -/
inductive Meant : String → Bool → Prop where
  | true : Meant "true" true
  | false : Meant "false" false
  | empty : Meant "" false

/-- Whether a parameter is a truth value. -/
def truthValue {R : Type} : Literal.Value R → Bool
  | .boolean _ => true
  | .double _ | .integer _ | .string _ | .unsignedInteger _ | .unsignedShort _ => false

/-- The only parameter of that name, of those that are truth values, nearest to the action. -/
def Declared {R : Type} (s : Scope.Store (Literal.Value R)) (frame : Nat) (name : String) (b : Bool) : Prop :=
  Scope.find s truthValue name frame = .found (.boolean b)

/-- There is none, or more than one. -/
def Undeclared {R : Type} (s : Scope.Store (Literal.Value R)) (frame : Nat) (name : String) : Prop :=
  Scope.find s truthValue name frame = .missing

def Ambiguous {R : Type} (s : Scope.Store (Literal.Value R)) (frame : Nat) (name : String) : Prop :=
  Scope.find s truthValue name frame = .ambiguous

end Verif.Routing
