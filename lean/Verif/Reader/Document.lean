/-
Reading of elements: /repo/openscenario/openscenario_interpreter/include/openscenario_interpreter/reader/element.hpp, called EH below, and
/repo/openscenario/openscenario_interpreter/src/reader/element.cpp, called EC below.

What is made of an element is given by a function that may fail; an exception is `none`. Its effects on the scope are left out.
-/
namespace Verif.Reader

/-- `pugi::xml_node`: an element with its children. Text and comments are children with an empty name. -/
inductive Node where
  | mk (name : String) (children : List Node)

def Node.name : Node → String
  | .mk n _ => n

def Node.children : Node → List Node
  | .mk _ c => c

/-- `xml_node::children(name)`: all children of that name, in the order of the document. -/
def Node.named (n : Node) (name : String) : List Node := n.children.filter (·.name == name)

/-- `xml_node::child(name)`: the first child of that name. -/
def Node.child (n : Node) (name : String) : Option Node := n.children.find? (·.name == name)

/-- `readElements`, EH:133-143, with `traverse`, EH:56-83; `most = none` is `unbounded`. -/
def readElements {α : Type} (least : Nat) (most : Option Nat) (name : String) (parent : Node) (make : Node → Option α) : Option (List α) :=
  let children := parent.named name
  if children.length ≠ 0 then
    if least ≠ 0 ∧ children.length < least then none
    else if most.any (· < children.length) then none
    else children.mapM make
  else if least ≠ 0 then none
  else some []

/-- `readElement`, EH:85-100; `absent` is the value if the type can be made by default. -/
def readElement {α : Type} (name : String) (parent : Node) (make : Node → Option α) (absent : Option α) : Option α :=
  match parent.child name with
  | some c => make c
  | none => absent

/-- `readGroups`, EH:145-175: exceptions are caught. -/
def readGroups {α : Type} (least : Nat) (most : Option Nat) (node : Node) (make : Node → Option α) : Option (List α) :=
  let groups := node.children.filterMap make
  if least ≠ 0 ∧ groups.length < least then none
  else if most.any (· < groups.length) then none
  else some groups

/-- `choice`, EC:32-85; the keys of the map are different. -/
def choice {α : Type} (node : Node) (callees : List (String × (Node → Option α))) : Option α :=
  match callees.filterMap fun c => (node.child c.1).map fun n => (c.2, n) with
  | [(make, n)] => make n
  | _ => none

/-- What is read from a `Deterministic` element, /repo/openscenario/openscenario_interpreter/src/syntax/deterministic.cpp, lines 22-26, and
deterministic_parameter_distribution.cpp, lines 22-33; `multi` and `single` read the two kinds of distributions. -/
def deterministic {α : Type} (multi single : Node → Option α) (node : Node) : Option (List α) :=
  readGroups 0 none node fun child =>
    choice child [("DeterministicMultiParameterDistribution", multi), ("DeterministicSingleParameterDistribution", single)]

end Verif.Reader
