/-
Texts of basic types in scenarios, and the declaration of parameters. All of
/repo/openscenario/openscenario_interpreter:
  BO = src/syntax/boolean.cpp, DO = src/syntax/double.cpp, IN = src/syntax/integer.cpp,
  UI = src/syntax/unsigned_integer.cpp, US = src/syntax/unsigned_short.cpp,
  PD = src/syntax/parameter_declaration.cpp, AH = include/openscenario_interpreter/reader/attribute.hpp,
  PR = include/openscenario_interpreter/syntax/properties.hpp.

A text is read in two ways. Attributes and properties: `boost::lexical_cast<T>`, which calls operator>> on a
stream that does not skip white space and then asks that nothing is left. Values of parameters: the
constructor of the type. Integers of the language are read by `boost::lexical_cast` and by streams alike:
digits after at most one sign, in the range of the type. How floating point numbers are read is a parameter.
References and expressions of attributes are left out (see `Reader` and `Expr`).
-/
namespace Verif.Literal

abbrev Text := List Char

/-- A floating point number: of any type of finite numbers, or one of the others. -/
inductive Float (R : Type) where
  | finite (r : R)
  | infinite (negative : Bool)
  | nan
deriving DecidableEq

/-- White space of the classic locale. -/
def space (c : Char) : Bool :=
  c == ' ' || c == '\t' || c == '\n' || c == '\r' || c == '\x0b' || c == '\x0c'

/-- IN 63-65, DO 81-83: `is >> token` on a stream that does not skip white space. -/
def token (s : Text) : Text := s.takeWhile fun c => !space c

/-- What is left in the stream. -/
def rest (s : Text) : Text := s.dropWhile fun c => !space c

/-- A figure, in `boost::lexical_cast` of a whole number. -/
def isDigit (c : Char) : Bool := decide (48 ≤ c.toNat ∧ c.toNat ≤ 57)

/-- Digits, at least one, as a number. -/
def digits (ds : Text) : Option Nat :=
  if ds ≠ [] ∧ ds.all isDigit then some (ds.foldl (fun n c => 10 * n + (c.toNat - 48)) 0) else none

/-- `boost::lexical_cast<std::int64_t>` (IN 28-35). -/
def castSigned : Text → Option Int
  | '-' :: ds => (digits ds).bind fun n => if n ≤ 2 ^ 63 then some (-(n : Int)) else none
  | '+' :: ds => (digits ds).bind fun n => if n < 2 ^ 63 then some (n : Int) else none
  | ds => (digits ds).bind fun n => if n < 2 ^ 63 then some (n : Int) else none

/-- `boost::lexical_cast` of an unsigned type (UI 27-34, US 29-36), and `is >> data` with nothing left
(UI 56-59, US 58-61): a minus sign is allowed and
the number is taken modulo the range. -/
def castUnsigned (bits : Nat) : Text → Option Nat
  | '-' :: ds => (digits ds).bind fun n => if n < 2 ^ bits then some ((2 ^ bits - n) % 2 ^ bits) else none
  | '+' :: ds => (digits ds).bind fun n => if n < 2 ^ bits then some n else none
  | ds => (digits ds).bind fun n => if n < 2 ^ bits then some n else none

/-- BO 35 and 55, `is >> std::boolalpha >> data`: one of the two words at the beginning; what is left in the stream. -/
def boolalpha : Text → Option (Bool × Text)
  | 't' :: 'r' :: 'u' :: 'e' :: s => some (true, s)
  | 'f' :: 'a' :: 'l' :: 's' :: 'e' :: s => some (false, s)
  | _ => none

/-- BO 52-56 under `boost::lexical_cast<Boolean>`. -/
def attributeBoolean (s : Text) : Option Bool :=
  match boolalpha s with
  | some (b, []) => some b
  | _ => none

/-- BO 31-38: a stream that skips white space, of which something may be left. -/
def makeBoolean (s : Text) : Option Bool := (boolalpha (s.dropWhile space)).map Prod.fst

/-- IN 61-70 under `boost::lexical_cast<Integer>`. -/
def attributeInteger (s : Text) : Option Int :=
  match castSigned (token s) with
  | some i => if rest s = [] then some i else none
  | none => none

/-- DO 79-97 under `boost::lexical_cast<Double>`. -/
def attributeDouble {R : Type} (number : Text → Option (Float R)) (s : Text) : Option (Float R) :=
  let value :=
    if token s = "INF".toList ∨ token s = "+INF".toList then some (.infinite false)
    else if token s = "-INF".toList then some (.infinite true)
    else number (token s)
  match value with
  | some x => if rest s = [] then some x else none
  | none => none

/-- The types a parameter can have (parameter_type.hpp 54-62). -/
inductive Kind where
  | boolean | dateTime | double | integer | string | unsignedInt | unsignedShort
deriving DecidableEq

/-- An object that is the value of a parameter, by its class. -/
inductive Value (R : Type) where
  | boolean (b : Bool)
  | double (x : Float R)
  | integer (i : Int)
  | string (s : Text)
  | unsignedInteger (n : Nat)
  | unsignedShort (n : Nat)
deriving DecidableEq

/-- PD 60-74 with the constructors: BO 31-38, DO 32-37, IN 28-35, UI 27-34, US 29-36. -/
def make {R : Type} (number : Text → Option (Float R)) : Kind → Text → Option (Value R)
  | .boolean, s => (makeBoolean s).map .boolean
  | .dateTime, s => some (.string s)
  | .double, s => (number s).map .double
  | .integer, s => (castSigned s).map .integer
  | .string, s => some (.string s)
  | .unsignedInt, s => (castUnsigned 64 s).map .unsignedInteger
  | .unsignedShort, s => (castUnsigned 16 s).map .unsignedShort

/-- A declaration; each group of constraints is a predicate (see `Parameter`). -/
structure Declaration (R : Type) where
  name : Text
  kind : Kind
  value : Text
  groups : List (Value R → Bool)

/-- PD 25-46 `checkName`: symbols that are not allowed are passed. -/
def checkName (name : Text) : Option Text := if name.take 3 = "OSC".toList then none else some name

/-- PD 76-88 `evaluate`. -/
def Declaration.evaluate {R : Type} (number : Text → Option (Float R)) (d : Declaration R) : Option (Value R) :=
  if d.groups = [] then make number d.kind d.value
  else
    match make number d.kind d.value with
    | none => none
    | some v => if d.groups.any fun g => g v then some v else none

/-- PD 48-56: what is inserted into the scope; none is an error. -/
def Declaration.insert {R : Type} (number : Text → Option (Float R)) (d : Declaration R) :
    Option (Text × Value R) :=
  (checkName d.name).bind fun n => (d.evaluate number).bind fun v => some (n, v)

/-- src/syntax/parameter_declarations.cpp 22-26: all of them; the first error ends it. -/
def declare {R : Type} (number : Text → Option (Float R)) :
    List (Declaration R) → Option (List (Text × Value R))
  | [] => some []
  | d :: ds => (d.insert number).bind fun e => (declare number ds).bind fun es => some (e :: es)

/-- BO 46-50 `operator<<`. -/
def printBoolean (b : Bool) : Text := if b then "true".toList else "false".toList

/-- IN 72-75 `operator<<`: decimal. -/
def printInteger (i : Int) : Text := i.repr.toList

/-- UI 61-64, US 63-66 `operator<<`: decimal. -/
def printUnsigned (n : Nat) : Text := n.repr.toList

end Verif.Literal
