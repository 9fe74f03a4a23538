/-
Model of parameters: modification, comparison and constraints.

Paths are relative to openscenario/openscenario_interpreter; S = src/syntax, H = include/openscenario_interpreter.

A double is a rational, an infinity or not a number; `round` is the rounding of arithmetic results and of the
conversion of integers, an arbitrary function here. Undefined behaviour of the C++ code is an outcome of its own.
-/
namespace Verif.Parameter

/-- `double`, apart from the sign of zero. -/
inductive Dbl
  | fin (x : Rat)
  | inf (positive : Bool)
  | nan
  deriving DecidableEq

/-- S/parameter_declaration.cpp 58-74: the values of a parameter: `Boolean`, `Double`, `Integer` (int64), `String`,
`UnsignedInteger` (uint64), `UnsignedShort` (uint16). -/
inductive Value
  | boolean (b : Bool)
  | double (d : Dbl)
  | integer (i : Int)
  | string (s : String)
  | unsignedInteger (n : Nat)
  | unsignedShort (n : Nat)
  deriving DecidableEq

/-- The outcome of an action: a new value, an exception, or undefined behaviour. -/
inductive Outcome
  | value (v : Value)
  | error
  | undefined
  deriving DecidableEq

/-- Truncation toward zero: the conversion of a finite double to an integer. -/
def trunc (x : Rat) : Int := Int.tdiv x.num x.den

/-- Conversion of a double to an integer type with the given least and greatest value; `none` is undefined. -/
def convert (lo hi : Int) : Dbl → Option Int
  | .fin x => if lo ≤ trunc x ∧ trunc x ≤ hi then some (trunc x) else none
  | _ => none

inductive Op | add | mul
  deriving DecidableEq

def Op.int : Op → Int → Int → Int
  | .add, a, b => a + b
  | .mul, a, b => a * b

def Op.rat : Op → Rat → Rat → Rat
  | .add, a, b => a + b
  | .mul, a, b => a * b

/-- IEEE addition and multiplication. -/
def Op.dbl (round : Rat → Rat) : Op → Dbl → Dbl → Dbl
  | o, .fin a, .fin b => .fin (round (o.rat a b))
  | _, .nan, _ => .nan
  | _, _, .nan => .nan
  | .add, .inf p, .inf q => if p = q then .inf p else .nan
  | .add, .inf p, .fin _ => .inf p
  | .add, .fin _, .inf q => .inf q
  | .mul, .inf p, .inf q => .inf (p == q)
  | .mul, .inf p, .fin b => if b = 0 then .nan else .inf (p == decide (0 < b))
  | .mul, .fin a, .inf q => if a = 0 then .nan else .inf (q == decide (0 < a))

def minI64 : Int := -2 ^ 63
def maxI64 : Int := 2 ^ 63 - 1
def maxU64 : Nat := 2 ^ 64 - 1
def maxU16 : Nat := 2 ^ 16 - 1
def maxInt : Int := 2 ^ 31 - 1

/-- S/parameter_add_value_rule.cpp 30-70 and S/parameter_multiply_by_value_rule.cpp 31-72 with the operators of
S/integer.cpp 47-57, S/double.cpp 65-75, S/unsigned_integer.cpp 42-52 and S/unsigned_short.cpp 44-54. The signed
integer computes in double; the unsigned ones convert the operand first, because their operators take the integer
type. The product of two `uint16_t` is computed in `int`. -/
def modify (round : Rat → Rat) (o : Op) (v : Value) (x : Dbl) : Outcome :=
  match v with
  | .integer i => match convert minI64 maxI64 (o.dbl round (.fin (round i)) x) with
    | some r => .value (.integer r)
    | none => .undefined
  | .double d => .value (.double (o.dbl round d x))
  | .unsignedInteger n => match convert 0 maxU64 x with
    | some k => .value (.unsignedInteger ((o.int n k).toNat % 2 ^ 64))
    | none => .undefined
  | .unsignedShort n => match convert 0 maxU16 x with
    | some k => if o.int n k ≤ maxInt then .value (.unsignedShort ((o.int n k).toNat % 2 ^ 16)) else .undefined
    | none => .undefined
  | .boolean _ => .error
  | .string _ => .error

/-- H/syntax/rule.hpp 62-69. -/
inductive Rule | equalTo | greaterThan | lessThan | greaterOrEqual | lessOrEqual | notEqualTo
  deriving DecidableEq

def Rule.all : List Rule := [.equalTo, .greaterThan, .lessThan, .greaterOrEqual, .lessOrEqual, .notEqualTo]

/-- H/syntax/rule.hpp 77-100 for types with exact comparison: for all but floating point types
`equal_to` is `std::equal_to`, H/functional/equal_to.hpp 28-31. -/
def Rule.exact {α : Type} (eq lt : α → α → Bool) (le : α → α → Bool) : Rule → α → α → Bool
  | .equalTo, a, b => eq a b
  | .greaterThan, a, b => lt b a
  | .lessThan, a, b => lt a b
  | .greaterOrEqual, a, b => le b a
  | .lessOrEqual, a, b => le a b
  | .notEqualTo, a, b => !eq a b

/-- IEEE comparisons. -/
def Dbl.eq : Dbl → Dbl → Bool
  | .fin a, .fin b => decide (a = b)
  | .inf p, .inf q => p = q
  | _, _ => false

def Dbl.lt : Dbl → Dbl → Bool
  | .fin a, .fin b => decide (a < b)
  | .fin _, .inf q => q
  | .inf p, .fin _ => !p
  | .inf p, .inf q => !p && q
  | _, _ => false

def Dbl.le : Dbl → Dbl → Bool
  | .fin a, .fin b => decide (a ≤ b)
  | .fin _, .inf q => q
  | .inf p, .fin _ => !p
  | .inf p, .inf q => !p || q
  | _, _ => false

/-- `std::numeric_limits<double>::epsilon()`. -/
def epsilon : Rat := 1 / 2 ^ 52

/-- H/functional/equal_to.hpp 42-63: the difference of two measurements is less than epsilon; that of equal infinities is
not a number. Subtraction is exact when its result is near zero, so `round` does not matter. -/
def Dbl.near : Dbl → Dbl → Bool
  | .fin a, .fin b => decide (a - b < epsilon ∧ b - a < epsilon)
  | _, _ => false

/-- H/syntax/rule.hpp 77-100 for `std::valarray<double>`, the type of the measurements of entities (for example
S/speed_condition.cpp): only `equalTo` is approximate. -/
def Rule.measured : Rule → Dbl → Dbl → Bool
  | .equalTo, a, b => a.near b
  | r, a, b => r.exact Dbl.eq Dbl.lt Dbl.le a b

/-- S/parameter_condition.cpp 35-59 `compare`: the text is read as the type of the parameter; `none` is an exception. -/
def compare (read : (like : Value) → String → Option Value) (v : Value) (r : Rule) (text : String) : Option Bool :=
  match v, read v text with
  | .boolean a, some (.boolean b) => some (r.exact (· == ·) (fun a b => !a && b) (fun a b => !a || b) a b)
  | .double a, some (.double b) => some (r.exact Dbl.eq Dbl.lt Dbl.le a b)
  | .integer a, some (.integer b) => some (r.exact (fun a b => decide (a = b)) (fun a b => decide (a < b)) (fun a b => decide (a ≤ b)) a b)
  | .string a, some (.string b) => some (r.exact (fun a b => decide (a = b)) (fun a b => decide (a < b)) (fun a b => decide (a ≤ b)) a b)
  | .unsignedInteger a, some (.unsignedInteger b) => some (r.exact (fun a b => decide (a = b)) (fun a b => decide (a < b)) (fun a b => decide (a ≤ b)) a b)
  | .unsignedShort a, some (.unsignedShort b) => some (r.exact (fun a b => decide (a = b)) (fun a b => decide (a < b)) (fun a b => decide (a ≤ b)) a b)
  | _, _ => none

/-- S/value_constraint.cpp 29-32, a constraint. -/
structure Constraint where
  rule : Rule
  text : String

/-- S/value_constraint_group.cpp 27-32 `all_of`: stops at the first one that fails or throws. -/
def allOf (read : Value → String → Option Value) (v : Value) : List Constraint → Option Bool
  | [] => some true
  | c :: l => (compare read v c.rule c.text).bind fun b => if b then allOf read v l else some false

/-- S/parameter_declaration.cpp 76-82 `any_of`. -/
def anyOf (read : Value → String → Option Value) (v : Value) : List (List Constraint) → Option Bool
  | [] => some false
  | g :: l => (allOf read v g).bind fun b => if b then some true else anyOf read v l

/-- S/parameter_declaration.cpp 25-46, 58-89: a declaration: `none` is an exception. -/
def declare (read : Value → String → Option Value) (name : String) (v : Value) (groups : List (List Constraint)) : Option Value :=
  if groups.isEmpty then (if name.toList.take 3 = ['O', 'S', 'C'] then none else some v)
  else match anyOf read v groups with
    | some true => if name.toList.take 3 = ['O', 'S', 'C'] then none else some v
    | _ => none

end Verif.Parameter
