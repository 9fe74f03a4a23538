/-
`${...}` expressions in attribute values.

Cited file: EV = /repo/openscenario/openscenario_interpreter/src/evaluate.cpp

The grammar is modelled on lists of tokens: the splitting of the text into tokens by the character
level parsers (`qi::lit`, `dbl`, `qi::int_`, `lexeme`, the skipper) is not modelled; the
sign of a number literal is part of its token. `double` is a
type `D` with arbitrary operations. An exception and undefined behaviour (signed overflow, conversion
of a double out of range to `int`) are outcomes of their own.
-/
namespace Verif.Expr

/-- The operations on `double` the evaluator uses. `toInt` is `static_cast<int>`, `none` if the
conversion is undefined. -/
class Dbl (D : Type) where
  ofInt : Int → D
  neg : D → D
  add : D → D → D
  sub : D → D → D
  mul : D → D → D
  div : D → D → D
  fmod : D → D → D
  pow : D → D → D
  round : D → D
  floor : D → D
  ceil : D → D
  sqrt : D → D
  toInt : D → Option Int

/-- `Value::ExpressionType`, EV:30: `int`, `unsigned int`, `unsigned short`, `double`, `bool`. -/
inductive Value (D : Type)
  | int (n : Int)
  | uint (n : Int)
  | ushort (n : Int)
  | dbl (x : D)
  | bool (b : Bool)
  deriving DecidableEq

inductive Err
  /-- `std::runtime_error` of a cast, or a SyntaxError -/
  | exception
  /-- undefined behaviour -/
  | undefined
  deriving DecidableEq

abbrev R (D : Type) := Except Err (Value D)

variable {D : Type} [Dbl D]

/-- An `int` result, undefined on overflow. -/
def intResult (n : Int) : R D :=
  if -2147483648 ≤ n ∧ n ≤ 2147483647 then .ok (.int n) else .error .undefined

/-- Conversion to `unsigned int`. -/
def wrap (n : Int) : Int := n % 4294967296

/-- `static_cast<double>(v)` of `Value::cast<double>`, EV:147-153; a `bool` converts to 0 or 1. -/
def Value.toDbl : Value D → D
  | .int n | .uint n | .ushort n => Dbl.ofInt n
  | .dbl x => x
  | .bool b => Dbl.ofInt (if b then 1 else 0)

/-- The integer value and whether the type is `unsigned int`; `none` for double and bool. -/
def Value.integer? : Value D → Option (Int × Bool)
  | .int n => some (n, false)
  | .uint n => some (n, true)
  | .ushort n => some (n, false)
  | _ => none

def Value.isBool : Value D → Bool
  | .bool _ => true
  | _ => false

/-- `std::plus<void>` etc. on two numeric values with the usual arithmetic conversions, after
`cast<Numeric>` of both (EV:126-128,155-159). -/
def arith (fi : Int → Int → Int) (fd : D → D → D) (a b : Value D) : R D :=
  if a.isBool || b.isBool then .error .exception
  else match a.integer?, b.integer? with
    | some (x, ux), some (y, uy) =>
      if ux || uy then .ok (.uint (wrap (fi (wrap x) (wrap y)))) else intResult (fi x y)
    | _, _ => .ok (.dbl (fd a.toDbl b.toDbl))

/-- `operator%`, EV:129: `std::fmod` on any two numeric values. -/
def modulo (a b : Value D) : R D :=
  if a.isBool || b.isBool then .error .exception else .ok (.dbl (Dbl.fmod a.toDbl b.toDbl))

/-- `operator/`, EV:130, and `pow`, EV:133: both operands are cast to `double`. -/
def onDoubles (f : D → D → D) (a b : Value D) : R D := .ok (.dbl (f a.toDbl b.toDbl))

/-- `operator&&`, `operator||`, EV:131-132, after `cast<bool>` (EV:161-165). -/
def logical (f : Bool → Bool → Bool) : Value D → Value D → R D
  | .bool a, .bool b => .ok (.bool (f a b))
  | _, _ => .error .exception

/-- Unary `operator-`, EV:123 -/
def negate : Value D → R D
  | .int n | .ushort n => intResult (-n)
  | .uint n => .ok (.uint (wrap (-n)))
  | .dbl x => .ok (.dbl (Dbl.neg x))
  | .bool _ => .error .exception

/-- `operator!`, EV:124 -/
def lnot : Value D → R D
  | .bool b => .ok (.bool !b)
  | _ => .error .exception

inductive Fn
  | round
  | floor
  | ceil
  | sqrt
  deriving DecidableEq

/-- `round`, `floor`, `ceil`, `sqrt`, EV:118-121: on the value cast to `double`, result cast to `int`. -/
def Fn.apply (f : Fn) (v : Value D) : R D :=
  let x := v.toDbl
  let y := match f with
    | .round => Dbl.round x
    | .floor => Dbl.floor x
    | .ceil => Dbl.ceil x
    | .sqrt => Dbl.sqrt x
  match Dbl.toInt y with
  | some n => .ok (.int n)
  | none => .error .undefined

inductive Op
  | or
  | and
  | add
  | sub
  | mul
  | div
  | mod
  deriving DecidableEq

/-- The binary operators, EV:126-132 -/
def Op.apply : Op → Value D → Value D → R D
  | .or => logical Bool.or
  | .and => logical Bool.and
  | .add => arith (· + ·) Dbl.add
  | .sub => arith (· - ·) Dbl.sub
  | .mul => arith (· * ·) Dbl.mul
  | .div => onDoubles Dbl.div
  | .mod => modulo

inductive Tok (D : Type)
  /-- an operator; `-` may also be unary -/
  | op (o : Op)
  | not
  | pow
  | fn (f : Fn)
  | lpar
  | rpar
  | comma
  | lit (v : Value D)
  | var (name : String)

/-- The rule `lvN` whose loop handles the operator, EV:182-185. -/
def Op.level : Op → Nat
  | .or => 0
  | .and => 1
  | .add | .sub => 2
  | .mul | .div | .mod => 3

/-- What a rule does: no match, an exception (or undefined behaviour) of an action, or a match. -/
inductive Out (D : Type)
  | fail
  | error (e : Err)
  | ok (v : Value D) (rest : List (Tok D))

/-- An action on a matched value. -/
def act (r : R D) (rest : List (Tok D)) : Out D :=
  match r with
  | .ok v => .ok v rest
  | .error e => .error e

/- The rules `lv0` … `lv6`, EV:182-203. `loop` is the `*( … )` of `lv0` … `lv3`. A sequence that fails
leaves the input where it was, so the next alternative starts from there. `env` is `toValue`,
EV:207-227. -/
mutual
def parse (env : String → R D) (l : Nat) (ts : List (Tok D)) : Option (Out D) :=
  if l ≤ 3 then
    (parse env (l + 1) ts) >>= fun o => match o with
      | .ok v r => loop env l v r
      | o => some o
  else if l = 4 then
    match ts with
    | .op .sub :: r =>
      (parse env 5 r) >>= fun o => match o with
        | .ok v r' => some (act (negate v) r')
        | .error e => some (.error e)
        | .fail => parse env 5 ts
    | .not :: r =>
      (parse env 5 r) >>= fun o => match o with
        | .ok v r' => some (act (lnot v) r')
        | .error e => some (.error e)
        | .fail => parse env 5 ts
    | _ => parse env 5 ts
  else if l = 5 then
    match ts with
    | .pow :: .lpar :: r =>
      (parse env 0 r) >>= fun o => match o with
        | .ok x (.comma :: r') =>
          (parse env 0 r') >>= fun o => match o with
            | .ok y (.rpar :: r'') => some (act (onDoubles Dbl.pow x y) r'')
            | .error e => some (.error e)
            | _ => parse env 6 ts
        | .error e => some (.error e)
        | _ => parse env 6 ts
    | .fn f :: .lpar :: r =>
      (parse env 0 r) >>= fun o => match o with
        | .ok x (.rpar :: r') => some (act (f.apply x) r')
        | .error e => some (.error e)
        | _ => parse env 6 ts
    | _ => parse env 6 ts
  else
    match ts with
    | .lpar :: r =>
      (parse env 0 r) >>= fun o => match o with
        | .ok v (.rpar :: r') => some (.ok v r')
        | .error e => some (.error e)
        | _ => some .fail
    | .lit v :: r => some (.ok v r)
    | .var n :: r => some (act (env n) r)
    | _ => some .fail
partial_fixpoint

def loop (env : String → R D) (l : Nat) (v : Value D) (ts : List (Tok D)) : Option (Out D) :=
  match ts with
  | .op o :: r =>
    if o.level = l then
      (parse env (l + 1) r) >>= fun x => match x with
        | .ok v' r' =>
          match o.apply v v' with
          | .ok x => loop env l x r'
          | .error e => some (.error e)
        | .error e => some (.error e)
        | .fail => some (.ok v ts)
    else some (.ok v ts)
  | _ => some (.ok v ts)
partial_fixpoint
end

/-- `evaluate`, EV:232-243, before the conversion of the value to text. `none`: the parser does not
terminate (never the case for the expressions of the theorems). If the grammar does not match, the
input is not consumed, so only the empty input gets through with the default value 0. -/
def evaluate (env : String → R D) (ts : List (Tok D)) : Option (R D) :=
  (parse env 0 ts).map fun o => match o with
    | .ok v [] => .ok v
    | .ok _ _ => .error .exception
    | .error e => .error e
    | .fail => if ts.isEmpty then .ok (.int 0) else .error .exception

end Verif.Expr
