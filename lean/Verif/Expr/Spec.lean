import Verif.Expr.Model
/-
Expression trees, their values, and how they are written with the usual precedences.
-/
namespace Verif.Expr
variable {D : Type} [Dbl D]

inductive Expr (D : Type)
  | lit (v : Value D)
  | var (name : String)
  | bin (o : Op) (a b : Expr D)
  | neg (a : Expr D)
  | not (a : Expr D)
  | pow (a b : Expr D)
  | fn (f : Fn) (a : Expr D)

/-- The value of an expression: operands from left to right, then the operation. -/
def Expr.eval (env : String → R D) : Expr D → Except Err (Value D)
  | .lit v => .ok v
  | .var n => env n
  | .bin o a b => do let x ← a.eval env; let y ← b.eval env; o.apply x y
  | .neg a => do let x ← a.eval env; negate x
  | .not a => do let x ← a.eval env; lnot x
  | .pow a b => do let x ← a.eval env; let y ← b.eval env; onDoubles Dbl.pow x y
  | .fn f a => do let x ← a.eval env; f.apply x

/-- `or` binds weakest, then `and`, `+ -`, `* / %`, unary `- not`, functions; atoms need no
parentheses. -/
def Expr.prec : Expr D → Nat
  | .bin .or _ _ => 0
  | .bin .and _ _ => 1
  | .bin .add _ _ | .bin .sub _ _ => 2
  | .bin .mul _ _ | .bin .div _ _ | .bin .mod _ _ => 3
  | .neg _ | .not _ => 4
  | .pow _ _ | .fn _ _ => 5
  | .lit _ | .var _ => 6

/-- Parentheses around an expression that binds weaker than its place requires. -/
def wrapped (l : Nat) (e : Expr D) (body : List (Tok D)) : List (Tok D) :=
  if l ≤ e.prec then body else .lpar :: body ++ [.rpar]

/-- The text of an expression at a place that requires precedence `l`. Binary operators associate to
the left: the right operand has to bind stronger. -/
def Expr.write (l : Nat) : Expr D → List (Tok D)
  | .lit v => [.lit v]
  | .var n => [.var n]
  | .bin o a b => wrapped l (.bin o a b)
      (a.write (Expr.bin o a b).prec ++ .op o :: b.write ((Expr.bin o a b).prec + 1))
  | .neg a => wrapped l (.neg a) (.op .sub :: a.write 5)
  | .not a => wrapped l (.not a) (.not :: a.write 5)
  | .pow a b => wrapped l (.pow a b) (.pow :: .lpar :: a.write 0 ++ .comma :: b.write 0 ++ [.rpar])
  | .fn f a => wrapped l (.fn f a) (.fn f :: .lpar :: a.write 0 ++ [.rpar])

/-- `Derives l ts e`: `ts` is a text of `e` at a place that requires precedence `l`, possibly with
more parentheses than needed. -/
inductive Derives : Nat → List (Tok D) → Expr D → Prop
  | lit (v : Value D) : Derives 6 [.lit v] (.lit v)
  | var (n : String) : Derives 6 [.var n] (.var n)
  | paren {ts : List (Tok D)} {e : Expr D} : Derives 0 ts e → Derives 6 (.lpar :: ts ++ [.rpar]) e
  | fn (f : Fn) {ts : List (Tok D)} {a : Expr D} : Derives 0 ts a →
      Derives 5 (.fn f :: .lpar :: ts ++ [.rpar]) (.fn f a)
  | pow {ts us : List (Tok D)} {a b : Expr D} : Derives 0 ts a → Derives 0 us b →
      Derives 5 (.pow :: .lpar :: ts ++ .comma :: us ++ [.rpar]) (.pow a b)
  | neg {ts : List (Tok D)} {a : Expr D} : Derives 5 ts a → Derives 4 (.op .sub :: ts) (.neg a)
  | not {ts : List (Tok D)} {a : Expr D} : Derives 5 ts a → Derives 4 (.not :: ts) (.not a)
  | bin (o : Op) {ts us : List (Tok D)} {a b : Expr D} :
      Derives (Expr.bin o a b).prec ts a → Derives ((Expr.bin o a b).prec + 1) us b →
      Derives (Expr.bin o a b).prec (ts ++ .op o :: us) (.bin o a b)
  | stronger {l : Nat} {ts : List (Tok D)} {e : Expr D} : Derives (l + 1) ts e → Derives l ts e

/-- The operands an operator is meant for: booleans for `and`, `or`, numbers for the others. -/
def Op.wellTyped (o : Op) (a b : Value D) : Prop :=
  match o with
  | .or | .and => a.isBool = true ∧ b.isBool = true
  | _ => a.isBool = false ∧ b.isBool = false

/-- The mathematical integer operation, for the operators that have one. -/
def Op.onInt : Op → Option (Int → Int → Int)
  | .add => some (· + ·)
  | .sub => some (· - ·)
  | .mul => some (· * ·)
  | _ => none

end Verif.Expr
