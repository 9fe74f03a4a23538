import Verif.Expr.Converse
/-
C24: `${...}` expressions.
-/
namespace Verif.Expr
variable {D : Type} [Dbl D] {env : String → R D}

/-- A concrete stand-in for double, for the examples. -/
instance : Dbl Int where
  ofInt n := n
  neg n := -n
  add := (· + ·)
  sub := (· - ·)
  mul := (· * ·)
  div := (· / ·)
  fmod := (· % ·)
  pow a b := a ^ b.toNat
  round n := n
  floor n := n
  ceil n := n
  sqrt n := n
  toInt n := some n

/-- C24: a text that denotes an expression according to the precedence grammar, with any additional
parentheses, evaluates to the value of the expression, and raises its error if it has none. -/
theorem C24_grammar {ts : List (Tok D)} {e : Expr D} (h : Derives 0 ts e) :
    evaluate env ts = some (e.eval env) := by
  have := reads (env := env) h [] (by intro o r h; cases h)
  rw [cont_stop (by intro o r h; cases h), List.append_nil] at this
  unfold evaluate
  rw [this]
  cases e.eval env <;> rfl

/-- C24: writing an expression tree with the parentheses that precedence and left associativity
require, and evaluating the text, gives the value of the tree. -/
theorem C24_precedence (e : Expr D) : evaluate env (e.write 0) = some (e.eval env) :=
  C24_grammar (derives_write e 0 (by omega))

/-- `1 - 2 - 3 * 4` is `(1 - 2) - (3 * 4)`; `1 - (2 - 3)` keeps its parentheses. -/
example : (Expr.bin .sub (.bin .sub (.lit (.int 1)) (.lit (.int 2)))
      (.bin .mul (.lit (.int 3)) (.lit (.int 4))) : Expr Int).write 0 =
    [.lit (.int 1), .op .sub, .lit (.int 2), .op .sub, .lit (.int 3), .op .mul, .lit (.int 4)] ∧
    (Expr.bin .sub (.bin .sub (.lit (.int 1)) (.lit (.int 2)))
      (.bin .mul (.lit (.int 3)) (.lit (.int 4))) : Expr Int).eval (fun _ => .error .exception) =
      .ok (.int (-13)) ∧
    (Expr.bin .sub (.lit (.int 1)) (.bin .sub (.lit (.int 2)) (.lit (.int 3))) : Expr Int).write 0 =
    [.lit (.int 1), .op .sub, .lpar, .lit (.int 2), .op .sub, .lit (.int 3), .rpar] := by
  refine ⟨by simp [Expr.write, wrapped, Expr.prec], by rfl, by simp [Expr.write, wrapped, Expr.prec]⟩

/-- C24: evaluation returns on every input. -/
theorem C24_returns (ts : List (Tok D)) : evaluate env ts ≠ none := by
  have := parse_terminates env ts.length 0 ts (by omega) (Nat.le_refl _)
  unfold evaluate
  cases h : parse env 0 ts with
  | none => exact absurd h this
  | some o => simp

/-- C24: a value is only ever the value of an expression the text denotes; the one exception is the
empty text, which evaluates to 0. -/
theorem C24_only_expressions (ts : List (Tok D)) (v : Value D) :
    evaluate env ts = some (.ok v) ↔
      (ts = [] ∧ v = .int 0) ∨ ∃ e, Derives 0 ts e ∧ e.eval env = .ok v := by
  constructor
  · intro h
    unfold evaluate at h
    cases hp : parse env 0 ts with
    | none => rw [hp] at h; cases h
    | some o =>
      rw [hp] at h
      simp only [Option.map_some, Option.some.injEq] at h
      split at h
      · rename_i v'
        cases h
        obtain ⟨pre, e, e1, _, e3, e4⟩ := (sound env).1 _ _ _ hp v [] rfl (by omega)
        rw [List.append_nil] at e1
        exact .inr ⟨e, e1 ▸ e3, e4⟩
      · cases h
      · cases h
      · split at h
        · rename_i hts
          cases h
          exact .inl ⟨List.isEmpty_iff.mp hts, rfl⟩
        · cases h
  · rintro (⟨rfl, rfl⟩ | ⟨e, h, he⟩)
    · unfold evaluate
      have : parse env 0 ([] : List (Tok D)) = some .fail := by
        have p6 : parse env 6 ([] : List (Tok D)) = some .fail := by rw [parse.eq_def]; simp
        have p5 : parse env 5 ([] : List (Tok D)) = some .fail := by rw [parse.eq_def]; simp [p6]
        have p4 : parse env 4 ([] : List (Tok D)) = some .fail := by rw [parse.eq_def]; simp [p5]
        have p3 : parse env 3 ([] : List (Tok D)) = some .fail := by rw [parse.eq_def]; simp [p4]
        have p2 : parse env 2 ([] : List (Tok D)) = some .fail := by rw [parse.eq_def]; simp [p3]
        have p1 : parse env 1 ([] : List (Tok D)) = some .fail := by rw [parse.eq_def]; simp [p2]
        rw [parse.eq_def]; simp [p1]
      rw [this]
      rfl
    · rw [C24_grammar h, he]

/-- A dangling operator is no expression: `1 +` is rejected. -/
example : evaluate (fun _ => .error .exception) [.lit (.int 1), .op .add] =
    some (Except.error Err.exception : R Int) := by
  have p6 : parse (fun _ => .error .exception) 6 ([] : List (Tok Int)) = some .fail := by
    rw [parse.eq_def]; simp
  have p5 : parse (fun _ => .error .exception) 5 ([] : List (Tok Int)) = some .fail := by
    rw [parse.eq_def]; simp [p6]
  have p4 : parse (fun _ => .error .exception) 4 ([] : List (Tok Int)) = some .fail := by
    rw [parse.eq_def]; simp [p5]
  have p3 : parse (fun _ => .error .exception) 3 ([] : List (Tok Int)) = some .fail := by
    rw [parse.eq_def]; simp [p4]
  have q : parse (fun _ => .error .exception) 6 ([.lit (.int 1), .op .add] : List (Tok Int)) =
      some (.ok (.int 1) [.op .add]) := by rw [parse.eq_def]; simp
  unfold evaluate
  rw [parse.eq_def, parse.eq_def, parse.eq_def, parse.eq_def, parse.eq_def, parse.eq_def]
  simp [q]
  rw [loop.eq_def]; simp [Op.level]
  rw [loop.eq_def]; simp [Op.level, p3]
  rw [loop.eq_def]; simp [Op.level]
  rw [loop.eq_def]; simp [Op.level]

/-- C24: for every operator but `/`, operands of the wrong type raise an error and operands of the
right type do not. Missing: `/` (see `C24_violated`), and `pow` and the rounding functions, which
accept booleans as well. -/
theorem C24_typing_partial (o : Op) (ho : o ≠ .div) (a b : Value D) :
    o.apply a b = .error .exception ↔ ¬ o.wellTyped a b := by
  cases o with
  | div => exact absurd rfl ho
  | or | and =>
    cases a <;> cases b <;> simp [Op.apply, logical, Op.wellTyped, Value.isBool]
  | mod => cases a <;> cases b <;> simp [Op.apply, modulo, Op.wellTyped, Value.isBool]
  | add | sub | mul =>
    cases a <;> cases b <;>
      simp [Op.apply, arith, Op.wellTyped, Value.isBool, Value.integer?, intResult] <;>
      split <;> simp

/-- C24: an expression with such an operand anywhere raises an error: no value comes out of an
expression one of whose operators is applied to operands that raise. -/
theorem C24_error_propagates (o : Op) (a b : Expr D)
    (h : (∃ e, a.eval env = .error e) ∨ (∃ e, b.eval env = .error e) ∨
      ∃ x y, a.eval env = .ok x ∧ b.eval env = .ok y ∧ ∃ e, o.apply x y = .error e) :
    ∃ e, (Expr.bin o a b).eval env = .error e := by
  simp only [Expr.eval]
  rcases h with ⟨e, h⟩ | ⟨e, h⟩ | ⟨x, y, ha, hb, e, h⟩
  · rw [h]; exact ⟨e, rfl⟩
  · cases a.eval env with
    | error e' => exact ⟨e', rfl⟩
    | ok x => rw [h]; exact ⟨e, rfl⟩
  · rw [ha, hb]; exact ⟨e, h⟩

/-- C24: `+ - *` on `int` are the mathematical operations whenever the result is representable. -/
theorem C24_integers (o : Op) (f : Int → Int → Int) (ho : o.onInt = some f) (a b : Int)
    (h : -2147483648 ≤ f a b ∧ f a b ≤ 2147483647) :
    o.apply (.int a : Value D) (.int b) = .ok (.int (f a b)) := by
  cases o <;> simp only [Op.onInt, Option.some.injEq, reduceCtorEq] at ho <;> subst ho <;>
    simp only [Op.apply, arith, Value.isBool, Value.integer?, Bool.or_self, Bool.false_eq_true, if_false,
      intResult] <;> simp_all

/-- C24: so they are on `unsigned short`, which is promoted to `int`, alone or together with `int`; with an
`unsigned int` operand they are the operations modulo 2^32. -/
theorem C24_promotions (o : Op) (f : Int → Int → Int) (ho : o.onInt = some f) (a b : Int) :
    ((-2147483648 ≤ f a b ∧ f a b ≤ 2147483647) →
      o.apply (.ushort a : Value D) (.ushort b) = .ok (.int (f a b)) ∧
      o.apply (.int a : Value D) (.ushort b) = .ok (.int (f a b)) ∧
      o.apply (.ushort a : Value D) (.int b) = .ok (.int (f a b))) ∧
    ∀ v : Value D, (v = .int b ∨ v = .uint b ∨ v = .ushort b) →
      o.apply (.uint a : Value D) v = .ok (.uint (f a b % 4294967296)) ∧
      o.apply v (.uint a : Value D) = .ok (.uint (f b a % 4294967296)) := by
  have hm : ∀ x y : Int, wrap (f (wrap x) (wrap y)) = f x y % 4294967296 := by
    intro x y
    cases o <;> simp only [Op.onInt, Option.some.injEq, reduceCtorEq] at ho <;> subst ho <;> unfold wrap
    · rw [← Int.add_emod]
    · rw [← Int.sub_emod]
    · rw [← Int.mul_emod]
  have key : ∀ (x y : Value D), o.apply x y = arith f (match o with | .add => Dbl.add | .sub => Dbl.sub | _ => Dbl.mul) x y := by
    intro x y
    cases o <;> simp only [Op.onInt, Option.some.injEq, reduceCtorEq] at ho <;> subst ho <;> rfl
  refine ⟨fun h => ?_, ?_⟩
  · simp only [key, arith, Value.isBool, Value.integer?, Bool.or_self, Bool.false_eq_true, if_false, intResult]
    simp [h]
  · rintro v (rfl | rfl | rfl) <;>
      simp [key, arith, Value.isBool, Value.integer?, hm]

/-- C24: the number a value stands for where a `double` is needed. -/
theorem C24_conversions (n : Int) (x : D) :
    (Value.int n : Value D).toDbl = Dbl.ofInt n ∧ (Value.uint n : Value D).toDbl = Dbl.ofInt n ∧
    (Value.ushort n : Value D).toDbl = Dbl.ofInt n ∧ (Value.dbl x).toDbl = x ∧
    (Value.bool true : Value D).toDbl = Dbl.ofInt 1 ∧ (Value.bool false : Value D).toDbl = Dbl.ofInt 0 :=
  ⟨rfl, rfl, rfl, rfl, rfl, rfl⟩

/-- C24: `and`, `or` and `not` are the operations on booleans and raise an error on numbers. -/
theorem C24_logic (a b : Bool) (v : Value D) (hv : v.isBool = false) :
    Op.and.apply (.bool a : Value D) (.bool b) = .ok (.bool (a && b)) ∧
    Op.or.apply (.bool a : Value D) (.bool b) = .ok (.bool (a || b)) ∧
    lnot (.bool a : Value D) = .ok (.bool !a) ∧ lnot v = .error .exception := by
  refine ⟨rfl, rfl, rfl, ?_⟩
  cases v <;> first | rfl | cases hv

/-- C24: unary minus, on every type: exact where the result is representable, modulo 2^32 on
`unsigned int`, an error on booleans. -/
theorem C24_minus (n : Int) (h : -2147483648 ≤ -n ∧ -n ≤ 2147483647) (x : D) (b : Bool) :
    negate (.int n : Value D) = .ok (.int (-n)) ∧ negate (.ushort n : Value D) = .ok (.int (-n)) ∧
    negate (.uint n : Value D) = .ok (.uint (-n % 4294967296)) ∧ negate (.dbl x) = .ok (.dbl (Dbl.neg x)) ∧
    negate (.bool b : Value D) = .error .exception := by
  refine ⟨?_, ?_, rfl, rfl, rfl⟩ <;> simp only [negate, intResult] <;> rw [if_pos h]

/-- C24: the functions round the number to an integer (for `sqrt`, see `C24_sqrt_not_real`); `pow` is the power of
the numbers, in this order. -/
theorem C24_functions (v u : Value D) (n : Int) :
    (Dbl.toInt (Dbl.round v.toDbl) = some n → Fn.round.apply v = .ok (.int n)) ∧
    (Dbl.toInt (Dbl.floor v.toDbl) = some n → Fn.floor.apply v = .ok (.int n)) ∧
    (Dbl.toInt (Dbl.ceil v.toDbl) = some n → Fn.ceil.apply v = .ok (.int n)) ∧
    (Dbl.toInt (Dbl.sqrt v.toDbl) = some n → Fn.sqrt.apply v = .ok (.int n)) ∧
    (Expr.pow (.lit v) (.lit u)).eval env = .ok (.dbl (Dbl.pow v.toDbl u.toDbl)) := by
  refine ⟨fun h => ?_, fun h => ?_, fun h => ?_, fun h => ?_, rfl⟩ <;> simp only [Fn.apply, h]

/-- C24: with at least one `double` operand they are the operations on doubles of the converted
operands, as are `/` and `%` always. -/
theorem C24_doubles (x : D) (b : Value D) (hb : b.isBool = false) :
    Op.add.apply (.dbl x) b = .ok (.dbl (Dbl.add x b.toDbl)) ∧
    Op.add.apply b (.dbl x) = .ok (.dbl (Dbl.add b.toDbl x)) ∧
    Op.sub.apply (.dbl x) b = .ok (.dbl (Dbl.sub x b.toDbl)) ∧
    Op.sub.apply b (.dbl x) = .ok (.dbl (Dbl.sub b.toDbl x)) ∧
    Op.mul.apply (.dbl x) b = .ok (.dbl (Dbl.mul x b.toDbl)) ∧
    Op.mul.apply b (.dbl x) = .ok (.dbl (Dbl.mul b.toDbl x)) ∧
    (∀ a : Value D, Op.div.apply a b = .ok (.dbl (Dbl.div a.toDbl b.toDbl))) ∧
    (∀ a : Value D, a.isBool = false → Op.mod.apply a b = .ok (.dbl (Dbl.fmod a.toDbl b.toDbl))) := by
  cases b <;> simp_all [Op.apply, arith, modulo, onDoubles, Value.isBool, Value.integer?, Value.toDbl]

/-- C24 is violated: ill-typed operands of `/` give a value, `true / 2`. -/
theorem C24_violated : ∃ (e : Expr D) (v : Value D), (∃ a b, e = .bin .div (.lit a) (.lit b) ∧
      ¬ Op.div.wellTyped a b) ∧ evaluate env (e.write 0) = some (.ok v) :=
  ⟨.bin .div (.lit (.bool true)) (.lit (.int 2)), _, ⟨_, _, rfl, by simp [Op.wellTyped, Value.isBool]⟩,
    by rw [C24_precedence]; rfl⟩

/-- C24 is violated: `sqrt` yields an integer whatever its argument is: `sqrt(2.0)` is 1. -/
theorem C24_sqrt_not_real (e : Expr D) (v : Value D)
    (h : evaluate env ((Expr.fn .sqrt e).write 0) = some (.ok v)) : ∃ n, v = .int n := by
  rw [C24_precedence] at h
  simp only [Expr.eval] at h
  cases he : e.eval env with
  | error _ => rw [he] at h; cases h
  | ok x =>
    rw [he] at h
    simp only [bind, Except.bind, Fn.apply] at h
    split at h
    · cases h; exact ⟨_, rfl⟩
    · cases h

/-- C24 is violated: an `unsigned` parameter makes a negative difference wrap around: `$n - 2` with
`n = 1` is 4294967295. -/
theorem C24_unsigned_wraps_violated :
    evaluate (fun _ => .ok (.uint 1)) ((Expr.bin .sub (.var "n") (.lit (.int 2))).write 0) =
      some (Except.ok (.uint 4294967295) : R D) := by
  rw [C24_precedence]; rfl

end Verif.Expr
