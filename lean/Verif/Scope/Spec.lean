import Verif.Scope.Model
/-
What is visible where.
-/
namespace Verif.Scope
variable {Obj : Type}

/-- `e` is the `j`-th scope enclosing `f` (the 0-th is `f` itself). -/
def encloses (s : Store Obj) : Nat → Nat → Option Nat
  | 0, f => some f
  | j + 1, f => (s[f]?.bind (·.outer)).bind (encloses s j)

/-- The scopes reached from `f` through `k` anonymous scopes, in order. -/
def anonymous (s : Store Obj) (f : Nat) : Nat → List Nat
  | 0 => [f]
  | k + 1 => (anonymous s f k).flatMap fun g => ((s[g]?).map (·.unnamed)).getD []

/-- The declarations of a name of the wanted type that are visible in scope `e` at anonymous depth `k`. -/
def visible (s : Store Obj) (is : Obj → Bool) (name : String) (e : Nat) (k : Nat) : List Obj :=
  (anonymous s e k).flatMap fun g =>
    ((((s[g]?).map (·.variables)).getD []).filter fun v => v.1 = name ∧ is v.2).map (·.2)

/-- `e` is the nearest scope enclosing `f` in which something of that name is visible, and `k` the
least depth at which it is. -/
def Nearest (s : Store Obj) (is : Obj → Bool) (name : String) (f e : Nat) (k : Nat) : Prop :=
  ∃ j, encloses s j f = some e ∧ visible s is name e k ≠ [] ∧
    (∀ k', k' < k → visible s is name e k' = []) ∧
    ∀ j', j' < j → ∀ e', encloses s j' f = some e' → ∀ k', visible s is name e' k' = []

/-- The scopes called `p` that scope `e` declares, `k` anonymous scopes down. -/
def scopesNamed (s : Store Obj) (p : String) (e : Nat) (k : Nat) : List Nat :=
  (anonymous s e k).flatMap fun g => ((((s[g]?).map (·.inner)).getD []).filter fun v => v.1 = p).map (·.2)

/-- `g` is what the path `ps` means, starting in `r`: every scope on it is the only one of its name
declared directly in the one before. -/
inductive Path (s : Store Obj) : Nat → List String → Nat → Prop
  | here (r : Nat) : Path s r [] r
  | step {r h g : Nat} {p : String} {ps : List String} :
      scopesNamed s p r 0 = [h] → Path s h ps g → Path s r (p :: ps) g

/-! ### What the scenario declares -/

/-- The scopes created, in order: in which scope, and under which name ("": anonymous). Scope 0 is the outermost one,
scope `k + 1` is the `k`-th one created. -/
def created (ops : List (Op Obj)) : List (Nat × String) :=
  ops.filterMap fun
    | .newFrame o n => some (o, n)
    | .define _ _ _ => none

/-- Every operation refers to a scope that exists by then; `n` scopes exist before. -/
def Valid : List (Op Obj) → Nat → Prop
  | [], _ => True
  | .newFrame o _ :: ops, n => o < n ∧ Valid ops (n + 1)
  | .define f _ _ :: ops, n => f < n ∧ Valid ops n

/-- What scope `f` declares, in order. -/
def declarations (ops : List (Op Obj)) (f : Nat) : List (String × Obj) :=
  ops.filterMap fun
    | .define g n o => if g = f then some (n, o) else none
    | .newFrame _ _ => none

/-- The scopes created in scope `f` under the name. -/
def createdIn (ops : List (Op Obj)) (f : Nat) (name : String) : List Nat :=
  (((created ops).zipIdx 1).filter fun x => x.1 = (f, name)).map (·.2)

end Verif.Scope
