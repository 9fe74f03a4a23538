import Verif.Modify.Model
/-
What the theorems about the conversion of scenarios say, apart from the model's own functions.
-/
namespace Verif.Modify

/-- `x` is not past `stop`, going by `step`. -/
def NotPast (step stop x : ℚ) : Prop := (0 < step ∧ x ≤ stop) ∨ (step < 0 ∧ stop ≤ x)

/-- `x` differs from `stop` by at most a thousand-millionth of the greater, or by 10^-10. -/
def Almost (x stop : ℚ) : Prop := |x - stop| ≤ 1 / 10 ^ 9 * |x| ∨ |x - stop| ≤ 1 / 10 ^ 9 * |stop| ∨ |x - stop| ≤ 1 / 10 ^ 10

/-- The value number `d` of a modifier, as it is printed. -/
def Modifier.nth (print : ℚ → Text) (m : Modifier) (d : Nat) : Option Text :=
  match m.values with
  | .list items => items[d]?
  | .range start step stop => (iota start step stop)[d]?.map print

/-- How many values a modifier has. -/
def Modifier.count (m : Modifier) : Nat :=
  match m.values with
  | .list items => items.length
  | .range start step stop => (iota start step stop).length

/-- The digits of a number, the last turning fastest, each below the number given for its place. -/
def digits : List Nat → Nat → List Nat
  | [], _ => []
  | _ :: cs, n => n / cs.prod :: digits cs (n % cs.prod)

/-- Combination number `i` of the values of modifiers, the last modifier turning fastest. -/
def Combination (print : ℚ → Text) (ms : List Modifier) (i : Nat) (bs : List (Text × Text)) : Prop :=
  bs.length = ms.length ∧ ∀ (k : Nat) (m : Modifier), ms[k]? = some m →
    ∃ d v, (digits (ms.map Modifier.count) i)[k]? = some d ∧ m.nth print d = some v ∧ bs[k]? = some (m.name, v)

/-- `name` occurs in `s`. -/
def Occurs (name s : Text) : Prop := ∃ a b, s = a ++ name ++ b

/-- A text made of words and the characters between them. -/
def joined (word : Text) : List (Char × Text) → Text
  | [] => word
  | (c, w) :: more => word ++ c :: joined w more

/-- The value given to a word: that of the first modifier so named, else itself. -/
def valueOf (bindings : List (Text × Text)) (word : Text) : Text :=
  match bindings.find? fun b => b.1 = word with
  | some b => b.2
  | none => word

/-- Within the words of a text names stand alone: a word is a name, or no name occurs in it. -/
def Alone (bindings : List (Text × Text)) (word : Text) : Prop :=
  (∃ b ∈ bindings, b.1 = word) ∨ ∀ b ∈ bindings, ¬ Occurs b.1 word

/-- What becomes of an entry of a map: a key that begins in lower case becomes an attribute, with the
value as Python prints it; any other an element, with what the value becomes. -/
def BecomesEntry (lower : Char → Bool) (str : Yaml → Text) (e : Text × Yaml) (r : Text × Tree) : Prop :=
  ∃ c cs, e.1 = c :: cs ∧
    ((lower c = true ∧ r = ('@' :: c :: cs, .text (str e.2))) ∨
      (lower c = false ∧ r.1 = c :: cs ∧ fromYaml lower str e.2 = .ok r.2))

/-- The keys of a map differ, and none begins with `@`. -/
def Keys (entries : List (Text × Yaml)) : Prop :=
  (entries.map Prod.fst).Nodup ∧ ∀ e ∈ entries, e.1.head? ≠ some '@'

/-- The value is not an empty list. -/
def Kept (e : Text × Yaml) : Bool :=
  match e.2 with
  | .seq [] => false
  | _ => true

/-- `P` of the value and of every value within it. -/
inductive Yaml.All (P : Yaml → Prop) : Yaml → Prop
  | null : P .null → Yaml.All P .null
  | bool {b} : P (.bool b) → Yaml.All P (.bool b)
  | number {n} : P (.number n) → Yaml.All P (.number n)
  | text {t} : P (.text t) → Yaml.All P (.text t)
  | seq {items} : P (.seq items) → (∀ y ∈ items, Yaml.All P y) → Yaml.All P (.seq items)
  | map {entries} : P (.map entries) → (∀ e ∈ entries, Yaml.All P e.2) → Yaml.All P (.map entries)

/-- Not a boolean. -/
def NotBool : Yaml → Prop
  | .bool _ => False
  | _ => True

/-- A map has an empty key. -/
def EmptyKey : Yaml → Prop
  | .map entries => ∃ e ∈ entries, e.1 = []
  | _ => False

end Verif.Modify
