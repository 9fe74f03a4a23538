import Verif.Literal.Model

namespace Verif.Literal

/-- A figure from 0 to 9. -/
def figure (d : Nat) : Char := Char.ofNat ('0'.toNat + d)

/-- A row of figures stands for a number. -/
inductive Stands : Text → Nat → Prop where
  | one (d : Nat) (h : d < 10) : Stands [figure d] d
  | more {ds : Text} {n : Nat} (d : Nat) (h : d < 10) : Stands ds n → Stands (ds ++ [figure d]) (10 * n + d)

/-- A text is a whole number: figures, with a sign or without. -/
inductive Whole : Text → Int → Prop where
  | plain {ds : Text} {n : Nat} : Stands ds n → Whole ds n
  | plus {ds : Text} {n : Nat} : Stands ds n → Whole ('+' :: ds) n
  | minus {ds : Text} {n : Nat} : Stands ds n → Whole ('-' :: ds) (-(n : Int))

/-- Only white space. -/
def Blank (s : Text) : Prop := ∀ c ∈ s, c ∈ [' ', '\t', '\n', '\r', '\x0b', '\x0c']

/-- Symbols that the standard does not allow in the names of parameters. -/
def Forbidden (c : Char) : Prop := c = ' ' ∨ c = '$' ∨ c = '\'' ∨ c = '"'

/-- The value of a parameter of a kind is the one that the text stands for. -/
def Means {R : Type} (number : Text → Option (Float R)) : Kind → Text → Value R → Prop
  | .boolean, s, v => (s = "true".toList ∧ v = .boolean true) ∨ (s = "false".toList ∧ v = .boolean false)
  | .dateTime, s, v => v = .string s
  | .double, s, v => ∃ x, number s = some x ∧ v = .double x
  | .integer, s, v => ∃ i, Whole s i ∧ -2 ^ 63 ≤ i ∧ i < 2 ^ 63 ∧ v = .integer i
  | .string, s, v => v = .string s
  | .unsignedInt, s, v => ∃ i : Nat, Whole s i ∧ i < 2 ^ 64 ∧ v = .unsignedInteger i
  | .unsignedShort, s, v => ∃ i : Nat, Whole s i ∧ i < 2 ^ 16 ∧ v = .unsignedShort i

end Verif.Literal
