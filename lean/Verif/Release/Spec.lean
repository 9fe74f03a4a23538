import Verif.Release.Model
/-
What the properties are about, in terms of dates, texts and messages only.
-/
namespace Verif.Release

/-- A day. -/
structure Day where
  year : Nat
  month : Nat
  day : Nat
  deriving DecidableEq

/-- The years have four digits, the months and days two. -/
def Day.Written (d : Day) : Prop := d.year < 10000 ∧ d.month < 100 ∧ d.day < 100

/-- `d` is earlier than `e`. -/
def Day.earlier (d e : Day) : Prop :=
  d.year < e.year ∨ d.year = e.year ∧ (d.month < e.month ∨ d.month = e.month ∧ d.day < e.day)

instance (d e : Day) : Decidable (d.earlier e) := by unfold Day.earlier; infer_instance

/-- The decimal digit for `n < 10`. -/
def digit (n : Nat) : Char := Char.ofNat (48 + n)

/-- `n` written with two and with four digits. -/
def two (n : Nat) : Text := [digit (n / 10), digit (n % 10)]
def four (n : Nat) : Text := two (n / 100) ++ two (n % 100)

/-- The release of a day: "awf/universe/YYYYMMDD". -/
def release (d : Day) : Text :=
  ['a', 'w', 'f', '/', 'u', 'n', 'i', 'v', 'e', 'r', 's', 'e', '/'] ++ four d.year ++ two d.month ++ two d.day

/-- What a launch takes an argument to be: that of the last one with its name. -/
def meant (name : String) (l : List Argument) : Option Text := ((l.filter (·.name = name)).getLast?).map (·.value)

/-- The last path among those sent, in the terms of the newer message. -/
def latest {H P B : Type} (blank : OldPath H P B) (l : List (Sent H P B)) : NewPath H P B :=
  match l.getLast? with
  | some (.new p) => p
  | some (.old p) => ⟨p.header, p.points, p.left, p.right⟩
  | none => ⟨blank.header, blank.points, blank.left, blank.right⟩

end Verif.Release
