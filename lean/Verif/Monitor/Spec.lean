import Verif.Monitor.Model
/-!
What is meant by the times at which a thread was active, and by thresholds that are overridden for a while.
-/

namespace Verif.Monitor.Spec

/-- The times at which the thread was active. -/
def times (t : Nat) : List Event → List Int
  | [] => []
  | .touch u _ now :: l => if u = t then now :: times t l else times t l
  | .exit _ :: l => times t l

/-- The names it gave then. -/
def names (t : Nat) : List Event → List String
  | [] => []
  | .touch u name _ :: l => if u = t then name :: names t l else names t l
  | .exit _ :: l => names t l

/-- The time between each of the times and the next. -/
def gaps : List Int → List Int
  | a :: b :: l => (b - a) :: gaps (b :: l)
  | _ => []

/-- The thread has ended, as far as the monitor is told, after it was active. -/
def Ended (t : Nat) (l : List Event) : Prop := ∃ a b, l = a ++ .exit t :: b ∧ times t a ≠ []

/-- A thread overrides thresholds one within the other, and leaves what it has entered. -/
inductive Nested (t : Nat) : List Override → Prop where
  | nil : Nested t []
  | one {a b : List Override} (x : Int) : Nested t a → Nested t b → Nested t (.enter t x :: (a ++ .leave t :: b))

/-- Whatever is done next, the process ends in at most that many steps. -/
inductive Ends : Nat → Process → Prop where
  | now {k : Nat} {p : Process} : p.main = .ended → Ends k p
  | later {k : Nat} {p : Process} : (∃ q, Step p q) → (∀ q, Step p q → Ends k q) → Ends (k + 1) p

/-- The number is the least of the list, if it has one. -/
def IsLeast (l : List Int) (o : Option Int) : Prop := match o with
  | none => l = []
  | some x => x ∈ l ∧ ∀ y ∈ l, x ≤ y

/-- The number is the greatest of the list, if it has one. -/
def IsGreatest (l : List Int) (o : Option Int) : Prop := match o with
  | none => l = []
  | some x => x ∈ l ∧ ∀ y ∈ l, y ≤ x

end Verif.Monitor.Spec
