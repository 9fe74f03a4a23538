import Verif.Clock.Model
/-
What the clock should show.
-/
namespace Verif.Clock
variable {V : Type} [Zero V] [Add V] [Sub V] [Div V]

/-- The real time factor in force after a history. -/
def factorAfter (accepts : V → Bool) (f : V) : List (Op V) → V
  | [] => f
  | .setStep x :: os => factorAfter accepts (if accepts x then x else f) os
  | _ :: os => factorAfter accepts f os

/-- The steps of the completed frames of a history: factor / frame rate, with the factor in force. -/
def steps (accepts : V → Bool) (rate f : V) : List (Op V) → List V
  | [] => []
  | .frame true :: os => f / rate :: steps accepts rate f os
  | .setStep x :: os => steps accepts rate (if accepts x then x else f) os
  | _ :: os => steps accepts rate f os

/-- Adding up from a start value, in order. -/
def sumFrom (a : V) (l : List V) : V := l.foldl (· + ·) a

end Verif.Clock
