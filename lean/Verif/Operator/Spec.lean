/-
What routes, trajectories and requests to cooperate are, apart from the model.
-/
namespace Verif.Operator.Spec

variable {I : Type}

/-- A way from `a` to `b` from lanelet to lanelet. -/
inductive Way (next : I → I → Prop) : I → I → List I → Prop
  | here (a : I) : Way next a a [a]
  | step {a b c : I} {l : List I} : next a b → Way next b c l → Way next a c (a :: l)

/-- The lanelets are visited in this order; one may be visited several times without leaving it. -/
def Visits (way : List I) : List I → Prop
  | [] => True
  | i :: is => ∃ before after, way = before ++ i :: after ∧ Visits (i :: after) is

/-- A trajectory that brings what is at `start 0` to `start 1` and so on, and is finished at `start n`. -/
structure Trajectory {A : Type} (step : A → Option A) (start : Nat → A) (n : Nat) : Prop where
  steps : ∀ k, k < n → step (start k) = some (start (k + 1))
  ends : step (start n) = none

end Verif.Operator.Spec
