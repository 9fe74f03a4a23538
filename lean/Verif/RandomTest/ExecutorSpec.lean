import Verif.RandomTest.Spec
import Verif.RandomTest.Executor
/-
What the theorems about the execution of random tests say.
-/
namespace Verif.RandomTest
section
variable {K : Type} [Field K] [LinearOrder K]

/-- The ego is less than three metres away from a point. -/
def Ego.At (ego : Ego K) (p : Point K) : Prop := squared ego.place p < 3 * 3

/-- The square root is right about three. -/
def Setting.Root (g : Setting K) : Prop := ∀ x, 0 ≤ x → (g.sqrt x < 3 ↔ x < 3 * 3)

/-- The ego is there and engaged, and the simulation goes on. -/
def Frame.Smooth (f : Frame K) : Prop := f.ego.isSome = true ∧ f.engaged = .ok true ∧ f.outcome = .done

/-- An exception that is not in the results. -/
def Exc.Silent (e : Exc) : Prop := e = .runtime ∨ e = .unknown

/-- There are no such exceptions. -/
def Frame.Loud (f : Frame K) : Prop :=
  (∀ e, f.engaged = .error e → ¬ e.Silent) ∧ ∀ e, f.outcome = .thrown e → ¬ e.Silent

/-- The ego is at the goal, is slow, or a vehicle touches it, in the frame of that number. -/
def AtGoal (fs : List (Frame K)) (p : Point K) (i : Nat) : Prop :=
  ∃ f ego, fs[i]? = some f ∧ f.ego = some ego ∧ ego.At p
def Slow (fs : List (Frame K)) (i : Nat) : Prop :=
  ∃ f ego, fs[i]? = some f ∧ f.ego = some ego ∧ ego.speed < 1 / 100
def Touch (g : Setting K) (fs : List (Frame K)) (n : String) (i : Nat) : Prop :=
  ∃ f, fs[i]? = some f ∧ n ∈ g.npcs ∧ n ∈ f.touching

/-- An executor that has been initialized, and has not been updated. -/
structure State.Ready (s : State K) (p : Point K) : Prop where
  base : s.base = none
  stamp : s.stamp = none
  last : s.last = none
  still : s.still = some 0
  contacts : s.contacts = []
  goal : s.goal = some p
  completed : s.completed = false
  reports : s.reports = []

end
end Verif.RandomTest
