import Verif.Reach.Model
/-
What the properties are about, in terms of the entities and the map only.
-/
namespace Verif.Reach

/-- The frames that should be there: one for the Ego, if there is one, and one for the entities, if there are any. -/
inductive Named {K Q : Type} (l : List (Body K Q)) : List String → Prop where
  | nothing : l = [] → Named l []
  | others : l ≠ [] → (∀ e ∈ l, e.ego = false) → Named l ["entities"]
  | ego : (∃ e ∈ l, e.ego = true) → Named l ["ego", "entities"]

/-- The centre of the entities: on each axis, as many times it as there are entities is the sum of their positions. -/
def Centre {K Q : Type} [Field K] (l : List (Body K Q)) (c : K × K × K) : Prop :=
  c.1 * l.length = (l.map (·.position.1)).sum ∧ c.2.1 * l.length = (l.map (·.position.2.1)).sum ∧ c.2.2 * l.length = (l.map (·.position.2.2)).sum

/-- Where the frames of a history lie: when there are entities for the first time, at the Ego or, without one, in the centre of the entities, not turned. -/
def Home {K Q : Type} [Field K] (level : Q) (ls : List (List (Body K Q))) (p : Pose K Q) : Prop :=
  ∃ a l b, ls = a ++ l :: b ∧ (∀ x ∈ a, x = []) ∧ l ≠ [] ∧
    ((∃ e ∈ l, e.ego = true ∧ p = ⟨e.position, e.orientation⟩) ∨ ((∀ e ∈ l, e.ego = false) ∧ Centre l p.position ∧ p.orientation = level))

/-- How far ahead along the own lane the curve of a lane change goes over to the other lane. -/
def reachOf {C : Type} (t : Lanes.Target Rat C) (type : Lanes.Constraint) (value offset d : Rat) : Prop :=
  ∀ across, Lanes.boundPath { t with across := across } type value offset =
    match across d with
    | none => .ok none
    | some s => match t.curve s offset with
      | none => .error .thrown
      | some c => .ok (some (c, s))

end Verif.Reach
