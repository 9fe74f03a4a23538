import Verif.Server.Model
/-
Vocabulary of the statements about the sensor simulator: what a history of requests says about the entities.
-/
namespace Verif.Server
variable {P S : Type}

/-- After the requests `l` there is an entity `name` of the kind `k`: it was spawned, and since then neither despawned nor forgotten. -/
def Live (k : Kind) (l : List (Request P S)) (name : String) : Prop :=
  ∃ before pose init after, l = before ++ .spawn k name pose init :: after ∧ ∀ r ∈ after, r ≠ .reset ∧ r ≠ .despawn name

/-- After the requests `l` there is an entity `name`. -/
def Present (l : List (Request P S)) (name : String) : Prop := ∃ k, Live k l name

/-- No name is spawned while an entity has it. -/
def Fresh (l : List (Request P S)) : Prop :=
  ∀ before k name pose init after, l = before ++ .spawn k name pose init :: after → ¬ Present before name

/-- The ego was overwritten on request, and since then there was neither a request for the AUTONOMOUS mode nor another ego. -/
def Overridden (l : List (Request P S)) : Prop :=
  ∃ before started statuses after, l = before ++ .update true started statuses :: after ∧
    (∃ name, name ∈ statuses.map (·.1) ∧ Live .ego before name) ∧
    ∀ r ∈ after, r ≠ .mode .autonomous ∧ ∀ name pose init, r ≠ .spawn .ego name pose init

end Verif.Server
