import Verif.Registry.Model
/-
The registry as its user sees it: which names are taken, and by what.
-/
namespace Verif.Registry
variable {α : Type} [DecidableEq α]

/-- What a request is meant to do, given the entities that exist (name and kind). -/
def specStep (alive : α → Option Kind) : Op α → (α → Option Kind) × Result → Prop
  | .spawn n k ctor, (alive', r) =>
    let free := ctor = true ∧ alive n = none ∧ (k = .ego → ∀ m, alive m ≠ some .ego)
    (free → r = .ok ∧ alive' = fun m => if m = n then some k else alive m) ∧
    (¬ free → r = .throws ∧ alive' = alive)
  | .despawn n, (alive', r) =>
    (r = if alive n = none then .no else .ok) ∧ alive' = fun m => if m = n then none else alive m
  | .despawnEntities, (alive', r) => r = .ok ∧ alive' = fun _ => none
  | .updateFrame, (alive', r) => r = .ok ∧ alive' = alive
  | .reset _, _ => False
  | .close, _ => False

/-- A history of requests and results that is as specified. -/
inductive Follows : (α → Option Kind) → List (Op α) → List Result → (α → Option Kind) → Prop where
  | nil (a) : Follows a [] [] a
  | cons (a o a' r os rs a'') : specStep a o (a', r) → Follows a' os rs a'' → Follows a (o :: os) (r :: rs) a''

/-- The kind of the entity with a name, in the entity manager. -/
def kindOf (w : World α) (n : α) : Option Kind := (w.entities.find? (fun e => e.1 = n)).map (·.2)

/-- The entities of a kind in the environment simulator. -/
def Sim.ofKind (s : Sim α) : Kind → List α
  | .ego => s.egos
  | .vehicle => s.vehicles
  | .pedestrian => s.pedestrians
  | .misc => s.miscs

/-- Requests that spawn, despawn or run a frame. -/
def ordinary : Op α → Bool
  | .reset _ | .close => false
  | _ => true

end Verif.Registry
