import Verif.Init.Model
/-!
What the document says about the actions of `Init`.
-/

namespace Verif.Init.Spec

/-- The actions of the document, in its order. -/
def actions : List Node → List Action
  | [] => []
  | .global a :: l => a :: actions l
  | .user a :: l => a :: actions l
  | .priv as :: l => as ++ actions l
  | .other _ :: l => actions l

/-- The schema: global actions, then user defined ones, then those of entities. -/
def Schema (l : List Node) : Prop := ∃ (g u : List Action) (p : List (List Action)), l = g.map .global ++ u.map .user ++ p.map .priv

/-- The actions that take time: the others end as soon as they are started. -/
def Takes : Kind → Prop
  | .custom instant => instant = false
  | .speed step => step = false
  | .speedProfile => True
  | .laneChange => True
  | .followTrajectory => True
  | _ => False

instance : DecidablePred Takes := fun k => by cases k <;> unfold Takes <;> infer_instance

/-- No action changes the environment. -/
def Calm (l : List Node) : Prop := ∀ a ∈ actions l, a.kind ≠ .environment

/-- What a global action can be. -/
def Global : Kind → Prop
  | .environment | .entity | .parameterSet | .parameterModify | .signalState | .signalController => True
  | _ => False

/-- What an action of an entity can be. -/
def Private : Kind → Prop
  | .speed _ | .speedProfile | .laneChange | .controller | .teleport | .assignRoute | .acquirePosition | .followTrajectory => True
  | _ => False

/-- Actions are where they may be. -/
def Typed (l : List Node) : Prop :=
  (∀ a, .global a ∈ l → Global a.kind) ∧ (∀ a, .user a ∈ l → ∃ b, a.kind = .custom b) ∧ ∀ as, .priv as ∈ l → ∀ a ∈ as, Private a.kind

end Verif.Init.Spec
