import Verif.Storyboard.Spec
/-
What it means that elements react to their triggers and actions to their completion, as a relation
between consecutive entries of the log. Used to state C69.
-/
namespace Verif.Storyboard

/-- Events and acts are the elements with a start trigger of their own. -/
def Ref.triggered (r : Ref) : Prop := r.kind = .event ∨ r.kind = .act

/-- Actions and the init actions are the elements that do something themselves. -/
def Ref.acting (r : Ref) : Prop := r.kind = .action ∨ r.kind = .init

/-- `Owes env l x`: after the history `l`, the very next thing that must be seen is `x`. -/
inductive Owes (env : Env) : Log → Entry → Prop
  /-- a start trigger that holds starts its element -/
  | fire {r l} : env.startTrigger r l = true →
      Owes env (.startTrigger r :: l) (.trans r .standby .start)
  /-- an action that is accomplished after having been run ends -/
  | finish {r l} : env.accomplished r (.runAction r :: l) = true →
      Owes env (.runAction r :: l) (.trans r .running .end)
  /-- an event found in standby has its start trigger evaluated -/
  | askEvent {r l} : r.kind = .event → lastState r l = .standby →
      Owes env (.visit r :: l) (.startTrigger r)
  /-- an act has its stop trigger evaluated whenever it is looked at … -/
  | askStop {r l} : r.kind = .act → Owes env (.visit r :: l) (.stopTrigger r)
  /-- … and then, in standby, its start trigger -/
  | askAct {r l} : r.kind = .act → lastState r l = .standby →
      Owes env (.stopTrigger r :: .visit r :: l) (.startTrigger r)
  /-- an event to be executed again has its start trigger evaluated again at once -/
  | again {r l} : r.triggered → Owes env (.trans r .end .standby :: l) (.startTrigger r)

end Verif.Storyboard
