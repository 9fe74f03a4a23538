import Verif.Storyboard.Model
/-
`StoryboardElementStateCondition` (SC = src/syntax/storyboard_element_state_condition.cpp) and
`TriggeringEntitiesRule` (TE = include/.../syntax/triggering_entities_rule.hpp), both under
openscenario/openscenario_interpreter.
-/
namespace Verif.Condition

open Verif.Storyboard (St)

/-- What happens to the watched element and its watcher, in order. -/
inductive WatchOp where
  /-- the element transitions to a state (`StoryboardElement::transitionTo`,
  include/.../syntax/storyboard_element.hpp:179-186), with no veto -/
  | enter (s : St)
  /-- the element is a skip event: its transition to startTransition is turned back to standby by
  the callback of src/syntax/event.cpp:37-43, which was registered before those of conditions -/
  | vetoed
  /-- the condition is evaluated -/
  | eval
deriving DecidableEq, Repr

/-- The state of the element, the watcher's `current_state`, and the values of the evaluations so
far, newest first. -/
structure Watch where
  element : St
  current : St
  values : List Bool
deriving DecidableEq, Repr

/-- SC:25-32 (`current_state(standbyState)`); elements are constructed in standbyState. -/
def Watch.initial : Watch := ⟨.standby, .standby, []⟩

/-- The callback of SC:45-51 runs when the element enters `target`; it stores the element's state at
that moment. -/
def Watch.notify (target entered : St) (w : Watch) : Watch :=
  if entered = target then { w with current := w.element } else w

/-- One step. -/
def Watch.step (target : St) (w : Watch) : WatchOp → Watch
  | .enter s => ({ w with element := s } : Watch).notify target s
  | .vetoed =>
    -- current_state = start; first callback: transitionTo(standby), whose callbacks run at once;
    -- then the callbacks of start run, seeing standby
    let w : Watch := ({ w with element := .standby } : Watch).notify target .standby
    w.notify target .start
  | .eval =>  -- SC:66-89
    if w.current = target then
      { w with values := true :: w.values }
    else
      { w with current := w.element, values := (w.element == target) :: w.values }

/-- All steps. -/
def Watch.run (target : St) (ops : List WatchOp) : Watch := ops.foldl (Watch.step target) .initial

/-! ### Triggering entities -/

/-- `TriggeringEntitiesRule::value_type`, TE:45-49. -/
inductive EntitiesRule where
  | all | any | none
deriving DecidableEq, Repr

/-- `std::all_of` with the sequence of entities the predicate was applied to. -/
def allOf {α : Type} (p : α → Bool) : List α → Bool × List α
  | [] => (true, [])
  | x :: xs => if p x then let r := allOf p xs; (r.1, x :: r.2) else (false, [x])

/-- `std::any_of`. -/
def anyOf {α : Type} (p : α → Bool) : List α → Bool × List α
  | [] => (false, [])
  | x :: xs => if p x then (true, [x]) else let r := anyOf p xs; (r.1, x :: r.2)

/-- `TriggeringEntitiesRule::apply`, TE:55-71; `std::none_of` applies the predicate to the same
entities as `any_of`. -/
def EntitiesRule.apply {α : Type} (rule : EntitiesRule) (p : α → Bool) (xs : List α) :
    Bool × List α :=
  match rule with
  | .all => allOf p xs
  | .any => anyOf p xs
  | .none => (!(anyOf p xs).1, (anyOf p xs).2)

/-- `operator>>`, src/syntax/triggering_entities_rule.cpp:43-62: only `all` and `any`. -/
def EntitiesRule.read (s : String) : Option EntitiesRule :=
  if s = "all" then some .all else if s = "any" then some .any else Option.none

end Verif.Condition
