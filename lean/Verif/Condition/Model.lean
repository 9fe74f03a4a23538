import Mathlib.Order.Monotone.Defs
/-
Conditions, condition groups and triggers.

Modelled files (under openscenario/openscenario_interpreter):
  CH  include/openscenario_interpreter/syntax/condition.hpp
  CC  src/syntax/condition.cpp
  CG  src/syntax/condition_group.cpp
  TR  src/syntax/trigger.cpp

Time is an arbitrary linear order `T`. The only arithmetic on times, `histories.back().time - delay`
(CH:81), is an arbitrary function `cutoff` of the current time; theorems assume it is monotone, which
holds for IEEE subtraction of a constant in every rounding mode. NaN times are not modelled.
-/
namespace Verif.Condition

/-- `ConditionEdge`, include/.../syntax/condition_edge.hpp:48-102. -/
inductive Edge where
  | none | rising | falling | risingOrFalling | sticky
deriving DecidableEq, Repr

/-- `Condition::History`, CH:61-65. -/
structure Sample (T : Type) where
  time : T
  result : Bool
deriving DecidableEq, Repr

/-- The mutable part of a `Condition`, CH:58,67. -/
structure State (T : Type) where
  cur : Bool
  hist : List (Sample T)
deriving DecidableEq, Repr

/-- CC:44 -/
def State.initial {T : Type} : State T := ⟨false, []⟩

/-- `sizeof...(Booleans)` of the lambdas in CC:51-66. -/
def Edge.arity : Edge → Nat
  | .none | .sticky => 1
  | .rising | .falling | .risingOrFalling => 2

/-- The lambdas of CC:51-66. `cur` is `current_value`; `a` is the first argument, `b` the second (not
used by the unary ones). -/
def Edge.apply (e : Edge) (cur a b : Bool) : Bool :=
  match e with
  | .rising => a && !b
  | .falling => !a && b
  | .risingOrFalling => a != b
  | .none => a
  | .sticky => cur || a

/-- `hist[i].result` for an index known to be in range. -/
def resultAt {T : Type} (h : List (Sample T)) (i : Nat) : Bool :=
  match h[i]? with
  | some s => s.result
  | none => false

variable {T : Type} [LinearOrder T]

/-- `Condition::update_condition`, CH:75-90, together with the `switch` of CC:49-70: `now` is
`evaluateSimulationTime()`, `raw` is `ComplexType::evaluate()`. `k` is
`distance(begin, iterator)`; the arguments are `*--iterator`, `*--iterator`. -/
def step (cutoff : T → T) (e : Edge) (s : State T) (now : T) (raw : Bool) : State T :=
  let hist := s.hist ++ [⟨now, raw⟩]
  let k := hist.findIdx fun x => decide (cutoff now < x.time)
  if e.arity ≤ k then
    { cur := e.apply s.cur (resultAt hist (k - 1)) (resultAt hist (k - 2))
      hist := hist.drop (k - e.arity) }
  else
    { cur := false, hist := hist }

/-- A condition evaluated at each of the given samples (oldest first). -/
def run (cutoff : T → T) (e : Edge) (xs : List (Sample T)) : State T :=
  xs.foldl (fun s x => step cutoff e s x.time x.result) .initial

/-! ### Groups and triggers -/

/-- A condition of a group. `id` names the raw condition it samples, `cutoff` is `now - delay`. -/
structure Cond (T : Type) where
  id : Nat
  edge : Edge
  cutoff : T → T
  st : State T

/-- `Condition::evaluate`, CC:49-70; returns the value and the updated object. -/
def Cond.eval (c : Cond T) (now : T) (raw : Bool) : Cond T :=
  { c with st := step c.cutoff c.edge c.st now raw }

/-- A `ConditionGroup`, with `current_value`. -/
structure Group (T : Type) where
  cur : Bool
  conds : List (Cond T)

/-- A `Trigger`, with `current_value`. -/
structure Trigger (T : Type) where
  cur : Bool
  groups : List (Group T)

/-- The accumulation loop of CG:31-35: `acc` is the accumulator, the raw value of the condition with
identity `i` at this instant is `raw i`. Returns the accumulated value, the updated conditions, and
the identities of the raw conditions sampled, in order. -/
def evalConds (raw : Nat → Bool) (now : T) : Bool → List (Cond T) → Bool × List (Cond T) × List Nat
  | acc, [] => (acc, [], [])
  | acc, c :: cs =>
    let c' := c.eval now (raw c.id)
    let rest := evalConds raw now (acc && c'.st.cur) cs
    (rest.1, c' :: rest.2.1, c.id :: rest.2.2)

/-- `ConditionGroup::evaluate`, CG:27-36. -/
def Group.eval (raw : Nat → Bool) (now : T) (g : Group T) : Group T × List Nat :=
  let r := evalConds raw now true g.conds
  ({ cur := r.1, conds := r.2.1 }, r.2.2)

/-- The accumulation loop of TR:41-46. -/
def evalGroups (raw : Nat → Bool) (now : T) :
    Bool → List (Group T) → Bool × List (Group T) × List Nat
  | acc, [] => (acc, [], [])
  | acc, g :: gs =>
    let g' := g.eval raw now
    let rest := evalGroups raw now (acc || g'.1.cur) gs
    (rest.1, g'.1 :: rest.2.1, g'.2 ++ rest.2.2)

/-- `Trigger::evaluate`, TR:29-47. -/
def Trigger.eval (raw : Nat → Bool) (now : T) (t : Trigger T) : Trigger T × List Nat :=
  let r := evalGroups raw now false t.groups
  ({ cur := r.1, groups := r.2.1 }, r.2.2)

/-- `Trigger::activeConditionGroupIndex`, TR:49-56 (`distance(begin, end)` when there is none). -/
def Trigger.activeIndex (t : Trigger T) : Nat :=
  t.groups.findIdx fun g => g.conds.all fun c => c.st.cur

/-- `Trigger::activeConditionGroupDescription`, TR:58-66: identities of the conditions of the active
group; `none` is the undefined behaviour of dereferencing the end iterator. -/
def Trigger.activeDescription (t : Trigger T) : Option (List Nat) :=
  (t.groups[t.activeIndex]?).map fun g => g.conds.map Cond.id

end Verif.Condition
