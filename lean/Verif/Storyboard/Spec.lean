import Verif.Storyboard.Model
/-
Vocabulary in which the storyboard properties are stated. Everything here is about the static
scenario tree and the log of observable entries, not about how the interpreter works.
-/
namespace Verif.Storyboard

/-! ### Elements of a storyboard -/

def Board.acts (b : Board) : List Act := b.stories.flatMap Story.acts
def Board.groups (b : Board) : List Group := b.acts.flatMap Act.groups
def Board.maneuvers (b : Board) : List Maneuver := b.groups.flatMap Group.maneuvers
def Board.events (b : Board) : List Event := b.maneuvers.flatMap Maneuver.events
def Board.actions (b : Board) : List Nat := b.events.flatMap Event.actions

/-- Distinct objects have distinct identities (they are distinct heap objects in C++). -/
structure Board.WF (b : Board) : Prop where
  stories : (b.stories.map Story.id).Nodup
  acts : (b.acts.map Act.id).Nodup
  groups : (b.groups.map Group.id).Nodup
  maneuvers : (b.maneuvers.map Maneuver.id).Nodup
  events : (b.events.map Event.id).Nodup
  actions : b.actions.Nodup

instance (b : Board) : Decidable b.WF :=
  decidable_of_iff ((b.stories.map Story.id).Nodup ∧ (b.acts.map Act.id).Nodup ∧
    (b.groups.map Group.id).Nodup ∧ (b.maneuvers.map Maneuver.id).Nodup ∧
    (b.events.map Event.id).Nodup ∧ b.actions.Nodup)
    ⟨fun ⟨a, b, c, d, e, f⟩ => ⟨a, b, c, d, e, f⟩, fun ⟨a, b, c, d, e, f⟩ => ⟨a, b, c, d, e, f⟩⟩

/-- `Child b p c`: in storyboard `b`, element `c` is a direct child of element `p`. -/
inductive Child (b : Board) : Ref → Ref → Prop
  | init : Child b b.ref b.initRef
  | story {s} : s ∈ b.stories → Child b b.ref s.ref
  | act {s a} : s ∈ b.stories → a ∈ s.acts → Child b s.ref a.ref
  | group {a g} : a ∈ b.acts → g ∈ a.groups → Child b a.ref g.ref
  | maneuver {g m} : g ∈ b.groups → m ∈ g.maneuvers → Child b g.ref m.ref
  | event {m e} : m ∈ b.maneuvers → e ∈ m.events → Child b m.ref e.ref
  | action {e a} : e ∈ b.events → a ∈ e.actions → Child b e.ref (actionRef a)

/-- Descendants: children, children of children, … -/
inductive Descendant (b : Board) : Ref → Ref → Prop
  | child {p c} : Child b p c → Descendant b p c
  | step {p c d} : Child b p c → Descendant b c d → Descendant b p d

/-! ### Observations on a log (newest entry first) -/

/-- The state of element `r` as an observer of the transitions knows it. -/
def lastState (r : Ref) : Log → St
  | [] => .standby
  | .trans r' _ d :: l => if r' = r then d else lastState r l
  | _ :: l => lastState r l

/-- The state element `r` left in its last transition. -/
def lastSource (r : Ref) : Log → St
  | [] => .standby
  | .trans r' s _ :: l => if r' = r then s else lastSource r l
  | _ :: l => lastSource r l

/-- How many times `r` has been executed (entered the running state). -/
def executions (r : Ref) (l : Log) : Nat :=
  l.countP fun | .trans r' _ .running => r' == r | _ => false

/-- How many times the concrete action behind `r` has been started. -/
def starts (r : Ref) (l : Log) : Nat :=
  l.countP fun | .startAction r' => r' == r | _ => false

/-- How many times the concrete action behind `r` has been started or run. -/
def activity (r : Ref) (l : Log) : Nat :=
  l.countP fun | .startAction r' => r' == r | .runAction r' => r' == r | _ => false

/-- The life-cycle edges an element of each kind may take. -/
inductive Legal : Kind → St → St → Prop
  /-- the start trigger fired -/
  | start {k} : Legal k .standby .start
  | running {k} : Legal k .start .running
  | finish {k} : Legal k .running .end
  | again {k} : Legal k .end .standby
  | done {k} : Legal k .end .complete
  /-- stop trigger or override while executing -/
  | stopRunning {k} : Legal k .running .stop
  /-- an already complete element is stopped together with its parent or siblings -/
  | stopComplete {k} : Legal k .complete .stop
  | stopped {k} : Legal k .stop .complete
  /-- only skip events: the start was vetoed -/
  | veto : Legal .event .start .standby
  /-- only override events: the starting event overrides itself together with its siblings … -/
  | selfStop : Legal .event .start .stop
  /-- … and resumes at once -/
  | selfResume : Legal .event .stop .running
  /-- a new execution of the parent restarts its children -/
  | restartAction : Legal .action .complete .start
  | restartManeuver : Legal .maneuver .complete .start

/-- The elements of kind `k` evaluated so far, oldest first. -/
def visits (k : Kind) (l : Log) : List Ref :=
  l.reverse.filterMap fun | .visit r => if r.kind = k then some r else none | _ => none

/-- `Before l x l'`: entry `x` occurs in the log `l` and `l'` is the log up to just before `x`. -/
def Before (l : Log) (x : Entry) (l' : Log) : Prop := ∃ later, l = later ++ x :: l'

end Verif.Storyboard
