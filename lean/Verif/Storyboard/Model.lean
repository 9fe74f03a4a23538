/-
Model of the storyboard interpreter of openscenario_interpreter.

Abbreviations used in citations (all below /repo/openscenario/openscenario_interpreter):
  SE  = include/openscenario_interpreter/syntax/storyboard_element.hpp
  EV  = src/syntax/event.cpp            MA = src/syntax/maneuver.cpp
  MG  = src/syntax/maneuver_group.cpp   AC = src/syntax/act.cpp
  ST  = src/syntax/story.cpp            SB = src/syntax/storyboard.cpp
  AN  = src/syntax/action.cpp           IA = src/syntax/init_actions.cpp

General simplifications.
* C++ storyboard elements are heap objects. The tree (who is whose child, priorities,
  maximum execution counts) never changes after construction and is the static data below; the
  mutable fields `current_state`, `current_execution_count`, `overridden` live in a heap `World`
  indexed by element references.
* Everything outside the storyboard (simulator, conditions, concrete actions) is an environment
  `Env` whose answers are arbitrary functions of the complete log of what the storyboard did so far.
* Exceptions thrown by an action or a condition end the scenario and are not modelled here
  (see `Verif.Interpreter`); the only `throw` of the state machine itself (`skipTransition`, SE:319)
  is modelled by leaving the world unchanged and is proved unreachable.
-/
namespace Verif.Storyboard

/-- `StoryboardElementState::value_type`,
include/openscenario_interpreter/syntax/storyboard_element_state.hpp. -/
inductive St where
  | standby | start | running | «end» | complete | skip | stop
deriving DecidableEq, Repr

/-- The classes deriving from `StoryboardElement`. -/
inductive Kind where
  | board | init | story | act | group | maneuver | event | action
deriving DecidableEq, Repr

/-- A reference to a heap object. -/
structure Ref where
  kind : Kind
  id : Nat
deriving DecidableEq, Repr

/-- `Priority`, include/openscenario_interpreter/syntax/priority.hpp. -/
inductive Priority where
  | override | parallel | skip
deriving DecidableEq, Repr

/-- An `Event`: identity, `maximumExecutionCount`, `priority`, its `Action`s (EV:24-44). -/
structure Event where
  id : Nat
  max : Nat
  priority : Priority
  actions : List Nat
deriving DecidableEq, Repr

/-- A `Maneuver`: identity and its `Event`s (MA:24-31). -/
structure Maneuver where
  id : Nat
  events : List Event
deriving DecidableEq, Repr

/-- A `ManeuverGroup`: identity, `maximumExecutionCount` (default 0, MG:27), `Maneuver`s (MG:24-37). -/
structure Group where
  id : Nat
  max : Nat
  maneuvers : List Maneuver
deriving DecidableEq, Repr

/-- An `Act` (AC:24-33). -/
structure Act where
  id : Nat
  groups : List Group
deriving DecidableEq, Repr

/-- A `Story` (ST:26-36). -/
structure Story where
  id : Nat
  acts : List Act
deriving DecidableEq, Repr

/-- The `Storyboard`: its `InitActions` element and its `Story`s (SB:30-44). -/
structure Board where
  id : Nat
  init : Nat
  stories : List Story
deriving DecidableEq, Repr

def Event.ref (e : Event) : Ref := ⟨.event, e.id⟩
def Maneuver.ref (m : Maneuver) : Ref := ⟨.maneuver, m.id⟩
def Group.ref (g : Group) : Ref := ⟨.group, g.id⟩
def Act.ref (a : Act) : Ref := ⟨.act, a.id⟩
def Story.ref (s : Story) : Ref := ⟨.story, s.id⟩
def Board.ref (b : Board) : Ref := ⟨.board, b.id⟩
def Board.initRef (b : Board) : Ref := ⟨.init, b.init⟩
/-- The reference of an `Action`. -/
def actionRef (a : Nat) : Ref := ⟨.action, a⟩

/-- What an observer of the storyboard can see happening, plus the book-keeping entries
`visit` (a call of `evaluate()`) and `frame` (a new frame begins). -/
inductive Entry where
  /-- `transitionTo` changed the state of an element (callbacks are run here, SE:179-186). -/
  | trans (r : Ref) (src dst : St)
  /-- the concrete action behind an `Action` (or `InitActions`) was started. -/
  | startAction (r : Ref)
  /-- the concrete action behind an `Action` (or `InitActions`) was run for one frame. -/
  | runAction (r : Ref)
  /-- the start trigger of an element was evaluated. -/
  | startTrigger (r : Ref)
  /-- the stop trigger of an element was evaluated. -/
  | stopTrigger (r : Ref)
  /-- `evaluate()` of an element was called. -/
  | visit (r : Ref)
  /-- a new simulation frame begins. -/
  | frame
deriving DecidableEq, Repr

/-- Newest entry first. -/
abbrev Log := List Entry

/-- The heap and the log. `cnt` is `current_execution_count` (SE:43), `st` is `current_state`
(SE:45), `ovr` is `Action::overridden` (include/.../syntax/action.hpp:43). -/
structure World where
  st : Ref → St
  cnt : Ref → Nat
  ovr : Ref → Bool
  log : Log

/-- The state right after construction (SE:39-49). -/
def World.initial : World :=
  { st := fun _ => .standby, cnt := fun _ => 0, ovr := fun _ => false, log := [] }

/-- The environment: values of start/stop triggers and completion of concrete actions, as arbitrary
functions of the history. -/
structure Env where
  startTrigger : Ref → Log → Bool
  stopTrigger : Ref → Log → Bool
  accomplished : Ref → Log → Bool

def World.emit (w : World) (e : Entry) : World := { w with log := e :: w.log }

/-- `StoryboardElement::transitionTo`, SE:179-186. The callbacks registered with
`addTransitionCallback` are: the veto of skip events (modelled in `dispatch`) and those of
`StoryboardElementStateCondition`, which only store the observed state (modelled by the log entry). -/
def World.goto (w : World) (r : Ref) (s : St) : World :=
  { w with
    st := fun r' => if r' = r then s else w.st r'
    log := .trans r (w.st r) s :: w.log }

def World.setCnt (w : World) (r : Ref) (n : Nat) : World :=
  { w with cnt := fun r' => if r' = r then n else w.cnt r' }

/-- `StoryboardElement::override`, SE:89-97. -/
def World.override (w : World) (r : Ref) : World :=
  if w.st r ≠ .standby ∧ w.st r ≠ .stop then w.goto r .stop else w

/-- The virtual members and triggers of one `StoryboardElement` object. -/
structure Hooks where
  ref : Ref
  /-- `maximum_execution_count`, SE:41 -/
  max : Nat
  /-- `stop_trigger.evaluate()` -/
  stopTrigger : World → Bool × World
  /-- `start_trigger.evaluate()` -/
  startTrigger : World → Bool × World
  /-- the callback of skip events (EV:37-43): does it move the event back to standby? -/
  veto : World → Bool
  start : World → World
  run : World → World
  stop : World → World
  accomplished : World → Bool

/-- Termination measure of the `dispatch` loop: `m` executions left, current state `s`. -/
def fuel (m : Nat) : St → Nat
  | .standby => if m = 0 then 5 else 4 * m + 1
  | .start => if m = 0 then 4 else 4 * m
  | .running => 4 * m + 3
  | .end => 4 * m + 2
  | .complete => 0
  | .skip => 0
  | .stop => 1

/-- The loop from label `dispatch` in `StoryboardElement::evaluate`, SE:199-343. `s` is the state
read by the `switch` (the value just written by `transitionTo`), `n` is `current_execution_count`
(passed along: no hook of an element changes the count of that same element). -/
def dispatch (h : Hooks) (s : St) (n : Nat) (w : World) : World :=
  match s with
  | .standby =>  -- SE:211-215
    let (t, w) := h.startTrigger w
    if t then
      let w := w.goto h.ref .start
      if h.veto w then
        w.goto h.ref .standby
      else
        dispatch h .start n w
    else
      w
  | .start =>  -- SE:224-226
    let w := h.start w
    let w := w.goto h.ref .running
    let w := w.setCnt h.ref (n + 1)
    dispatch h .running (n + 1) w
  | .running =>  -- SE:267-272
    let w := h.run w
    if h.accomplished w then
      dispatch h .end n (w.goto h.ref .end)
    else
      w
  | .end =>  -- SE:284-286
    if n < h.max then
      dispatch h .standby n (w.goto h.ref .standby)
    else
      dispatch h .complete n (w.goto h.ref .complete)
  | .complete => w  -- SE:309
  | .skip => w  -- SE:319 (throws; unreachable)
  | .stop =>  -- SE:336-341
    let w := if h.accomplished w then w else h.stop w
    dispatch h .complete n (w.goto h.ref .complete)
termination_by fuel (h.max - n) s
decreasing_by
  all_goals simp only [fuel]
  all_goals (try split) <;> (try split) <;> omega

/-- `StoryboardElement::evaluate`, SE:188-343. -/
def evaluate (h : Hooks) (w : World) : World :=
  let w := w.emit (.visit h.ref)
  let (t, w) := h.stopTrigger w
  let w := if t then w.override h.ref else w
  dispatch h (w.st h.ref) (w.cnt h.ref) w

/-- Default start trigger `Trigger{{ConditionGroup()}}`, always true (SE:49, trigger.cpp:29-47). -/
def truthy (w : World) : Bool × World := (true, w)
/-- Default stop trigger `Trigger()`, always false (SE:39, trigger.cpp:29-47). -/
def falsy (w : World) : Bool × World := (false, w)

/-- Default `StoryboardElement::accomplished`, SE:100-107. -/
def allComplete (cs : List Ref) (w : World) : Bool := cs.all fun c => w.st c == .complete

/-- One iteration of the default `StoryboardElement::stop`, SE:119-126. -/
def overrideThen (r : Ref) (ev : World → World) (w : World) : World := ev (w.override r)

/-! ### Action -/

/-- `Action`, AN:36-60; `ComplexType::accomplished/run/start` are the environment. -/
def actionHooks (env : Env) (a : Nat) : Hooks where
  ref := actionRef a
  max := 1
  stopTrigger := falsy
  startTrigger := truthy
  veto := fun _ => false
  start := fun w => w.emit (.startAction (actionRef a))
  run := fun w => w.emit (.runAction (actionRef a))
  stop := fun w =>
    if w.ovr (actionRef a) then
      { w with st := fun r => if r = actionRef a then .complete else w.st r }
    else
      { w with ovr := fun r => if r = actionRef a then true else w.ovr r }
  accomplished := fun w => env.accomplished (actionRef a) w.log

def evalAction (env : Env) (a : Nat) (w : World) : World := evaluate (actionHooks env a) w

/-! ### Event -/

/-- `Maneuver::overrideEvents`, MA:47-53. -/
def overrideEvents (es : List Event) (w : World) : World :=
  es.foldl (fun w e => w.override e.ref) w

/-- `Maneuver::running_events_count() > 0`, MA:55-65. -/
def someEventRunning (es : List Event) (w : World) : Bool :=
  es.any fun e => w.st e.ref == .running

/-- The loop of `Event::start` / `ManeuverGroup::start` forcing children to startTransition
(EV:52-56, MG:55-59). -/
def forceStart (cs : List Ref) (w : World) : World :=
  cs.foldl (fun w c => w.goto c .start) w

/-- `Event`, EV:24-68. `siblings` are all events of the parent maneuver (including this one). -/
def eventHooks (env : Env) (siblings : List Event) (e : Event) : Hooks where
  ref := e.ref
  max := e.max
  stopTrigger := falsy
  startTrigger := fun w => (env.startTrigger e.ref w.log, w.emit (.startTrigger e.ref))
  veto := fun w => e.priority == .skip && someEventRunning siblings w
  start := fun w =>
    let w := if e.priority = .override then overrideEvents siblings w else w
    forceStart (e.actions.map actionRef) w
  run := fun w => e.actions.foldl (fun w a => evalAction env a w) w
  stop := fun w => e.actions.foldl (fun w a => overrideThen (actionRef a) (evalAction env a) w) w
  accomplished := allComplete (e.actions.map actionRef)

def evalEvent (env : Env) (siblings : List Event) (e : Event) (w : World) : World :=
  evaluate (eventHooks env siblings e) w

/-! ### Maneuver -/

/-- `Maneuver`, MA:24-45. -/
def maneuverHooks (env : Env) (m : Maneuver) : Hooks where
  ref := m.ref
  max := 1
  stopTrigger := falsy
  startTrigger := truthy
  veto := fun _ => false
  start := id
  run := fun w => m.events.foldl (fun w e => evalEvent env m.events e w) w
  stop := fun w => m.events.foldl (fun w e => overrideThen e.ref (evalEvent env m.events e) w) w
  accomplished := allComplete (m.events.map Event.ref)

def evalManeuver (env : Env) (m : Maneuver) (w : World) : World :=
  evaluate (maneuverHooks env m) w

/-! ### ManeuverGroup -/

/-- `ManeuverGroup`, MG:24-60. -/
def groupHooks (env : Env) (g : Group) : Hooks where
  ref := g.ref
  max := g.max
  stopTrigger := falsy
  startTrigger := truthy
  veto := fun _ => false
  start := forceStart (g.maneuvers.map Maneuver.ref)
  run := fun w => g.maneuvers.foldl (fun w m => evalManeuver env m w) w
  stop := fun w => g.maneuvers.foldl (fun w m => overrideThen m.ref (evalManeuver env m) w) w
  accomplished := allComplete (g.maneuvers.map Maneuver.ref)

def evalGroup (env : Env) (g : Group) (w : World) : World := evaluate (groupHooks env g) w

/-! ### Act -/

/-- `Act`, AC:24-47. -/
def actHooks (env : Env) (a : Act) : Hooks where
  ref := a.ref
  max := 1
  stopTrigger := fun w => (env.stopTrigger a.ref w.log, w.emit (.stopTrigger a.ref))
  startTrigger := fun w => (env.startTrigger a.ref w.log, w.emit (.startTrigger a.ref))
  veto := fun _ => false
  start := id
  run := fun w => a.groups.foldl (fun w g => evalGroup env g w) w
  stop := fun w => a.groups.foldl (fun w g => overrideThen g.ref (evalGroup env g) w) w
  accomplished := allComplete (a.groups.map Group.ref)

def evalAct (env : Env) (a : Act) (w : World) : World := evaluate (actHooks env a) w

/-! ### Story -/

/-- `Story`, ST:26-50. -/
def storyHooks (env : Env) (s : Story) : Hooks where
  ref := s.ref
  max := 1
  stopTrigger := falsy
  startTrigger := truthy
  veto := fun _ => false
  start := id
  run := fun w => s.acts.foldl (fun w a => evalAct env a w) w
  stop := fun w => s.acts.foldl (fun w a => overrideThen a.ref (evalAct env a) w) w
  accomplished := allComplete (s.acts.map Act.ref)

def evalStory (env : Env) (s : Story) (w : World) : World := evaluate (storyHooks env s) w

/-! ### InitActions and Storyboard -/

/-- `InitActions`, IA:45-85. Its `elements` list is empty (children are kept in three other lists),
so `stop` does nothing; its non-instantaneous actions are one environment action. -/
def initHooks (env : Env) (b : Board) : Hooks where
  ref := b.initRef
  max := 1
  stopTrigger := falsy
  startTrigger := truthy
  veto := fun _ => false
  start := fun w => w.emit (.startAction b.initRef)
  run := fun w => w.emit (.runAction b.initRef)
  stop := id
  accomplished := fun w => env.accomplished b.initRef w.log

def evalInit (env : Env) (b : Board) (w : World) : World := evaluate (initHooks env b) w

/-- `Storyboard`, SB:30-59; `elements` are the InitActions followed by the stories (SB:35-38). -/
def boardHooks (env : Env) (b : Board) : Hooks where
  ref := b.ref
  max := 1
  stopTrigger := fun w => (env.stopTrigger b.ref w.log, w.emit (.stopTrigger b.ref))
  startTrigger := truthy
  veto := fun _ => false
  start := id
  run := fun w => b.stories.foldl (fun w s => evalStory env s w) (evalInit env b w)
  stop := fun w =>
    b.stories.foldl (fun w s => overrideThen s.ref (evalStory env s) w)
      (overrideThen b.initRef (evalInit env b) w)
  accomplished := allComplete (b.initRef :: b.stories.map Story.ref)

def evalBoard (env : Env) (b : Board) (w : World) : World := evaluate (boardHooks env b) w

/-- One simulation frame: `ScenarioDefinition::evaluate` evaluates the storyboard once
(src/syntax/scenario_definition.cpp:32-40). -/
def frame (env : Env) (b : Board) (w : World) : World := evalBoard env b (w.emit .frame)

/-- The world after `n` frames. -/
def runFrames (env : Env) (b : Board) : Nat → World
  | 0 => World.initial
  | n + 1 => frame env b (runFrames env b n)

end Verif.Storyboard
