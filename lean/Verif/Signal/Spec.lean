import Verif.Signal.Model
import Verif.Light.Spec
/-
What the theorems about traffic signal controllers say, independently of the controller code.
-/
namespace Verif.Signal
open Light

variable {T : Type} [Time T]

/-- `e` lists the evaluations (positions in the list `ts` of evaluation times) at which a controller
with `n` phases of durations `dur` enters a phase: the first one, and after that the first at which
the duration of the phase entered last has elapsed. The `j`-th entry is to phase `j % n`. -/
structure Visits (n : Nat) (dur : Nat → T) (ts : List T) (e : List Nat) : Prop where
  first : e[0]? = some 0
  increasing : e.Pairwise (· < ·)
  bound : ∀ k ∈ e, k < ts.length
  /-- not left early -/
  leave : ∀ j a b x y, e[j]? = some a → e[j + 1]? = some b → ts[a]? = some x → ts[b]? = some y →
    Time.le (dur (j % n)) (Time.sub y x) = true
  /-- not left late -/
  stay : ∀ j a k x y, e[j]? = some a → a < k → (∀ b, e[j + 1]? = some b → k < b) →
    ts[a]? = some x → ts[k]? = some y → Time.le (dur (j % n)) (Time.sub y x) = false

/-- Operations that do not command controller `i` directly. -/
def Free (i : Nat) : Op T → Prop
  | .action j _ _ => j ≠ i
  | _ => True

/-- The times of the evaluations in a sequence of operations. -/
def tickTimes : List (Op T) → List T
  | [] => []
  | .tick t :: os => t :: tickTimes os
  | _ :: os => tickTimes os

/-- The latest phase change of controller `i` in a log (newest first): it went to `p` at `t`. -/
def LastEntry (i : Nat) (log : List (Event T)) (p : Option Nat) (t : T) : Prop :=
  ∃ newer older, log = newer ++ .entered i p t :: older ∧ ∀ q s, Event.entered i q s ∉ newer

/-- Controller `i` has not changed phase yet. -/
def NoEntry (i : Nat) (log : List (Event T)) : Prop := ∀ q s, Event.entered i q s ∉ log

/-- At time `t` controller `i`, which refers to controller `j` with delay `d`, has to begin: `j` last
began its first phase at some time `b` with `b + d < t`, and `i` was not evaluated after `b + d`
since. -/
def Due (i j : Nat) (d : T) (log : List (Event T)) (t : T) : Prop :=
  ∃ newer older b, log = newer ++ .entered j (some 0) b :: older ∧
    (∀ s, Event.entered j (some 0) s ∉ newer) ∧ Time.lt (Time.add b d) t = true ∧
    ∀ s, Event.evaluated i s ∈ newer → Time.lt (Time.add b d) s = false

/-- What follows the evaluation `evaluated i t` in the log: a change of controller `i` to `p`. -/
def Changes (newer : List (Event T)) (i : Nat) (p : Option Nat) (t : T) : Prop :=
  ∃ rest, newer = rest ++ [.entered i p t]

/-- … no change of controller `i` at this evaluation. -/
def NoChange (newer : List (Event T)) : Prop :=
  ∀ rest i p t, newer ≠ rest ++ [.entered i p t]

/-- The text describes a list of bulbs with `b` among them. -/
def Sets (s : Text) (b : Bulb) : Prop := ∃ bs, Describes s bs ∧ b ∈ bs

/-- The state is for the conventional light `k`. -/
def SignalState.forConv (m : RoadMap) (s : SignalState) (k : Id) : Prop :=
  s.channel = .conventional ∧ s.detected = false ∧ ∃ ids, m.lights s.id = some ids ∧ k ∈ ids

/-- The state is for the V2I light `k`, either because it says so or because it is for the
conventional light and the V2I feature is enabled for the id it names. -/
def SignalState.forV2I (m : RoadMap) (enabled : Id → Bool) (s : SignalState) (k : Id) : Prop :=
  s.detected = false ∧ (s.channel = .v2i ∨ enabled s.id = true) ∧ ∃ ids, m.lights s.id = some ids ∧ k ∈ ids

/-- The state is for the detected light `i` of the channel. -/
def SignalState.forDetected (s : SignalState) (c : Channel) (i : Id) : Prop :=
  s.channel = c ∧ s.detected = true ∧ s.id = i

/-- The `k`-th phase after phase `p`, cyclically. -/
def after (n p k : Nat) : Nat := (p + k) % n

/-- The start of the `k+1`-th following phase, if the first one starts at `t`. -/
def startOf (n : Nat) (dur : Nat → T) (p : Nat) (t : T) : Nat → T
  | 0 => t
  | k + 1 => Time.add (startOf n dur p t k) (dur (after n p (k + 1)))

/-- The cycle time computed for phases of these durations: their sum, every partial sum converted to an
integer (`toInt`). -/
inductive CycleTime : List T → Int → Prop
  | nil : CycleTime [] 0
  | snoc {ds : List T} {d : T} {c c' : Int} : CycleTime ds c → Time.toInt (Time.add (Time.ofInt c) d) = some c' →
      CycleTime (ds ++ [d]) c'

/-- Why the list of predictions ends after `k` of them. -/
def Ends (phases : List (Phase T)) (dur : Nat → T) (p : Nat) (t : T) (k : Nat) : Prop :=
  Time.isInf (startOf phases.length dur p t k) = true ∨
  Time.isInf (dur (after phases.length p (k + 1))) = true ∨
  (k = 0 ∧ ∃ c, CycleTime (phases.map (·.duration)) c ∧ Time.lt (Time.ofInt c) t = true)

/-- The states a phase predicts for the V2I light `id`: those it declares for the V2I channel or, if
there are none and the V2I feature is enabled, those it declares for the conventional channel. -/
def declared (enabled : Id → Bool) (p : Phase T) (id : Id) : List Text :=
  let v := p.states.filter fun s => s.channel = .v2i ∧ s.id = id
  if v ≠ [] then v.map (·.state)
  else if enabled id then (p.states.filter fun s => s.channel = .conventional ∧ s.id = id).map (·.state)
  else []

/-- The states predicted for `id` during the `c`-th phase after phase `p`: those of the latest of
these `c` phases that declares some. -/
def inEffect (enabled : Id → Bool) (phases : List (Phase T)) (p : Nat) : Nat → Id → List Text
  | 0, _ => []
  | c + 1, id =>
    match phases[after phases.length p (c + 1)]? with
    | none => []
    | some ph => if declared enabled ph id ≠ [] then declared enabled ph id else inEffect enabled phases p c id

end Verif.Signal
