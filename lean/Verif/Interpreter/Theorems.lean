import Verif.Interpreter.Model
import Verif.Preprocessor.Theorems
/-
C43: verdicts of scenarios. C55: what the result checker reports.
-/
namespace Verif.Interpreter

/-! ### Specification -/

/-- The verdict a scenario is to get when it ends with an exception. -/
def expected : Exc → Verdict
  | .exitSuccess => .pass
  | .exitFailure => .failure "SimulationFailure"
  | .autoware => .error "AutowareError"
  | .semantic => .error "SemanticError"
  | .simulation => .error "SimulationError"
  | .syntax => .error "SyntaxError"
  | .specification => .error "InternalError"
  | .standard => .error "InternalError"
  | .foreign => .error "UnknownError"

/-- How a scenario ends: the first exception while configuring, activating or in a frame within the time limit;
`none` if the time is over before. -/
def ending (b : Behaviour) : Option Exc :=
  match b.configure with
  | some e => some e
  | none => match b.activate with
    | some e => some e
    | none => b.frames.findSome? id

/-- The records a scenario is to add. -/
def verdicts (path : String) (b : Behaviour) : List Record := ((ending b).map (fun e => (path, expected e))).toList

/-! ### C43 -/

/-- C43, the classification: every exception gets its verdict; a pass only for exit-success, a failure only for
exit-failure, an error for everything else; none escapes. -/
theorem C43_classification (e : Exc) : caught e = some (expected e) ∧
    (expected e = .pass ↔ e = .exitSuccess) ∧ ((∃ t, expected e = .failure t) ↔ e = .exitFailure) := by
  cases e <;> refine ⟨by decide, by decide, ?_⟩ <;> simp [expected]

/-- What is always true of a node. -/
structure Inv (n : Node) : Prop where
  active : n.life = .active ↔ n.timer = true
  scenario : n.life = .active → n.scenarios = 1
  le : n.scenarios ≤ 1
  core : n.core = true ↔ n.life = .active
  rest : n.life = .unconfigured → n.scenarios = 0

theorem inv_new (f : Option (List Record)) : Inv (.new f) :=
  ⟨by simp [Node.new], by simp [Node.new], by simp [Node.new], by simp [Node.new], by simp [Node.new]⟩

theorem handle_eq (n : Node) (e : Exc) (k : Node → Option Node) : n.handle e k = k (n.set (expected e)) := by
  simp only [Node.handle, (C43_classification e).1]

/-- One step: it is defined, keeps the invariant, and adds at most one record, for the scenario configured last, and
only if there is one that has no verdict yet. -/
theorem step_spec (n : Node) (h : Inv n) (o : Op) : ∃ n', step n o = some n' ∧ Inv n' ∧
    ∃ r : List Record, n'.records = n.records ++ r ∧ (∀ x ∈ r, x.1 = n'.path) ∧
      (match o with
       | .configure _ _ => n.life = .unconfigured → r.length + n'.scenarios ≤ 1 ∨ (r.length = 1 ∧ n'.scenarios = n.scenarios)
       | _ => r.length + n'.scenarios ≤ n.scenarios ∧ n'.path = n.path) := by
  obtain ⟨h1, h2, h3, h4, h5⟩ := h
  cases o with
  | configure p o =>
    simp only [step]
    by_cases hl : n.life = .unconfigured
    · rw [if_pos hl]
      have ht : n.timer = false := by
        cases ht : n.timer with
        | false => rfl
        | true => rw [h1.mpr ht] at hl; cases hl
      have hc : n.core = false := by
        cases ht : n.core with
        | false => rfl
        | true => rw [h4.mp ht] at hl; cases hl
      cases o with
      | none =>
        exact ⟨_, rfl, ⟨by simp [ht], by simp, by simp, by simp [hc], by simp⟩, [], by simp, by simp, by simp⟩
      | some e =>
        simp only [handle_eq]
        refine ⟨_, rfl, ⟨by simp [Node.set, hl, ht], by simp [Node.set, hl], by simpa [Node.set] using h3,
          by simp [Node.set, hc, hl], by simpa [Node.set] using h5⟩, [(p, expected e)], by simp [Node.set], by simp [Node.set], ?_⟩
        intro _; exact .inr ⟨rfl, rfl⟩
    · rw [if_neg hl]
      exact ⟨n, rfl, ⟨h1, h2, h3, h4, h5⟩, [], by simp, by simp, fun h => absurd h hl⟩
  | activate o =>
    simp only [step]
    by_cases hl : n.life = .inactive
    · rw [if_pos hl]
      by_cases hs : n.scenarios = 0
      · rw [if_pos hs]
        exact ⟨n, rfl, ⟨h1, h2, h3, h4, h5⟩, [], by simp, by simp, by simp⟩
      · rw [if_neg hs]
        have hs1 : n.scenarios = 1 := by omega
        have hc : n.core = false := by
          cases ht : n.core with
          | false => rfl
          | true => rw [h4.mp ht] at hl; cases hl
        have ht : n.timer = false := by
          cases ht : n.timer with
          | false => rfl
          | true => rw [h1.mpr ht] at hl; cases hl
        rw [hc]
        cases o with
        | none =>
          exact ⟨_, rfl, ⟨by simp, by simp [hs1], by simp [hs1], by simp, by simp⟩, [], by simp, by simp, by simp⟩
        | some e =>
          simp only [Bool.false_eq_true, if_false, handle_eq, Node.reset, Node.set, hs1]
          exact ⟨_, rfl, ⟨by simp [hl], by simp [hl], by simp, by simp [hl], by simp [hl]⟩, [(n.path, expected e)], by simp, by simp, by simp⟩
    · rw [if_neg hl]
      exact ⟨n, rfl, ⟨h1, h2, h3, h4, h5⟩, [], by simp, by simp, by simp⟩
  | frame o =>
    simp only [step]
    cases ht : n.timer with
    | false => exact ⟨n, rfl, ⟨h1, h2, h3, h4, h5⟩, [], by simp, by simp, by simp⟩
    | true =>
      have hs := h2 (h1.mpr ht)
      cases o with
      | none => exact ⟨n, rfl, ⟨h1, h2, h3, h4, h5⟩, [], by simp, by simp, by simp⟩
      | some e =>
        simp only [if_true, handle_eq, Node.reset, Node.set, hs]
        exact ⟨_, rfl, ⟨by simp, by simp, by simp, by simp, by simp⟩, [(n.path, expected e)], by simp, by simp, by simp⟩
  | deactivate =>
    simp only [step]
    by_cases hl : n.life = .active
    · have hs := h2 hl
      simp only [if_pos hl, Node.reset, hs]
      exact ⟨_, rfl, ⟨by simp, by simp, by simp, by simp, by simp⟩, [], by simp, by simp, by simp⟩
    · rw [if_neg hl]
      exact ⟨n, rfl, ⟨h1, h2, h3, h4, h5⟩, [], by simp, by simp, by simp⟩
  | cleanup =>
    simp only [step]
    by_cases hl : n.life = .inactive
    · have hc : n.core = false := by
        cases ht : n.core with
        | false => rfl
        | true => rw [h4.mp ht] at hl; cases hl
      have ht : n.timer = false := by
        cases ht : n.timer with
        | false => rfl
        | true => rw [h1.mpr ht] at hl; cases hl
      rw [if_pos hl]
      exact ⟨_, rfl, ⟨by simp [ht], by simp, by simp, by simp [hc], by simp⟩, [], by simp, by simp, by simp⟩
    · rw [if_neg hl]
      exact ⟨n, rfl, ⟨h1, h2, h3, h4, h5⟩, [], by simp, by simp, by simp⟩
  | shutdown =>
    exact ⟨_, rfl, ⟨by simp, by simp, by simp, by simp, by simp⟩, [], by simp, by simp, by simp⟩

theorem run_inv (n : Node) (h : Inv n) (l : List Op) : ∃ n', run n l = some n' ∧ Inv n' := by
  induction l generalizing n with
  | nil => exact ⟨n, rfl, h⟩
  | cons o l ih =>
    obtain ⟨n', e, h', _⟩ := step_spec n h o
    simp only [run, e, Option.bind_some]
    exact ih n' h'

/-- C43: no sequence of requests and outcomes makes the node take a scenario from an empty list or lets an exception
escape. -/
theorem C43_defined (f : Option (List Record)) (l : List Op) : (run (.new f) l).isSome = true := by
  obtain ⟨n', e, _⟩ := run_inv (.new f) (inv_new f) l
  rw [e]; rfl

/-- Not a request to configure. -/
def isConfigure : Op → Bool
  | .configure _ _ => true
  | _ => false

theorem run_quiet (l : List Op) (hl : l.all (fun o => !isConfigure o) = true) : ∀ (n : Node), Inv n → ∃ n', run n l = some n' ∧ Inv n' ∧
    ∃ r : List Record, n'.records = n.records ++ r ∧ (∀ x ∈ r, x.1 = n.path) ∧ r.length + n'.scenarios ≤ n.scenarios ∧
      n'.path = n.path := by
  induction l with
  | nil => intro n h; exact ⟨n, rfl, h, [], by simp, by simp, by simp, rfl⟩
  | cons o l ih =>
    intro n h
    simp only [List.all_cons, Bool.and_eq_true, Bool.not_eq_true'] at hl
    obtain ⟨n1, e1, i1, r1, a1, b1, c1⟩ := step_spec n h o
    obtain ⟨n2, e2, i2, r2, a2, b2, c2, d2⟩ := ih hl.2 n1 i1
    have hc : r1.length + n1.scenarios ≤ n.scenarios ∧ n1.path = n.path := by
      cases o with
      | configure _ _ => simp [isConfigure] at hl
      | _ => exact c1
    refine ⟨n2, by simp only [run, e1, Option.bind_some, e2], i2, r1 ++ r2, by rw [a2, a1, List.append_assoc], ?_, ?_, by rw [d2, hc.2]⟩
    · intro x hx
      rcases List.mem_append.mp hx with hx | hx
      · rw [b1 x hx, hc.2]
      · rw [b2 x hx, hc.2]
    · rw [List.length_append]; omega

/-- C43: at most one verdict is recorded per scenario. Whatever happened before, from one accepted request to configure to
the next at most one record is added, and it is for that scenario. -/
theorem C43_at_most_one (f : Option (List Record)) (past : List Op) (n : Node) (hn : run (.new f) past = some n)
    (hu : n.life = .unconfigured) (p : String) (o : Option Exc) (l : List Op)
    (hl : l.all (fun o => !isConfigure o) = true) :
    ∃ n' r, run n (.configure p o :: l) = some n' ∧ n'.records = n.records ++ r ∧ r.length ≤ 1 ∧ ∀ x ∈ r, x.1 = p := by
  obtain ⟨n0, e0, i0⟩ := run_inv (.new f) (inv_new f) past
  rw [hn] at e0
  cases e0
  obtain ⟨n1, e1, i1, r1, a1, b1, c1⟩ := step_spec n i0 (.configure p o)
  obtain ⟨n2, e2, i2, r2, a2, b2, c2, d2⟩ := run_quiet l hl n1 i1
  have hp : n1.path = p := by
    simp only [step, if_pos hu] at e1
    cases o with
    | none => cases e1; rfl
    | some e => simp only [handle_eq] at e1; cases e1; rfl
  refine ⟨n2, r1 ++ r2, by simp only [run, e1, Option.bind_some, e2], by rw [a2, a1, List.append_assoc], ?_, ?_⟩
  · rw [List.length_append]
    have := i0.rest hu
    rcases c1 hu with c | ⟨c, c'⟩ <;> omega
  · intro x hx
    rcases List.mem_append.mp hx with hx | hx
    · rw [b1 x hx, hp]
    · rw [b2 x hx, hp]

example : ∃ n, run (.new none) [.configure "a" none, .activate none, .frame none, .frame (some .exitSuccess), .frame none,
    .cleanup] = some n ∧ n.records = [("a", .pass)] ∧ n.life = .unconfigured ∧ n.scenarios = 0 :=
  ⟨_, rfl, by decide, by decide, by decide⟩

/-! The runner. -/

/-- The node is at rest between two scenarios. -/
def Idle (n : Node) : Prop := n.life = .unconfigured ∧ n.scenarios = 0 ∧ n.core = false ∧ n.timer = false

def finish (n : Node) (o : Option Exc) : Node :=
  match o with
  | none => { n with timer := false, core := false, scenarios := 0, life := .inactive }
  | some e => { n.set (expected e) with timer := false, core := false, scenarios := 0, life := .inactive }

theorem wait_inactive (n : Node) (h : n.life = .inactive) (fs : List (Option Exc)) : wait n fs = some n := by
  cases fs with
  | nil => simp [wait, step, h]
  | cons o l => simp [wait, h]

theorem wait_eq (n : Node) (h1 : n.life = .active) (h2 : n.scenarios = 1) (h3 : n.timer = true) (fs : List (Option Exc)) :
    wait n fs = some (finish n (fs.findSome? id)) := by
  induction fs with
  | nil => simp [wait, step, h1, Node.reset, h2, finish]
  | cons o l ih =>
    rw [wait, if_neg (by rw [h1]; decide)]
    cases o with
    | none => simpa [step, h3] using ih
    | some e =>
      simp only [step, h3, if_true, handle_eq, Node.reset, Node.set, h2, Option.map_some, Option.bind_some]
      rw [wait_inactive _ rfl]
      simp [finish, Node.set]

theorem runOne_eq (n : Node) (hn : Idle n) (p : String) (b : Behaviour) (more : List Behaviour) :
    ∃ n', runOne n p b more = some n' ∧ Idle n' ∧ n'.records = n.records ++ verdicts p b ∧
      n'.file = (if ending b = none then n.file else some n'.records) := by
  obtain ⟨h1, h2, h3, h4⟩ := hn
  unfold runOne
  cases hc : b.configure with
  | some e =>
    simp only [step, handle_eq, Option.bind_some, Node.set, if_pos h1]
    rw [if_neg (by simp [h1])]
    refine ⟨_, rfl, ⟨h1, h2, h3, h4⟩, ?_, ?_⟩ <;> simp [verdicts, ending, hc]
  | none =>
    simp only [step, if_pos h1, Option.bind_some]
    rw [if_neg (by simp)]
    cases ha : b.activate with
    | some e =>
      simp only [spin, step, ha, if_true, h3, handle_eq, Node.reset, Node.set]
      refine ⟨_, rfl, ⟨rfl, rfl, rfl, rfl⟩, ?_, ?_⟩ <;> simp [verdicts, ending, hc, ha]
    | none =>
      simp only [spin, step, ha, if_true, h3]
      rw [if_neg (by simp)]
      simp only [Bool.false_eq_true, if_false, Option.bind_some, if_true]
      rw [wait_eq _ rfl rfl rfl, Option.bind_some]
      have hspin : ∀ m : Node, m.life = .inactive → m.scenarios = 0 → spin m more = some m := by
        intro m a b
        cases more with
        | nil => rfl
        | cons x xs => simp [spin, step, a, b]
      cases hf : b.frames.findSome? id with
      | none =>
        rw [hspin _ rfl rfl]
        simp only [finish, Option.bind_some, if_true]
        refine ⟨_, rfl, ⟨rfl, rfl, rfl, rfl⟩, ?_, ?_⟩ <;> simp [verdicts, ending, hc, ha, hf]
      | some e =>
        rw [hspin _ rfl rfl]
        simp only [finish, Option.bind_some, if_true, Node.set]
        refine ⟨_, rfl, ⟨rfl, rfl, rfl, rfl⟩, ?_, ?_⟩ <;> simp [verdicts, ending, hc, ha, hf]

theorem idle_new (f : Option (List Record)) : Idle (.new f) := ⟨rfl, rfl, rfl, rfl⟩

/-- C43: running a scenario records exactly one verdict, the one that belongs to the way it ended, if it ends by itself
before the time limit; then the node is ready for the next. Missing: the verdict of a scenario that runs into the
time limit, see `C43_timeout_violated`. -/
theorem C43_one_verdict_partial (n : Node) (hn : Idle n) (p : String) (b : Behaviour) (more : List Behaviour) (e : Exc)
    (he : ending b = some e) :
    ∃ n', runOne n p b more = some n' ∧ Idle n' ∧ n'.records = n.records ++ [(p, expected e)] ∧ n'.file = some n'.records := by
  obtain ⟨n', h1, h2, h3, h4⟩ := runOne_eq n hn p b more
  refine ⟨n', h1, h2, ?_, ?_⟩
  · rw [h3, verdicts, he]; rfl
  · rw [h4, he]; rfl

example : ending ⟨none, none, [none, none, some .exitSuccess]⟩ = some .exitSuccess := rfl

/-- C43 is false for the time limit: a scenario that runs into it leaves no verdict, neither in the records nor in the file. -/
theorem C43_timeout_violated (n : Node) (hn : Idle n) (p : String) (b : Behaviour) (more : List Behaviour)
    (hb : ending b = none) :
    ∃ n', runOne n p b more = some n' ∧ n'.records = n.records ∧ n'.file = n.file := by
  obtain ⟨n', h1, _, h3, h4⟩ := runOne_eq n hn p b more
  refine ⟨n', h1, ?_, ?_⟩
  · rw [h3, verdicts, hb]; simp
  · rw [h4, hb]; rfl

/-! ### C55 -/

open Preprocessor (Good)

theorem runAll_good (gs : List Given) (hg : ∀ g ∈ gs, Good g.file) : ∀ (s : Preprocessor.State) (n : Node), s.queue = [] → Idle n →
    ∃ n', runAll s n gs = some n' ∧ Idle n' ∧ n'.records = n.records ++ gs.flatMap (fun g => verdicts g.path g.behaviour) ∧
      n'.file = (if gs.all (fun g => (ending g.behaviour).isNone) then n.file else some n'.records) := by
  induction gs with
  | nil => intro s n hs hn; exact ⟨n, rfl, hn, by simp, by simp⟩
  | cons g gs ih =>
    intro s n hs hn
    have hstep : (Preprocessor.step s (.load g.path 30 g.file)).1 =
        { s with queue := [⟨g.path, 30, Preprocessor.override s.overrides g.file.declarations⟩] } := by
      simp only [Preprocessor.step, Preprocessor.preprocess_good _ _ _ _ (hg g (by simp)), hs, List.nil_append]
    obtain ⟨n1, a1, b1, c1, d1⟩ := runOne_eq n hn g.path g.behaviour []
    obtain ⟨n2, a2, b2, c2, d2⟩ := ih (fun g h => hg g (by simp [h])) { s with queue := [] } n1 rfl b1
    refine ⟨n2, ?_, b2, by rw [c2, c1, List.flatMap_cons, List.append_assoc], ?_⟩
    · simp only [runAll, hstep]
      simp only [List.length_cons, List.length_nil, deriveAll, Preprocessor.step, List.foldlM_cons, List.foldlM_nil, a1]
      exact a2
    · rw [d2, d1]
      by_cases h1 : gs.all (fun g => (ending g.behaviour).isNone) = true
      · rw [if_pos h1]
        have hz : gs.flatMap (fun g => verdicts g.path g.behaviour) = [] := by
          rw [List.flatMap_eq_nil_iff]
          intro x hx
          have := List.all_eq_true.mp h1 x hx
          rw [Option.isNone_iff_eq_none] at this
          simp [verdicts, this]
        cases he : ending g.behaviour with
        | none => rw [if_pos rfl, if_pos (by simp only [List.all_cons, he, h1]; rfl)]
        | some e =>
          rw [if_neg (by simp), if_neg (by simp [he]), c2, hz, List.append_nil]
      · rw [if_neg h1, if_neg (by rw [List.all_cons, Bool.and_eq_true]; exact fun h => h1 h.2)]

/-- C55, for scenarios the preprocessor accepts and that end by themselves: the checker reports success if and only if
every scenario given ended with exit-success (and has a recording). Missing: scenarios that run into the time limit
or are rejected by the preprocessor. -/
theorem C55_checker_partial (old : Option (List Record)) (bag : String → Bool) (gs : List Given) (hne : gs ≠ [])
    (hg : ∀ g ∈ gs, Good g.file) (he : ∀ g ∈ gs, ending g.behaviour ≠ none) :
    ∃ n, runAll .new (.new old) gs = some n ∧
      (check bag n.file = true ↔ ∀ g ∈ gs, ending g.behaviour = some .exitSuccess ∧ bag g.path = true) := by
  obtain ⟨n, h1, _, h3, h4⟩ := runAll_good gs hg .new (.new old) rfl (idle_new old)
  refine ⟨n, h1, ?_⟩
  have hall : ¬ gs.all (fun g => (ending g.behaviour).isNone) = true := by
    intro h
    obtain ⟨g, hgs⟩ := List.exists_mem_of_ne_nil gs hne
    have := List.all_eq_true.mp h g hgs
    rw [Option.isNone_iff_eq_none] at this
    exact he g hgs this
  rw [h4, if_neg hall, h3]
  simp only [check, List.all_eq_true, Bool.and_eq_true, decide_eq_true_eq]
  constructor
  · intro h g hgs
    cases hE : ending g.behaviour with
    | none => exact absurd hE (he g hgs)
    | some e =>
      have := h (g.path, expected e) (by
        simp only [Node.new, List.nil_append, List.mem_flatMap]
        exact ⟨g, hgs, by simp [verdicts, hE]⟩)
      exact ⟨by rw [(C43_classification e).2.1.mp this.1], this.2⟩
  · intro h x hx
    simp only [Node.new, List.nil_append, List.mem_flatMap] at hx
    obtain ⟨g, hgs, hx⟩ := hx
    obtain ⟨a, b⟩ := h g hgs
    simp only [verdicts, a, Option.map_some, Option.toList_some, List.mem_singleton] at hx
    subst hx
    exact ⟨rfl, b⟩

/-- C55: without any verdict and without an earlier result there is no success. -/
theorem C55_nothing_recorded (bag : String → Bool) (gs : List Given) (hg : ∀ g ∈ gs, Good g.file)
    (he : ∀ g ∈ gs, ending g.behaviour = none) :
    ∃ n, runAll .new (.new none) gs = some n ∧ check bag n.file = false := by
  obtain ⟨n, h1, _, _, h4⟩ := runAll_good gs hg .new (.new none) rfl (idle_new none)
  refine ⟨n, h1, ?_⟩
  rw [h4, if_pos (by rw [List.all_eq_true]; intro g hgs; rw [he g hgs]; rfl)]
  rfl

/-- A scenario that succeeds in its second frame, and one that does nothing until the time is over. -/
def good (p : String) : Given := ⟨p, Preprocessor.plainFile, ⟨none, none, [none, some .exitSuccess]⟩⟩
def hanging (p : String) : Given := ⟨p, Preprocessor.plainFile, ⟨none, none, [none, none, none]⟩⟩
def invalid (p : String) : Given := ⟨p, { Preprocessor.plainFile with valid := false }, ⟨none, none, []⟩⟩

example : (∀ g ∈ [good "a", good "b"], Good g.file) ∧ (∀ g ∈ [good "a", good "b"], ending g.behaviour ≠ none) := by decide

/-- C55 is false: with a scenario that runs into the time limit beside one that succeeds, the checker reports success. -/
theorem C55_timeout_violated : (runAll .new (.new none) [good "a", hanging "b"]).map (fun n => check (fun _ => true) n.file) = some true := by
  decide

/-- C55 is false: with a scenario that is not valid beside one that succeeds, the checker reports success. -/
theorem C55_invalid_violated : (runAll .new (.new none) [good "a", invalid "b"]).map (fun n => check (fun _ => true) n.file) = some true := by
  decide

/-- C55 is false: if the directory holds the result of an earlier, successful run, the checker reports success although
the only scenario of this run ran into the time limit. -/
theorem C55_stale_violated : (runAll .new (.new (some [("a", .pass)])) [hanging "a"]).map (fun n => check (fun _ => true) n.file) = some true := by
  decide

end Verif.Interpreter
