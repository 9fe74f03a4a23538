import Verif.Storyboard.Visits
/-
C01-C08: the storyboard properties. `runFrames env b n` is the world after `n` frames of storyboard
`b`; `env` decides every trigger value and every action completion as an arbitrary function of the
whole history. Statements are about the log of observable transitions (`Spec.lean`).
-/
namespace Verif.Storyboard

variable {b : Board}

theorem before_of_mem {l : Log} {x : Entry} (h : x ∈ l) : ∃ l', Before l x l' := by
  obtain ⟨s, t, h⟩ := List.append_of_mem h
  exact ⟨t, s, h⟩

/-! ### A concrete scenario used for the non-vacuity examples -/

/-- Event 0 runs two actions, event 1 overrides, event 2 skips. -/
def exE0 : Event := ⟨0, 2, .parallel, [0, 1]⟩
def exE1 : Event := ⟨1, 1, .override, [2]⟩
def exE2 : Event := ⟨2, 1, .skip, [3]⟩
def exM : Maneuver := ⟨0, [exE0, exE1, exE2]⟩
def exG : Group := ⟨0, 1, [exM]⟩
def exA : Act := ⟨0, [exG]⟩
def exS : Story := ⟨0, [exA]⟩
def exB : Board := ⟨0, 0, [exS]⟩

/-- How many frames have begun. -/
def frames (l : Log) : Nat := l.countP (· == .frame)

/-- Event 0 starts at once, event 1 in frame 2, event 2 tries in every frame; actions finish in
frame 3. -/
def exEnv : Env where
  startTrigger r l := r != exE1.ref || frames l ≥ 2
  stopTrigger _ _ := false
  accomplished _ l := frames l ≥ 3

theorem Legal.not_skip {k : Kind} {s d : St} (h : Legal k s d) : d ≠ .skip := by
  cases h <;> decide

/-! ### C01 -/

/-- **C01.** Every state change of every element is a life-cycle edge starting from the state the
element was last seen in. -/
theorem C01_life_cycle (wf : b.WF) (env : Env) (n : Nat) {r : Ref} {s d : St} {l : Log}
    (h : Before (runFrames env b n).log (.trans r s d) l) :
    s = lastState r l ∧ Legal r.kind s d := by
  have := (runFrames_inv wf env n).wi.good.before h
  exact ⟨this.src, this.legal⟩

/-- **C01.** The state an element is in is the one its last observed transition led to (so there are
no silent state changes), and it is never `skipTransition`. -/
theorem C01_no_silent_change (wf : b.WF) (env : Env) (n : Nat) (r : Ref) :
    (runFrames env b n).st r = lastState r (runFrames env b n).log ∧
    (runFrames env b n).st r ≠ .skip := by
  have hI := (runFrames_inv wf env n).wi
  refine ⟨hI.coh r, ?_⟩
  rw [hI.coh r]
  have key : ∀ l, Good b l → lastState r l ≠ .skip := by
    intro l
    induction l with
    | nil => intro _ h; simp [lastState] at h
    | cons x l ih =>
      intro hg
      cases x with
      | trans r' s d =>
        rw [lastState]
        split
        · exact hg.1.legal.not_skip
        · exact ih hg.2
      | _ => exact ih hg.2
  exact key _ hI.good

example : exB.WF ∧ ∃ l, Before (runFrames exEnv exB 2).log (.trans exE1.ref .start .stop) l :=
  ⟨by decide, before_of_mem (by decide +kernel)⟩

/-! ### C02 -/

theorem EvRest.counts {e : Event} {w : World} (h : EvRest e w) :
    w.cnt e.ref ≤ max 1 e.max ∧ ∀ a ∈ e.actions, w.cnt (actionRef a) = w.cnt e.ref := by
  have ok := h.ok
  rcases h.state with hs | hs | hs | hs <;> rw [hs] at ok
  · exact ⟨by rcases ok.1 with h | h <;> omega, fun a ha => (ok.2 a ha).2.2⟩
  · refine ⟨ok.1.2, fun a ha => ?_⟩
    rcases (ok.2 a ha).2 with h' | h'
    · exact absurd h'.1 (h.actions a ha)
    · exact h'.2
  · exact ⟨ok.1.2, fun a ha => (ok.2 a ha).2⟩
  · exact ⟨ok.1.2, fun a ha => (ok.2.1 a ha).2⟩

/-- **C02.** An event is executed at most `max 1 maximumExecutionCount` times, and at every frame
boundary each of its actions has been started exactly as often as the event was executed. -/
theorem C02_execution_bound (wf : b.WF) (env : Env) (n : Nat) {e : Event} (he : e ∈ b.events) :
    executions e.ref (runFrames env b n).log ≤ max 1 e.max ∧
    ∀ a ∈ e.actions, starts (actionRef a) (runFrames env b n).log =
      executions e.ref (runFrames env b n).log := by
  have hF := runFrames_inv wf env n
  obtain ⟨h1, h2⟩ := (hF.ge e he).counts
  rw [hF.wi.cnt] at h1
  refine ⟨h1, fun a ha => ?_⟩
  rw [hF.wi.starts, h2 a ha, hF.wi.cnt]

/-- **C02.** Also in the middle of a frame no action has been started more often than allowed. -/
theorem C02_starts_bound (wf : b.WF) (env : Env) (n : Nat) {e : Event} (he : e ∈ b.events) {a : Nat}
    (ha : a ∈ e.actions) {l later : Log} (hl : (runFrames env b n).log = later ++ l) :
    starts (actionRef a) l ≤ max 1 e.max := by
  obtain ⟨h1, h2⟩ := C02_execution_bound wf env n he
  have := h2 a ha
  rw [hl] at this h1
  have hle : starts (actionRef a) l ≤ starts (actionRef a) (later ++ l) := by
    unfold starts; rw [List.countP_append]; omega
  omega

/-- The bound is reached: event 0 (maximumExecutionCount 2) is executed twice. -/
example : exE0 ∈ exB.events ∧
    executions exE0.ref (runFrames ⟨fun _ _ => true, fun _ _ => false, fun _ _ => true⟩ exB 2).log = 2 :=
  by decide +kernel

/-- The bound cannot be improved to `maximumExecutionCount`: an event with maximumExecutionCount 0
is executed once. -/
theorem C02_zero_executes_once :
    ∃ (b : Board) (e : Event) (env : Env), b.WF ∧ e ∈ b.events ∧ e.max = 0 ∧
      executions e.ref (runFrames env b 1).log = 1 :=
  ⟨⟨0, 0, [⟨0, [⟨0, [⟨0, 1, [⟨0, [⟨0, 0, .parallel, [0]⟩]⟩]⟩]⟩]⟩]⟩, ⟨0, 0, .parallel, [0]⟩,
    ⟨fun _ _ => true, fun _ _ => false, fun _ _ => true⟩, by decide +kernel⟩

/-! ### C03, C04: finished or overridden events never act again -/

theorem frozen {b : Board} {x : Event} (hx : x ∈ b.events) {s d : St} {l later : Log}
    (hd : d = .complete ∨ (d = .stop ∧ s ≠ .start))
    (hg : Good b (later ++ .trans x.ref s d :: l)) :
    (lastState x.ref (later ++ .trans x.ref s d :: l) = .complete ∨
      (lastState x.ref (later ++ .trans x.ref s d :: l) = .stop ∧
        lastSource x.ref (later ++ .trans x.ref s d :: l) ≠ .start)) ∧
    ∀ a ∈ x.actions, ∀ y ∈ later, y ≠ .startAction (actionRef a) ∧ y ≠ .runAction (actionRef a) := by
  induction later with
  | nil =>
    refine ⟨?_, by simp⟩
    simp only [List.nil_append, lastState, lastSource, if_true]
    exact hd
  | cons y later ih =>
    obtain ⟨h1, h2⟩ := ih hg.2
    have hy := hg.1
    have hstate : lastState x.ref (later ++ .trans x.ref s d :: l) ≠ .running := by
      rcases h1 with h | h
      · rw [h]; decide
      · rw [h.1]; decide
    cases y with
    | trans r s' d' =>
      refine ⟨?_, fun a ha y hy' => ?_⟩
      · simp only [List.cons_append, lastState, lastSource]
        by_cases hr : r = x.ref
        · subst hr
          simp only [if_true]
          have hsrc : s' = lastState x.ref (later ++ .trans x.ref s d :: l) := hy.src
          have hleg : Legal .event s' d' := hy.legal
          have hres := hy.resume
          rw [← hsrc] at h1
          rcases h1 with h1 | ⟨h1, h3⟩
          · subst h1
            cases hleg
            exact Or.inr ⟨rfl, by decide⟩
          · subst h1
            cases hleg
            · exact Or.inl rfl
            · exact absurd (hres rfl rfl) h3
        · simp only [if_neg hr]; exact h1
      · rcases List.mem_cons.1 hy' with rfl | hy'
        · simp
        · exact h2 a ha y hy'
    | startAction r =>
      refine ⟨h1, fun a ha y hy' => ?_⟩
      rcases List.mem_cons.1 hy' with rfl | hy'
      · refine ⟨?_, by simp⟩
        rintro h; injection h with h
        exact hstate (hy x hx a ha h)
      · exact h2 a ha y hy'
    | runAction r =>
      refine ⟨h1, fun a ha y hy' => ?_⟩
      rcases List.mem_cons.1 hy' with rfl | hy'
      · refine ⟨by simp, ?_⟩
        rintro h; injection h with h
        exact hstate (hy x hx a ha h)
      · exact h2 a ha y hy'
    | startTrigger r | stopTrigger r | visit r | frame =>
      refine ⟨h1, fun a ha y hy' => ?_⟩
      rcases List.mem_cons.1 hy' with rfl | hy'
      · simp
      · exact h2 a ha y hy'

/-- **C03.** After an event has become complete none of its actions is ever started or run again,
and the event is only ever seen complete or in stopTransition. -/
theorem C03_complete_is_final (wf : b.WF) (env : Env) (n : Nat) {e : Event} (he : e ∈ b.events)
    {s : St} {l later : Log}
    (h : (runFrames env b n).log = later ++ .trans e.ref s .complete :: l) :
    (∀ a ∈ e.actions, .startAction (actionRef a) ∉ later ∧ .runAction (actionRef a) ∉ later) ∧
    ((runFrames env b n).st e.ref = .complete ∨ (runFrames env b n).st e.ref = .stop) := by
  have hI := (runFrames_inv wf env n).wi
  have hg := hI.good
  have hc := hI.coh e.ref
  rw [h] at hg hc
  obtain ⟨h1, h2⟩ := frozen he (Or.inl rfl) hg
  refine ⟨fun a ha => ⟨fun hm => (h2 a ha _ hm).1 rfl, fun hm => (h2 a ha _ hm).2 rfl⟩, ?_⟩
  rw [hc]
  rcases h1 with h1 | h1
  · exact Or.inl h1
  · exact Or.inr h1.1

example : ∃ l later, (runFrames exEnv exB 4).log = later ++ .trans exE0.ref .stop .complete :: l := by
  have : Entry.trans exE0.ref .stop .complete ∈ (runFrames exEnv exB 4).log := by decide +kernel
  obtain ⟨s, t, h⟩ := List.append_of_mem this
  exact ⟨t, s, h⟩

/-- **C03.** The actions of an event are started and run only while that event is running. -/
theorem C03_actions_only_while_running (wf : b.WF) (env : Env) (n : Nat) {e : Event}
    (he : e ∈ b.events) {a : Nat} (ha : a ∈ e.actions) {x : Entry} {l : Log}
    (hx : x = .startAction (actionRef a) ∨ x = .runAction (actionRef a))
    (h : Before (runFrames env b n).log x l) : lastState e.ref l = .running := by
  have := (runFrames_inv wf env n).wi.good.before h
  rcases hx with rfl | rfl
  · exact this e he a ha rfl
  · exact this e he a ha rfl

example : ∃ l, Before (runFrames exEnv exB 2).log (.runAction (actionRef 0)) l :=
  before_of_mem (by decide +kernel)

/-! ### C04 -/

/-- **C04.** When an event with priority override enters running, each other event of its maneuver
is in standby or has been moved to stopTransition. -/
theorem C04_override (wf : b.WF) (env : Env) (n : Nat) {m : Maneuver} (hm : m ∈ b.maneuvers)
    {e : Event} (he : e ∈ m.events) (hp : e.priority = .override) {s : St} {l : Log}
    (h : Before (runFrames env b n).log (.trans e.ref s .running) l) :
    ∀ x ∈ m.events, x ≠ e → lastState x.ref l = .standby ∨ lastState x.ref l = .stop :=
  ((runFrames_inv wf env n).wi.good.before h).override rfl m hm e he rfl hp

/-- **C04.** An event that another event (or its parent) has stopped never starts or runs any of its
actions afterwards. (`s = start` is the event stopping itself while it starts.) -/
theorem C04_overridden_is_final (wf : b.WF) (env : Env) (n : Nat) {x : Event} (hx : x ∈ b.events)
    {s : St} (hs : s ≠ .start) {l later : Log}
    (h : (runFrames env b n).log = later ++ .trans x.ref s .stop :: l) :
    (∀ a ∈ x.actions, .startAction (actionRef a) ∉ later ∧ .runAction (actionRef a) ∉ later) ∧
    ((runFrames env b n).st x.ref = .complete ∨ (runFrames env b n).st x.ref = .stop) := by
  have hI := (runFrames_inv wf env n).wi
  have hg := hI.good
  have hc := hI.coh x.ref
  rw [h] at hg hc
  obtain ⟨h1, h2⟩ := frozen hx (Or.inr ⟨rfl, hs⟩) hg
  refine ⟨fun a ha => ⟨fun hm => (h2 a ha _ hm).1 rfl, fun hm => (h2 a ha _ hm).2 rfl⟩, ?_⟩
  rw [hc]
  rcases h1 with h1 | h1
  · exact Or.inl h1
  · exact Or.inr h1.1

/-- **C04.** A stopped event is complete right after its own next evaluation. -/
theorem C04_overridden_completes (env : Env) (m : Maneuver) {x : Event} {w : World}
    (h : w.st x.ref = .stop) : (evalEvent env m.events x w).st x.ref = .complete := by
  unfold evalEvent evaluate
  simp only [eventHooks, falsy, Bool.false_eq_true, if_false, emit_st, h]
  rw [dispatch, dispatch]
  simp

example : ∃ l later, (runFrames exEnv exB 2).log = later ++ .trans exE0.ref .running .stop :: l := by
  have : Entry.trans exE0.ref .running .stop ∈ (runFrames exEnv exB 2).log := by decide +kernel
  obtain ⟨s, t, h⟩ := List.append_of_mem this
  exact ⟨t, s, h⟩

example : exM ∈ exB.maneuvers ∧ exE1 ∈ exM.events ∧ exE1.priority = .override ∧
    ∃ l, Before (runFrames exEnv exB 2).log (.trans exE1.ref .stop .running) l :=
  ⟨by decide, by decide, rfl, before_of_mem (by decide +kernel)⟩

/-! ### C05 -/

/-- **C05.** When an event with priority skip enters running, no other event of its maneuver is
running. -/
theorem C05_skip (wf : b.WF) (env : Env) (n : Nat) {m : Maneuver} (hm : m ∈ b.maneuvers)
    {e : Event} (he : e ∈ m.events) (hp : e.priority = .skip) {s : St} {l : Log}
    (h : Before (runFrames env b n).log (.trans e.ref s .running) l) :
    ∀ x ∈ m.events, x ≠ e → lastState x.ref l ≠ .running :=
  ((runFrames_inv wf env n).wi.good.before h).skip rfl m hm e he rfl hp

/-- **C05.** A skip event in standby whose start trigger fires while a sibling is running is in
standby after the evaluation and has not been executed. -/
theorem C05_stays_in_standby (env : Env) (m : Maneuver) {e x : Event} (hx : x ∈ m.events)
    (hne : x.ref ≠ e.ref) (hp : e.priority = .skip) {w : World} (hs : w.st e.ref = .standby)
    (hr : w.st x.ref = .running) :
    (evalEvent env m.events e w).st e.ref = .standby ∧
    (evalEvent env m.events e w).cnt = w.cnt ∧
    ∀ r, r ≠ e.ref → (evalEvent env m.events e w).st r = w.st r := by
  unfold evalEvent evaluate
  simp only [eventHooks, falsy, Bool.false_eq_true, if_false, emit_st, hs]
  rw [dispatch]
  have hv : someEventRunning m.events
      (((w.emit (.visit e.ref)).emit (.startTrigger e.ref)).goto e.ref .start) = true := by
    simp only [someEventRunning, List.any_eq_true, beq_iff_eq]
    exact ⟨x, hx, by rw [goto_st_ne _ _ hne]; exact hr⟩
  simp only [emit_log, hp, beq_self_eq_true, Bool.true_and, hv, if_true]
  split
  · exact ⟨by simp, rfl, fun r hr => by simp [goto_st_ne _ _ hr]⟩
  · exact ⟨hs, rfl, fun r hr => rfl⟩

/-- In the example the skip event is vetoed in frame 1 and starts in frame 3. -/
example : exM ∈ exB.maneuvers ∧ exE2 ∈ exM.events ∧ exE2.priority = .skip ∧
    Entry.trans exE2.ref .start .standby ∈ (runFrames exEnv exB 1).log ∧
    ∃ l, Before (runFrames exEnv exB 3).log (.trans exE2.ref .start .running) l :=
  ⟨by decide, by decide, rfl, by decide +kernel, before_of_mem (by decide +kernel)⟩

/-! ### C06 -/

/-- **C06.** Whenever an element enters endTransition all its children are complete. -/
theorem C06_children_complete (wf : b.WF) (env : Env) (n : Nat) {p : Ref} {s : St} {l : Log}
    (h : Before (runFrames env b n).log (.trans p s .end) l) {c : Ref} (hc : Child b p c) :
    lastState c l = .complete :=
  ((runFrames_inv wf env n).wi.good.before h).children rfl c hc

/-- In the example the storyboard ends after frame 4 (and its child story is a child). -/
example : Child exB exB.ref exS.ref ∧
    ∃ l, Before (runFrames exEnv exB 4).log (.trans exB.ref .running .end) l :=
  ⟨.story (by decide), before_of_mem (by decide +kernel)⟩

/-! ### C08 -/

section C08

/-- **C08.** One evaluation of a running maneuver evaluates each of its events exactly once, in
document order. -/
theorem C08_maneuver (env : Env) {m : Maneuver} {w : World} (h : w.st m.ref = .running)
    (hc : 0 < w.cnt m.ref) :
    visits .event (evalManeuver env m w).log = visits .event w.log ++ m.events.map Event.ref :=
  visits_evaluate_running (maneuverHooks env m) .event (by simp [maneuverHooks]) _
    (visits_foldl _ _ _ fun w e _ => visits_evalEvent env m.events e w) w h rfl (fun _ => rfl) rfl rfl hc

/-- **C08.** Acts: each maneuver group exactly once, in document order. -/
theorem C08_act (env : Env) {a : Act} {w : World} (h : w.st a.ref = .running)
    (hc : 0 < w.cnt a.ref) (ht : env.stopTrigger a.ref (.visit a.ref :: w.log) = false) :
    visits .group (evalAct env a w).log = visits .group w.log ++ a.groups.map Group.ref :=
  visits_evaluate_running (actHooks env a) .group (by simp [actHooks]) _
    (visits_foldl _ _ _ fun w g _ => visits_evalGroup env g w) w h ht
    (fun w => visits_emit_of_not_visit w (by simp)) rfl rfl hc

/-- **C08.** Stories: each act exactly once, in document order. -/
theorem C08_story (env : Env) {s : Story} {w : World} (h : w.st s.ref = .running)
    (hc : 0 < w.cnt s.ref) :
    visits .act (evalStory env s w).log = visits .act w.log ++ s.acts.map Act.ref :=
  visits_evaluate_running (storyHooks env s) .act (by simp [storyHooks]) _
    (visits_foldl _ _ _ fun w a _ => visits_evalAct env a w) w h rfl (fun _ => rfl) rfl rfl hc

/-- **C08.** The storyboard: each story exactly once, in document order. -/
theorem C08_storyboard (env : Env) {w : World} (h : w.st b.ref = .running)
    (hc : 0 < w.cnt b.ref) (ht : env.stopTrigger b.ref (.visit b.ref :: w.log) = false) :
    visits .story (evalBoard env b w).log = visits .story w.log ++ b.stories.map Story.ref :=
  visits_evaluate_running (boardHooks env b) .story (by simp [boardHooks]) _
    (fun w => (visits_foldl _ _ _ (fun w s _ => visits_evalStory env s w) _).trans (by
      rw [visits_only (k := .story) (only_evalInit env b w)
        (by rintro r rfl; simp)])) w h ht
    (fun w => visits_emit_of_not_visit w (by simp)) rfl rfl hc

/-- **C08.** Maneuver groups and events may execute several times in one evaluation (see
`maximumExecutionCount`); each execution evaluates each child exactly once, in document order. -/
theorem C08_group (env : Env) {g : Group} {w : World} (h : w.st g.ref = .running) :
    w.cnt g.ref ≤ (evalGroup env g w).cnt g.ref ∧
    visits .maneuver (evalGroup env g w).log = visits .maneuver w.log ++
      (List.replicate (1 + ((evalGroup env g w).cnt g.ref - w.cnt g.ref))
        (g.maneuvers.map Maneuver.ref)).flatten := by
  refine visits_evaluate_runs (groupHooks env g) .maneuver (by simp [groupHooks]) _
    (visits_foldl _ _ _ fun w m _ => visits_evalManeuver env m w) ?_ ?_ (fun _ => rfl) (fun _ => rfl)
    (fun _ => rfl) w h
  · intro w
    have ho : Only (fun r => ∃ m ∈ g.maneuvers, m.owns r) w ((groupHooks env g).run w) :=
      only_foldl _ _ (fun w m hm => (only_evalManeuver env m w).mono fun r hr => ⟨m, hm, hr⟩) w
    refine ho.cnt _ ?_
    rintro ⟨m, _, h⟩
    exact not_owns_maneuver (by simp [groupHooks]) (by simp [groupHooks]) (by simp [groupHooks]) h
  · intro w; exact visits_foldl_same _ _ (fun w c _ => visits_goto w _ _) w

/-- **C08.** Events: see `C08_group`. -/
theorem C08_event (env : Env) (sib : List Event) {e : Event} {w : World}
    (h : w.st e.ref = .running) :
    w.cnt e.ref ≤ (evalEvent env sib e w).cnt e.ref ∧
    visits .action (evalEvent env sib e w).log = visits .action w.log ++
      (List.replicate (1 + ((evalEvent env sib e w).cnt e.ref - w.cnt e.ref))
        (e.actions.map actionRef)).flatten := by
  refine visits_evaluate_runs (eventHooks env sib e) .action (by simp [eventHooks]) _
    (visits_foldl _ _ _ fun w a _ => visits_evalAction env a w) ?_ ?_ ?_ (fun _ => rfl)
    (fun _ => rfl) w h
  · intro w
    have ho : Only (fun r => ∃ a ∈ e.actions, r = actionRef a) w ((eventHooks env sib e).run w) :=
      only_foldl _ _ (fun w a ha => (only_evalAction env a w).mono fun r hr => ⟨a, ha, hr⟩) w
    refine ho.cnt _ ?_
    rintro ⟨a, _, h⟩
    simp [eventHooks, Event.ref, actionRef] at h
  · intro w
    show visits .action (forceStart (e.actions.map actionRef)
      (if e.priority = .override then overrideEvents sib w else w)).log = _
    unfold forceStart
    rw [visits_foldl_same _ _ (fun w c _ => visits_goto w _ _)]
    split
    · exact visits_foldl_same _ _ (fun w c _ => visits_override w _) w
    · rfl
  · intro w; exact visits_emit_of_not_visit w (by simp)

/-- The hypotheses hold for all five kinds of parents after frame 1 of the example. -/
example : let w := runFrames exEnv exB 1
    w.st exM.ref = .running ∧ 0 < w.cnt exM.ref ∧ w.st exA.ref = .running ∧ 0 < w.cnt exA.ref ∧
    w.st exS.ref = .running ∧ 0 < w.cnt exS.ref ∧ w.st exB.ref = .running ∧ 0 < w.cnt exB.ref ∧
    w.st exG.ref = .running ∧ w.st exE0.ref = .running := by decide +kernel

end C08

end Verif.Storyboard
