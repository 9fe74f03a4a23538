import Verif.Storyboard.React
import Verif.Storyboard.Theorems
/-
C69: elements react to their triggers, and only to them. The first three theorems are about whole
runs (`Owes` is defined in ReactSpec.lean); the others about one evaluation of an element in an
arbitrary world, so in particular about every evaluation in every run.
-/
namespace Verif.Storyboard

variable {b : Board}

/-- **C69.** Whatever is owed is done at once: a start trigger that holds is followed immediately by
the start of its element, an accomplished action by its end, an event or act looked at in standby by
the evaluation of its start trigger. Nothing is still owed at the end of a frame. -/
theorem C69_answered (env : Env) (b : Board) (n : Nat) {later l : Log} {x : Entry}
    (h : (runFrames env b n).log = later ++ l) (ho : Owes env l x) :
    ∃ later', later = later' ++ [x] := by
  have hR := RI_runFrames env b n
  rcases List.eq_nil_or_concat later with rfl | ⟨later', y, rfl⟩
  · exact absurd ho (by rw [List.nil_append] at h; rw [← h]; exact hR.settled x)
  · refine ⟨later', ?_⟩
    have := (hR.linked.before (x := y) (l' := l) ⟨later', by rw [h]; simp⟩).2 x ho
    rw [this]; simp

/-- **C69.** An event or act only ever leaves standby because its start trigger held when it was
evaluated immediately before. -/
theorem C69_start_has_cause (env : Env) (b : Board) (n : Nat) {r : Ref} (hr : r.triggered) {l : Log}
    (h : Before (runFrames env b n).log (.trans r .standby .start) l) :
    ∃ l', l = .startTrigger r :: l' ∧ env.startTrigger r l' = true :=
  ((RI_runFrames env b n).linked.before h).1.fire r hr rfl

/-- **C69.** An action (and the init actions) only ever ends because it was run immediately before
and is accomplished. -/
theorem C69_end_has_cause (env : Env) (b : Board) (n : Nat) {r : Ref} (hr : r.acting) {l : Log}
    (h : Before (runFrames env b n).log (.trans r .running .end) l) :
    ∃ l', l = .runAction r :: l' ∧ env.accomplished r l = true :=
  ((RI_runFrames env b n).linked.before h).1.finish r hr rfl

/-- In the example event 1 starts in frame 2, when its trigger first holds, and action 3 ends. -/
example : exE1.ref.triggered ∧ (actionRef 3).acting ∧
    (∃ l, Before (runFrames exEnv exB 2).log (.trans exE1.ref .standby .start) l) ∧
    (∃ l, Before (runFrames exEnv exB 3).log (.trans (actionRef 3) .running .end) l) ∧
    (∃ later l, (runFrames exEnv exB 2).log = later ++ l ∧
      Owes exEnv l (.trans exE1.ref .standby .start)) := by
  refine ⟨Or.inl rfl, Or.inl rfl, before_of_mem (by decide +kernel), before_of_mem (by decide +kernel),
    ?_⟩
  obtain ⟨l, hb⟩ := before_of_mem (l := (runFrames exEnv exB 2).log)
    (x := .trans exE1.ref .standby .start) (by decide +kernel)
  obtain ⟨l', rfl, ht⟩ := C69_start_has_cause exEnv exB 2 (Or.inl rfl) hb
  obtain ⟨later, hb⟩ := hb
  exact ⟨later ++ [.trans exE1.ref .standby .start], _, by simpa using hb, .fire ht⟩

/-! ### One evaluation of an action -/

theorem dispatch_running (h : Hooks) (n : Nat) (w : World) :
    dispatch h .running n w =
      if h.accomplished (h.run w) = true then
        if n < h.max then
          dispatch h .standby n (((h.run w).goto h.ref .end).goto h.ref .standby)
        else ((h.run w).goto h.ref .end).goto h.ref .complete
      else h.run w := by
  conv_lhs => rw [dispatch]
  by_cases hd : h.accomplished (h.run w) = true
  · rw [if_pos hd, if_pos hd]
    conv_lhs => rw [dispatch]
    by_cases hn : n < h.max
    · rw [if_pos hn, if_pos hn]
    · rw [if_neg hn, if_neg hn]
      conv_lhs => rw [dispatch]
  · rw [if_neg hd, if_neg hd]

/-- **C69.** A running action is run exactly once per evaluation; it is complete afterwards if it is
accomplished and running otherwise, and nothing else changes. -/
theorem C69_action_running (env : Env) (a : Nat) {w : World} (h : w.st (actionRef a) = .running)
    (hc : 0 < w.cnt (actionRef a)) :
    let r := actionRef a
    let ran := Entry.runAction r :: .visit r :: w.log
    let done := env.accomplished r ran
    (evalAction env a w).log =
      (if done then [.trans r .end .complete, .trans r .running .end] else []) ++ ran ∧
    (evalAction env a w).st r = (if done then .complete else .running) ∧
    (evalAction env a w).cnt = w.cnt ∧
    ∀ r', r' ≠ r → (evalAction env a w).st r' = w.st r' := by
  have hn : ¬ w.cnt (actionRef a) < (actionHooks env a).max := by simp only [actionHooks]; omega
  have he : evalAction env a w =
      if env.accomplished (actionRef a) (.runAction (actionRef a) :: .visit (actionRef a) :: w.log) = true then
        (((w.emit (.visit (actionRef a))).emit (.runAction (actionRef a))).goto (actionRef a) .end).goto
          (actionRef a) .complete
      else (w.emit (.visit (actionRef a))).emit (.runAction (actionRef a)) := by
    have : evalAction env a w = dispatch (actionHooks env a) .running (w.cnt (actionRef a))
        (w.emit (.visit (actionRef a))) := by
      unfold evalAction evaluate
      simp only [actionHooks, falsy, Bool.false_eq_true, if_false, emit_st, h, emit_cnt]
    rw [this, dispatch_running, if_neg hn]
    rfl
  simp only [he]
  by_cases hd : env.accomplished (actionRef a)
      (.runAction (actionRef a) :: .visit (actionRef a) :: w.log) = true
  · simp only [if_pos hd]
    refine ⟨?_, by simp, rfl, fun r' hr => by simp [goto_st_ne _ _ hr]⟩
    simp [goto_log, h]
  · simp only [if_neg hd]
    exact ⟨rfl, h, rfl, fun r' hr => rfl⟩

/-- **C69.** An action in startTransition is started and run in the same evaluation. -/
theorem C69_action_starts (env : Env) (a : Nat) {w : World} (h : w.st (actionRef a) = .start) :
    let r := actionRef a
    (∃ later, (evalAction env a w).log = later ++
      .runAction r :: .trans r .start .running :: .startAction r :: .visit r :: w.log) ∧
    (evalAction env a w).cnt r = w.cnt r + 1 := by
  have hn : ¬ w.cnt (actionRef a) + 1 < (actionHooks env a).max := by simp only [actionHooks]; omega
  have he : evalAction env a w = dispatch (actionHooks env a) .running (w.cnt (actionRef a) + 1)
      ((((w.emit (.visit (actionRef a))).emit (.startAction (actionRef a))).goto (actionRef a)
        .running).setCnt (actionRef a) (w.cnt (actionRef a) + 1)) := by
    have : evalAction env a w = dispatch (actionHooks env a) .start (w.cnt (actionRef a))
        (w.emit (.visit (actionRef a))) := by
      unfold evalAction evaluate
      simp only [actionHooks, falsy, Bool.false_eq_true, if_false, emit_st, h, emit_cnt]
    rw [this, dispatch]
    rfl
  simp only [he]
  rw [dispatch_running, if_neg hn]
  by_cases hd : (actionHooks env a).accomplished ((actionHooks env a).run
      ((((w.emit (.visit (actionRef a))).emit (.startAction (actionRef a))).goto (actionRef a)
        .running).setCnt (actionRef a) (w.cnt (actionRef a) + 1))) = true
  · rw [if_pos hd]
    simp only [actionHooks]
    exact ⟨⟨[.trans (actionRef a) .end .complete, .trans (actionRef a) .running .end],
      by simp [goto_log, h]⟩, by simp⟩
  · rw [if_neg hd]
    simp only [actionHooks]
    exact ⟨⟨[], by simp [goto_log, h]⟩, by simp⟩

example : (runFrames exEnv exB 2).st (actionRef 2) = .running ∧
    0 < (runFrames exEnv exB 2).cnt (actionRef 2) := by decide +kernel

/-! ### One evaluation of an event -/

/-- **C69.** An event in standby whose start trigger does not hold is left alone. -/
theorem C69_event_waits (env : Env) (sib : List Event) (e : Event) {w : World}
    (hs : w.st e.ref = .standby)
    (ht : env.startTrigger e.ref (.visit e.ref :: w.log) = false) :
    evalEvent env sib e w = (w.emit (.visit e.ref)).emit (.startTrigger e.ref) := by
  unfold evalEvent evaluate
  simp only [eventHooks, falsy, Bool.false_eq_true, if_false, emit_st, hs]
  rw [dispatch]
  simp [emit_log, ht]

/-- The execution count of an event never goes down while it is evaluated. -/
theorem cnt_dispatch_le (h : Hooks) (hT : ∀ w, (h.startTrigger w).2.cnt h.ref = w.cnt h.ref)
    (hr : ∀ w, (h.run w).cnt h.ref = w.cnt h.ref) (hs : ∀ w, (h.stop w).cnt h.ref = w.cnt h.ref)
    (k : Nat) : ∀ s n w, k ≤ n ∧ w.cnt h.ref = n → k ≤ (dispatch h s n w).cnt h.ref := by
  apply dispatch_rule h (fun _ n w => k ≤ n ∧ w.cnt h.ref = n) (fun w => k ≤ w.cnt h.ref)
  · intro n w hw _; rw [hT]; omega
  · intro n w hw _ _; simp only [goto_cnt, hT]; omega
  · intro n w hw _ _; simp only [goto_cnt, hT]; omega
  · intro n w hw; exact ⟨by omega, by simp⟩
  · intro n w hw _; simp only [goto_cnt, hr]; omega
  · intro n w hw _; rw [hr]; omega
  · intro n w hw _; simp only [goto_cnt]; omega
  · intro n w hw _; simp only [goto_cnt]; omega
  · intro n w hw; omega
  · intro n w hw; omega
  · intro n w hw
    refine ⟨hw.1, ?_⟩
    rw [goto_cnt]
    split
    · exact hw.2
    · rw [hs]; exact hw.2

theorem cnt_runActions (env : Env) (sib : List Event) (e : Event) (w : World) :
    ((eventHooks env sib e).run w).cnt e.ref = w.cnt e.ref := by
  have ho : Only (fun r => ∃ a ∈ e.actions, r = actionRef a) w ((eventHooks env sib e).run w) :=
    only_foldl _ _ (fun w a ha => (only_evalAction env a w).mono fun r hr => ⟨a, ha, hr⟩) w
  refine ho.cnt _ ?_
  rintro ⟨a, _, h⟩
  simp [Event.ref, actionRef] at h

theorem cnt_stopActions (env : Env) (sib : List Event) (e : Event) (w : World) :
    ((eventHooks env sib e).stop w).cnt e.ref = w.cnt e.ref := by
  have ho : Only (fun r => ∃ a ∈ e.actions, r = actionRef a) w ((eventHooks env sib e).stop w) :=
    only_foldl _ _ (fun w a ha => only_overrideThen _ _ ⟨a, ha, rfl⟩
      (fun w => (only_evalAction env a w).mono fun r hr => ⟨a, ha, hr⟩) w) w
  refine ho.cnt _ ?_
  rintro ⟨a, _, h⟩
  simp [Event.ref, actionRef] at h

/-- **C69.** An event in standby whose start trigger holds is executed in that evaluation, unless it
has priority skip and another event of the maneuver is running. -/
theorem C69_event_fires (env : Env) (sib : List Event) (e : Event) {w : World}
    (hs : w.st e.ref = .standby)
    (ht : env.startTrigger e.ref (.visit e.ref :: w.log) = true)
    (hv : e.priority = .skip → ∀ x ∈ sib, w.st x.ref ≠ .running) :
    w.cnt e.ref < (evalEvent env sib e w).cnt e.ref := by
  unfold evalEvent evaluate
  simp only [eventHooks, falsy, Bool.false_eq_true, if_false, emit_st, hs]
  have hv' : (e.priority == .skip && someEventRunning sib
      (((w.emit (.visit e.ref)).emit (.startTrigger e.ref)).goto e.ref .start)) = false := by
    rw [Bool.and_eq_false_iff]
    by_cases hp : e.priority = .skip
    · right
      simp only [someEventRunning, List.any_eq_false, beq_iff_eq]
      intro x hx
      rw [goto_st]
      split
      · simp
      · exact hv hp x hx
    · left; simpa using hp
  have := cnt_dispatch_le (eventHooks env sib e) (fun _ => rfl) (cnt_runActions env sib e)
    (cnt_stopActions env sib e) (w.cnt e.ref + 1)
  change w.cnt e.ref < (dispatch (eventHooks env sib e) .standby _ _).cnt e.ref
  rw [dispatch]
  simp only [eventHooks, emit_log, ht, if_true, hv', Bool.false_eq_true, if_false]
  rw [dispatch]
  exact this _ _ _ ⟨by simp, by simp [eventHooks]⟩

/-- **C69.** A running event first runs its actions. If they are not all complete then, it is left
running. If they are, it ends: it is complete if it has been executed `maximumExecutionCount`
times, and otherwise back in standby, where its start trigger is evaluated again. -/
theorem C69_event_running (env : Env) (sib : List Event) (e : Event) {w w' : World}
    (hs : w.st e.ref = .running)
    (hw : w' = e.actions.foldl (fun w a => evalAction env a w) (w.emit (.visit e.ref))) :
    ((∃ a ∈ e.actions, w'.st (actionRef a) ≠ .complete) → evalEvent env sib e w = w') ∧
    ((∀ a ∈ e.actions, w'.st (actionRef a) = .complete) → e.max ≤ w.cnt e.ref →
      evalEvent env sib e w = (w'.goto e.ref .end).goto e.ref .complete) ∧
    ((∀ a ∈ e.actions, w'.st (actionRef a) = .complete) → w.cnt e.ref < e.max →
      ∃ later, (evalEvent env sib e w).log =
        later ++ .startTrigger e.ref :: .trans e.ref .end .standby :: .trans e.ref .running .end ::
          w'.log) := by
  have hst : w'.st e.ref = .running := by
    have ho : Only (fun r => ∃ a ∈ e.actions, r = actionRef a) (w.emit (.visit e.ref)) w' := by
      rw [hw]
      exact only_foldl _ _ (fun w a ha => (only_evalAction env a w).mono fun r hr => ⟨a, ha, hr⟩) _
    rw [ho.st e.ref (by rintro ⟨a, _, h⟩; simp [Event.ref, actionRef] at h)]
    exact hs
  have hrun : evalEvent env sib e w = dispatch (eventHooks env sib e) .running (w.cnt e.ref)
      (w.emit (.visit e.ref)) := by
    unfold evalEvent evaluate
    simp only [eventHooks, falsy, Bool.false_eq_true, if_false, emit_st, hs, emit_cnt]
  have hacc : allComplete (e.actions.map actionRef) w' = true ↔
      ∀ a ∈ e.actions, w'.st (actionRef a) = .complete := by
    simp [allComplete, List.all_eq_true]
  have hrw : (eventHooks env sib e).run (w.emit (.visit e.ref)) = w' := hw.symm
  have hacc : (eventHooks env sib e).accomplished w' = true ↔
      ∀ a ∈ e.actions, w'.st (actionRef a) = .complete := hacc
  rw [hrun, dispatch_running, hrw]
  refine ⟨?_, ?_, ?_⟩
  · rintro ⟨a, ha, hn⟩
    rw [if_neg]
    exact fun h => hn (hacc.1 h a ha)
  · intro h hm
    rw [if_pos (hacc.2 h), if_neg (by simp only [eventHooks]; omega)]
    rfl
  · intro h hm
    rw [if_pos (hacc.2 h), if_pos (by simpa only [eventHooks] using hm)]
    have key : ∀ s n w2, (∃ later, w2.log = later ++ (.startTrigger e.ref ::
        .trans e.ref .end .standby :: .trans e.ref .running .end :: w'.log)) →
        ∃ later, (dispatch (eventHooks env sib e) s n w2).log = later ++ (.startTrigger e.ref ::
          .trans e.ref .end .standby :: .trans e.ref .running .end :: w'.log) := by
      have ev : ∀ (T : Ref → Prop) (w2 w3 : World), Only T w2 w3 → (∃ later, w2.log = later ++
          (.startTrigger e.ref :: .trans e.ref .end .standby :: .trans e.ref .running .end ::
          w'.log)) → ∃ later, w3.log = later ++ (.startTrigger e.ref :: .trans e.ref .end .standby ::
          .trans e.ref .running .end :: w'.log) := by
        rintro T w2 w3 h ⟨later, hl⟩
        obtain ⟨d, hd, _⟩ := h.log
        exact ⟨d ++ later, by rw [hd, hl, List.append_assoc]⟩
      apply dispatch_pres
      · rintro w2 ⟨later, hl⟩; exact ⟨_ :: later, congrArg (_ :: ·) hl⟩
      · rintro w2 s ⟨later, hl⟩; exact ⟨_ :: later, by rw [goto_log, hl]; rfl⟩
      · rintro w2 n h; exact h
      · intro w2 h
        refine ev (fun _ => True) _ _ ?_ h
        refine Only.trans (w' := if e.priority = .override then overrideEvents sib w2 else w2) ?_
          (only_forceStart _ (fun _ _ => trivial) _)
        split
        · exact only_overrideEvents _ (fun _ _ => trivial) _
        · exact Only.refl _ _
      · intro w2 h
        exact ev (fun _ => True) _ _ (only_foldl _ _ (fun w a ha =>
          (only_evalAction env a w).mono fun r hr => trivial) _) h
      · intro w2 h
        exact ev (fun _ => True) _ _ (only_foldl _ _ (fun w a ha => only_overrideThen _ _ trivial
          (fun w => (only_evalAction env a w).mono fun r hr => trivial) w) _) h
    rw [dispatch]
    generalize hw2 : ((w'.goto (eventHooks env sib e).ref .end).goto (eventHooks env sib e).ref
      .standby) = w2
    have hl : w2.log = .trans e.ref .end .standby :: .trans e.ref .running .end :: w'.log := by
      rw [← hw2]; simp [goto_log, hst, eventHooks]
    have ht : (eventHooks env sib e).startTrigger w2 =
      (env.startTrigger e.ref w2.log, w2.emit (.startTrigger e.ref)) := rfl
    rw [ht]
    simp only
    by_cases h1 : env.startTrigger e.ref w2.log = true
    · rw [if_pos h1]
      by_cases h2 : (eventHooks env sib e).veto ((w2.emit (.startTrigger e.ref)).goto
          (eventHooks env sib e).ref .start) = true
      · rw [if_pos h2]
        exact ⟨[_, _], by simp only [goto_log, emit_log, hl]; rfl⟩
      · rw [if_neg h2]
        exact key _ _ _ ⟨[_], by simp only [goto_log, emit_log, hl]; rfl⟩
    · rw [if_neg h1]
      exact ⟨[], by simp [hl]⟩

/-- Event 0 of the example is waiting in frame 1 (with a false trigger), fires (with a true one) and
is running after it. -/
example : World.initial.st exE0.ref = .standby ∧
    exEnv.startTrigger exE0.ref (.visit exE0.ref :: World.initial.log) = true ∧
    (exE0.priority = .skip → ∀ x ∈ exM.events, World.initial.st x.ref ≠ .running) ∧
    exEnv.startTrigger exE1.ref (.visit exE1.ref :: World.initial.log) = false ∧
    (runFrames exEnv exB 1).st exE0.ref = .running := by decide +kernel

/-! ### The other elements -/

theorem fires (h : Hooks) (hT : ∀ w, (h.startTrigger w).2.cnt h.ref = w.cnt h.ref)
    (hr : ∀ w, (h.run w).cnt h.ref = w.cnt h.ref) (hs : ∀ w, (h.stop w).cnt h.ref = w.cnt h.ref)
    (hv : ∀ w, h.veto w = false) {w : World} (ht : (h.startTrigger w).1 = true) {n : Nat}
    (hn : w.cnt h.ref = n) : w.cnt h.ref < (dispatch h .standby n w).cnt h.ref := by
  have := cnt_dispatch_le h hT hr hs (n + 1)
  rw [dispatch]
  simp only [ht, if_true, hv, Bool.false_eq_true, if_false]
  rw [dispatch, hn]
  exact this _ _ _ ⟨by simp, by simp⟩

theorem cnt_runManeuvers (env : Env) (g : Group) (w : World) :
    ((groupHooks env g).run w).cnt g.ref = w.cnt g.ref := by
  have ho : Only (fun r => ∃ m ∈ g.maneuvers, m.owns r) w ((groupHooks env g).run w) :=
    only_foldl _ _ (fun w m hm => (only_evalManeuver env m w).mono fun r hr => ⟨m, hm, hr⟩) w
  refine ho.cnt _ ?_
  rintro ⟨m, _, h⟩
  have := Maneuver.owns_kind h
  simp at this

theorem cnt_stopManeuvers (env : Env) (g : Group) (w : World) :
    ((groupHooks env g).stop w).cnt g.ref = w.cnt g.ref := by
  have ho : Only (fun r => ∃ m ∈ g.maneuvers, m.owns r) w ((groupHooks env g).stop w) :=
    only_foldl _ _ (fun w m hm => only_overrideThen _ _ ⟨m, hm, Or.inl rfl⟩
      (fun w => (only_evalManeuver env m w).mono fun r hr => ⟨m, hm, hr⟩) w) w
  refine ho.cnt _ ?_
  rintro ⟨m, _, h⟩
  have := Maneuver.owns_kind h
  simp at this

/-- **C69.** A maneuver group starts as soon as it is looked at. -/
theorem C69_group_starts (env : Env) (g : Group) {w : World} (hs : w.st g.ref = .standby) :
    w.cnt g.ref < (evalGroup env g w).cnt g.ref := by
  have he : evalGroup env g w = dispatch (groupHooks env g) .standby (w.cnt g.ref)
      (w.emit (.visit g.ref)) := by
    unfold evalGroup evaluate
    simp only [groupHooks, falsy, Bool.false_eq_true, if_false, emit_st, hs, emit_cnt]
  rw [he]
  exact fires (groupHooks env g) (fun _ => rfl) (cnt_runManeuvers env g) (cnt_stopManeuvers env g)
    (fun _ => rfl) (w := w.emit (.visit g.ref)) rfl rfl

/-- **C69.** A running maneuver group runs its maneuvers. If they are not all complete then, it is
left running; if they are, it is complete once it has been executed `maximumExecutionCount` times,
and otherwise executed again at once. -/
theorem C69_group_running (env : Env) (g : Group) {w w' : World} (hs : w.st g.ref = .running)
    (hw : w' = g.maneuvers.foldl (fun w m => evalManeuver env m w) (w.emit (.visit g.ref))) :
    ((∃ m ∈ g.maneuvers, w'.st m.ref ≠ .complete) → evalGroup env g w = w') ∧
    ((∀ m ∈ g.maneuvers, w'.st m.ref = .complete) → g.max ≤ w.cnt g.ref →
      evalGroup env g w = (w'.goto g.ref .end).goto g.ref .complete) ∧
    ((∀ m ∈ g.maneuvers, w'.st m.ref = .complete) → w.cnt g.ref < g.max →
      w.cnt g.ref < (evalGroup env g w).cnt g.ref) := by
  have hrun : evalGroup env g w = dispatch (groupHooks env g) .running (w.cnt g.ref)
      (w.emit (.visit g.ref)) := by
    unfold evalGroup evaluate
    simp only [groupHooks, falsy, Bool.false_eq_true, if_false, emit_st, hs, emit_cnt]
  have hrw : (groupHooks env g).run (w.emit (.visit g.ref)) = w' := hw.symm
  have hcnt : w'.cnt g.ref = w.cnt g.ref := by
    rw [← hrw, cnt_runManeuvers]; rfl
  have hacc : (groupHooks env g).accomplished w' = true ↔
      ∀ m ∈ g.maneuvers, w'.st m.ref = .complete := by
    simp [groupHooks, allComplete, List.all_eq_true]
  rw [hrun, dispatch_running, hrw]
  refine ⟨?_, ?_, ?_⟩
  · rintro ⟨a, ha, hn⟩
    rw [if_neg]
    exact fun h => hn (hacc.1 h a ha)
  · intro h hm
    rw [if_pos (hacc.2 h), if_neg (by simp only [groupHooks]; omega)]
    rfl
  · intro h hm
    rw [if_pos (hacc.2 h), if_pos (by simpa only [groupHooks] using hm)]
    have := fires (groupHooks env g) (fun _ => rfl) (cnt_runManeuvers env g)
      (cnt_stopManeuvers env g) (fun _ => rfl)
      (w := ((w'.goto (groupHooks env g).ref .end).goto (groupHooks env g).ref .standby)) rfl
      (n := w.cnt g.ref) hcnt
    simp only [goto_cnt] at this
    rw [← hcnt] at this ⊢
    exact this

/-- **C69.** An act in standby whose start trigger does not hold is left alone. -/
theorem C69_act_waits (env : Env) (a : Act) {w : World} (hs : w.st a.ref = .standby)
    (ht : env.startTrigger a.ref (.stopTrigger a.ref :: .visit a.ref :: w.log) = false) :
    evalAct env a w =
      ((w.emit (.visit a.ref)).emit (.stopTrigger a.ref)).emit (.startTrigger a.ref) := by
  have he : evalAct env a w = dispatch (actHooks env a) .standby (w.cnt a.ref)
      ((w.emit (.visit a.ref)).emit (.stopTrigger a.ref)) := by
    unfold evalAct evaluate
    have ho : ((w.emit (.visit a.ref)).emit (.stopTrigger a.ref)).override a.ref =
        (w.emit (.visit a.ref)).emit (.stopTrigger a.ref) := by
      unfold World.override; rw [if_neg]; simp [hs]
    simp only [actHooks, ho, ite_self, emit_st, hs, emit_cnt]
  rw [he, dispatch]
  have h1 : (actHooks env a).startTrigger ((w.emit (.visit a.ref)).emit (.stopTrigger a.ref)) =
    (false, ((w.emit (.visit a.ref)).emit (.stopTrigger a.ref)).emit (.startTrigger a.ref)) := by
    simp only [actHooks, emit_log, ht]
  rw [h1]
  simp

/-- **C69.** An act in standby whose start trigger holds is executed in that evaluation. -/
theorem C69_act_fires (env : Env) (a : Act) {w : World} (hs : w.st a.ref = .standby)
    (ht : env.startTrigger a.ref (.stopTrigger a.ref :: .visit a.ref :: w.log) = true) :
    w.cnt a.ref < (evalAct env a w).cnt a.ref := by
  have he : evalAct env a w = dispatch (actHooks env a) .standby (w.cnt a.ref)
      ((w.emit (.visit a.ref)).emit (.stopTrigger a.ref)) := by
    unfold evalAct evaluate
    have ho : ((w.emit (.visit a.ref)).emit (.stopTrigger a.ref)).override a.ref =
        (w.emit (.visit a.ref)).emit (.stopTrigger a.ref) := by
      unfold World.override; rw [if_neg]; simp [hs]
    simp only [actHooks, ho, ite_self, emit_st, hs, emit_cnt]
  rw [he]
  refine fires (actHooks env a) (fun _ => rfl) ?_ ?_ (fun _ => rfl)
    (w := (w.emit (.visit a.ref)).emit (.stopTrigger a.ref)) ht rfl
  · intro w
    have ho : Only (fun r => ∃ g ∈ a.groups, g.owns r) w ((actHooks env a).run w) :=
      only_foldl _ _ (fun w g hg => (only_evalGroup env g w).mono fun r hr => ⟨g, hg, hr⟩) w
    refine ho.cnt _ ?_
    rintro ⟨g, _, h⟩
    have := Group.owns_kind h
    simp [actHooks] at this
  · intro w
    have ho : Only (fun r => ∃ g ∈ a.groups, g.owns r) w ((actHooks env a).stop w) :=
      only_foldl _ _ (fun w g hg => only_overrideThen _ _ ⟨g, hg, Or.inl rfl⟩
        (fun w => (only_evalGroup env g w).mono fun r hr => ⟨g, hg, hr⟩) w) w
    refine ho.cnt _ ?_
    rintro ⟨g, _, h⟩
    have := Group.owns_kind h
    simp [actHooks] at this

/-- A group of two executions: after its first frame it has been executed once or, if its maneuvers
finish at once, twice. -/
example : World.initial.st exG.ref = .standby ∧ (runFrames exEnv exB 1).st exG.ref = .running ∧
    exEnv.startTrigger exA.ref (.stopTrigger exA.ref :: .visit exA.ref :: World.initial.log) = true ∧
    (evalGroup ⟨fun _ _ => true, fun _ _ => false, fun _ _ => true⟩ ⟨0, 2, [⟨0, [exE2]⟩]⟩
      World.initial).cnt exG.ref = 2 := by decide +kernel

/-! ### C08: the init actions come first -/

/-- **C08.** In every frame in which the storyboard runs, the first element looked at is the init
actions, before any story. -/
theorem C08_init_first (env : Env) {w : World} (h : w.st b.ref = .running)
    (ht : env.stopTrigger b.ref (.visit b.ref :: w.log) = false) :
    ∃ later, (evalBoard env b w).log =
      later ++ .visit b.initRef :: .stopTrigger b.ref :: .visit b.ref :: w.log := by
  have he : evalBoard env b w = dispatch (boardHooks env b) .running (w.cnt b.ref)
      ((w.emit (.visit b.ref)).emit (.stopTrigger b.ref)) := by
    have h1 : (boardHooks env b).stopTrigger (w.emit (.visit b.ref)) =
      (false, (w.emit (.visit b.ref)).emit (.stopTrigger b.ref)) := by
      simp only [boardHooks, emit_log, ht]
    unfold evalBoard evaluate
    have h2 : (boardHooks env b).ref = b.ref := rfl
    simp only [h2, h1, Bool.false_eq_true, if_false, emit_st, emit_cnt, h]
  generalize hw0 : (w.emit (.visit b.ref)).emit (.stopTrigger b.ref) = w0 at he
  have hl0 : w0.log = .stopTrigger b.ref :: .visit b.ref :: w.log := by rw [← hw0]; rfl
  rw [he, ← hl0]
  have ext : ∀ (T : Ref → Prop) (l0 : Log) (w2 w3 : World), Only T w2 w3 →
      (∃ later, w2.log = later ++ l0) → ∃ later, w3.log = later ++ l0 := by
    rintro T l0 w2 w3 h ⟨later, hl⟩
    obtain ⟨d, hd, _⟩ := h.log
    exact ⟨d ++ later, by rw [hd, hl, List.append_assoc]⟩
  have hinit : ∃ later, (evalInit env b w0).log = later ++ .visit b.initRef :: w0.log := by
    show ∃ later, (dispatch (initHooks env b) ((w0.emit (.visit b.initRef)).st b.initRef)
      ((w0.emit (.visit b.initRef)).cnt b.initRef) (w0.emit (.visit b.initRef))).log = _
    refine dispatch_pres (initHooks env b) (fun w2 => ∃ later, w2.log =
      later ++ .visit b.initRef :: w0.log) ?_ ?_ ?_ ?_ ?_ ?_ _ _ _ ⟨[], rfl⟩
    · intro w2 h; exact h
    · rintro w2 s ⟨later, hl⟩; exact ⟨_ :: later, by rw [goto_log, hl]; rfl⟩
    · intro w2 n h; exact h
    · rintro w2 ⟨later, hl⟩; exact ⟨_ :: later, congrArg (_ :: ·) hl⟩
    · rintro w2 ⟨later, hl⟩; exact ⟨_ :: later, congrArg (_ :: ·) hl⟩
    · intro w2 h; exact h
  have hstories : ∀ w2, Only (fun _ => True) w2 (b.stories.foldl (fun w s => evalStory env s w) w2) :=
    fun w2 => only_foldl _ _ (fun w s _ => (only_evalStory env s w).mono fun _ _ => trivial) w2
  have hrun : ∃ later, ((boardHooks env b).run w0).log = later ++ .visit b.initRef :: w0.log :=
    ext _ _ _ _ (hstories _) hinit
  have hgoto : ∀ (w2 : World) (s : St), (∃ later, w2.log = later ++ .visit b.initRef :: w0.log) →
      ∃ later, (w2.goto b.ref s).log = later ++ .visit b.initRef :: w0.log := by
    rintro w2 s ⟨later, hl⟩; exact ⟨_ :: later, by rw [goto_log, hl]; rfl⟩
  rw [dispatch_running]
  by_cases hd : (boardHooks env b).accomplished ((boardHooks env b).run w0) = true
  · rw [if_pos hd]
    by_cases hn : w.cnt b.ref < (boardHooks env b).max
    · rw [if_pos hn]
      refine dispatch_pres (boardHooks env b) (fun w2 => ∃ later, w2.log =
        later ++ .visit b.initRef :: w0.log) (fun _ h => h) hgoto (fun _ _ h => h) (fun _ h => h)
        (fun w2 h => ?_) (fun w2 h => ?_) _ _ _ (hgoto _ _ (hgoto _ _ hrun))
      · exact ext _ _ _ _ (hstories _) (ext _ _ _ _ (only_evalInit env b w2) h)
      · exact ext (fun _ => True) _ _ _ (only_foldl _ _ (fun w s _ => only_overrideThen _ _ trivial
          (fun w => (only_evalStory env s w).mono fun _ _ => trivial) w) _)
          (ext (fun _ => True) _ _ _ (only_overrideThen _ _ trivial
            (fun w => (only_evalInit env b w).mono fun _ _ => trivial) _) h)
    · rw [if_neg hn]
      exact hgoto _ _ (hgoto _ _ hrun)
  · rw [if_neg hd]
    exact hrun

example : (runFrames exEnv exB 1).st exB.ref = .running ∧
    exEnv.stopTrigger exB.ref (.visit exB.ref :: (runFrames exEnv exB 1).log) = false := by
  decide +kernel

end Verif.Storyboard
