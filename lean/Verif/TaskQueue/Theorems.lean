import Verif.TaskQueue.Lemmas
/-
C36: order. C37: failure. C38: exhaustion. For every scheduler, number of clients, outcome of tasks.
-/
namespace Verif.TaskQueue
variable {T E : Type}

/-- C36: at every moment of every execution the finished tasks, followed by at most one more, the one
running or failed, are the started tasks; and the started tasks are the tasks queued first, in the order
queued. So tasks run one at a time, each at most once, in order, none skipped. -/
theorem C36_order (cs : List (Choice T E)) :
    let l := (run State.init cs).2
    (startedIn l = finishedIn l ∨ ∃ t, startedIn l = finishedIn l ++ [t]) ∧ startedIn l <+: queuedIn l := by
  have h := inv_reach cs
  generalize (run State.init cs).1 = s at h
  generalize (run State.init cs).2 = l at h
  by_cases hc : threwIn l = []
  · obtain ⟨_, _, h3⟩ := h.calm hc
    cases hp : s.pc with
    | running t =>
      rw [hp] at h3
      obtain ⟨⟨r, b1⟩, b2, b3⟩ := h3
      exact ⟨.inr ⟨t, b2⟩, r, by rw [b2, b3, b1]; simp⟩
    | pop => rw [hp] at h3; exact ⟨.inl h3.2.1, _, by rw [h3.2.1, h3.2.2]⟩
    | front => rw [hp] at h3; exact ⟨.inl h3.2.1, _, by rw [h3.2.1, h3.2.2]⟩
    | loop => rw [hp] at h3; exact ⟨.inl h3.1, _, by rw [h3.1, h3.2]⟩
    | test => rw [hp] at h3; exact ⟨.inl h3.1, _, by rw [h3.1, h3.2]⟩
    | sleep => rw [hp] at h3; exact ⟨.inl h3.1, _, by rw [h3.1, h3.2]⟩
    | catching e => rw [hp] at h3; exact ⟨.inl h3.1, _, by rw [h3.1, h3.2]⟩
    | done => rw [hp] at h3; exact ⟨.inl h3.1, _, by rw [h3.1, h3.2]⟩
  · obtain ⟨t, e, r, b1, b2, b3, b4, _⟩ := h.failed hc
    exact ⟨.inr ⟨t, b3⟩, r, by rw [b3, b4, b2]; simp⟩

/-- C36: the dispatcher never takes the front of an empty queue and never pops one. -/
theorem C36_front_defined (cs : List (Choice T E)) :
    (run State.init cs).1.pc = .front ∨ (run State.init cs).1.pc = .pop → (run (State.init : State T E) cs).1.thunks ≠ [] := by
  have h := inv_reach cs
  generalize (run State.init cs).1 = s at h
  generalize (run State.init cs).2 = l at h
  intro hp
  by_cases hc : threwIn l = []
  · obtain ⟨_, _, h3⟩ := h.calm hc
    rcases hp with hp | hp <;> rw [hp] at h3
    · exact h3.1
    · obtain ⟨⟨t, r, e⟩, _⟩ := h3; rw [e]; simp
  · obtain ⟨t, e, r, _, b2, _⟩ := h.failed hc
    rw [b2]; simp

/-- C36, progress: while tasks succeed and nothing is shut down, the `i`-th task queued has finished after
`5 * (i + 1)` further steps of the dispatcher, whatever the clients do. -/
theorem C36_progress (cs ds : List (Choice T E)) (hc : ∀ c ∈ cs ++ ds, benign c = true) (i : Nat)
    (hi : i < (queuedIn (run State.init cs).2).length) (ht : 5 * (i + 1) ≤ turns ds) :
    i < (finishedIn (run (State.init : State T E) (cs ++ ds)).2).length := by
  have ha : Alive (run (State.init : State T E) cs).1 (run State.init cs).2 := by
    have := alive_run (T := T) (E := E) (s := State.init) (l := [])
      ⟨inv_init, rfl, rfl, rfl, by simp [State.init]⟩ cs (fun c h => hc c (by simp [h]))
    simpa using this
  rw [run_append]
  refine progress ha ds (fun c h => hc c (by simp [h])) i hi (Nat.le_trans ?_ ht)
  unfold need
  split
  · omega
  · split <;> omega

/-- C37: once a task has thrown, no task is ever started again, whatever happens. -/
theorem C37_nothing_started (cs ds : List (Choice T E)) (t : T) (e : E)
    (h : .threw t e ∈ (run (State.init : State T E) cs).2) :
    startedIn (run (State.init : State T E) (cs ++ ds)).2 = startedIn (run (State.init : State T E) cs).2 := by
  have hne : threwIn (run (State.init : State T E) cs).2 ≠ [] := by
    intro c
    have : (t, e) ∈ threwIn (run (State.init : State T E) cs).2 := List.mem_filterMap.mpr ⟨_, h, rfl⟩
    rw [c] at this; cases this
  have key : ∀ (ds : List (Choice T E)) (s : State T E), ((∃ e, s.pc = .catching e) ∨ s.pc = .done) →
      startedIn (run s ds).2 = [] := by
    intro ds
    induction ds with
    | nil => intro s _; rfl
    | cons d ds ih =>
      intro s hs
      have hd : startedIn (step s d).2 = [] ∧ ((∃ e, (step s d).1.pc = .catching e) ∨ (step s d).1.pc = .done) := by
        cases d with
        | dispatcher o =>
          rcases hs with ⟨e, hs⟩ | hs <;> simp [step, dispatch, hs, startedIn]
        | delay c t =>
          cases hp : s.pending c with
          | some _ => simp only [step, hp]; exact ⟨rfl, hs⟩
          | none => cases ht : s.thrown <;> simp only [step, hp, ht] <;> exact ⟨rfl, hs⟩
        | push c => cases hp : s.pending c <;> simp only [step, hp] <;> exact ⟨rfl, hs⟩
        | check c => exact ⟨rfl, hs⟩
        | isEmpty c => exact ⟨rfl, hs⟩
        | finalize => exact ⟨rfl, hs⟩
        | shutdown => exact ⟨rfl, hs⟩
      simp only [run]
      rw [startedIn_append, hd.1, ih _ hd.2]; rfl
  obtain ⟨_, e', _, _, _, _, _, b5⟩ := (inv_reach cs).failed hne
  rw [run_append, startedIn_append, key ds _ (by rcases b5 with b | b; exact .inl ⟨e', b.1⟩; exact .inr b.1)]
  simp

/-- C37: the next step of the dispatcher after a task threw records the error. -/
theorem C37_recorded (cs : List (Choice T E)) (t : T) (e : E) (o : Option E)
    (h : .threw t e ∈ (run (State.init : State T E) cs).2) :
    .recorded e ∈ (run (State.init : State T E) (cs ++ [.dispatcher o])).2 := by
  have hm : (t, e) ∈ threwIn (run (State.init : State T E) cs).2 := List.mem_filterMap.mpr ⟨_, h, rfl⟩
  have hne : threwIn (run (State.init : State T E) cs).2 ≠ [] := by
    intro c; rw [c] at hm; cases hm
  obtain ⟨t', e', r, b1, _, _, _, b5⟩ := (inv_reach cs).failed hne
  rw [b1] at hm
  simp only [List.mem_singleton, Prod.mk.injEq] at hm
  obtain ⟨rfl, rfl⟩ := hm
  rw [run_append]
  rcases b5 with b | b
  · apply List.mem_append_right
    simp [run, step, dispatch, b.1]
  · exact List.mem_append_left _ ((b.2.2 e).mpr rfl)

/-- C37: from then on every call of `delay` (by a client that is not in one) throws the error, every check
throws it, for ever, and only calls of `delay` that were past their check can still queue a task (which is
never started). -/
theorem C37_reported (cs ds : List (Choice T E)) (e : E) (h : .recorded e ∈ (run (State.init : State T E) cs).2) :
    let s := (run (State.init : State T E) (cs ++ ds)).1
    (∀ c, (step s (.check c)).2 = [.checked c (some e)]) ∧
    (∀ c t, s.pending c = none → step s (.delay c t) = (s, [.rejected c e])) ∧
    (∀ c, (run State.init cs).1.pending c = none → s.pending c = none) := by
  have hi := inv_reach cs
  have ht : (run (State.init : State T E) cs).1.thrown = some e := by
    by_cases hc : threwIn (run (State.init : State T E) cs).2 = []
    · exact absurd h ((hi.calm hc).1.2 e)
    · obtain ⟨_, e', _, _, _, _, _, b5⟩ := hi.failed hc
      rcases b5 with b | b
      · exact absurd h (b.2.2 e)
      · rw [b.2.1, (b.2.2 e).mp h]
  have hs : (run (State.init : State T E) (cs ++ ds)).1.thrown = some e := by
    rw [run_append]; exact thrown_stays hi ht ds
  refine ⟨?_, ?_, ?_⟩
  · intro c; simp only [step]; rw [hs]
  · intro c t hp; simp only [step, hp, hs]
  · intro c hp
    rw [run_append]
    show (run _ ds).1.pending c = none
    have key : ∀ (ds : List (Choice T E)) (s : State T E) (l : List (Event T E)), Inv s l → s.thrown = some e →
        s.pending c = none → (run s ds).1.pending c = none := by
      intro ds
      induction ds with
      | nil => intro s l _ _ hp; exact hp
      | cons d ds ih =>
        intro s l hi hth hp
        refine ih (step s d).1 (l ++ (step s d).2) (inv_step hi d) ?_ ?_
        · have := thrown_stays hi hth [d]
          simpa [run] using this
        · cases d with
          | dispatcher o =>
            have : (dispatch s o).1.pending = s.pending := by
              unfold dispatch
              split <;> (try rfl) <;> split <;> rfl
            simp only [step]
            rw [this, hp]
          | delay c' t =>
            cases hp' : s.pending c' with
            | some _ => simp only [step, hp']; exact hp
            | none => simp only [step, hp', hth]; exact hp
          | push c' =>
            cases hp' : s.pending c' with
            | none => simp only [step, hp']; exact hp
            | some _ => 
              simp only [step, hp']
              split
              · rfl
              · exact hp
          | check c' => exact hp
          | isEmpty c' => exact hp
          | finalize => exact hp
          | shutdown => exact hp
    exact key ds _ _ hi ht hp

/-- C38: whenever the queue reports to be empty, every task queued so far has finished. -/
theorem C38_empty_means_finished (cs : List (Choice T E)) (c : Nat)
    (h : (step (run (State.init : State T E) cs).1 (.isEmpty c)).2 = [.empty c true]) :
    finishedIn (run (State.init : State T E) cs).2 = queuedIn (run (State.init : State T E) cs).2 ∧
    startedIn (run (State.init : State T E) cs).2 = queuedIn (run (State.init : State T E) cs).2 ∧
    threwIn (run (State.init : State T E) cs).2 = [] := by
  have hi := inv_reach cs
  generalize (run State.init cs).1 = s at h hi
  generalize (run State.init cs).2 = l at hi ⊢
  have he : s.thunks = [] := by
    simp only [step, List.cons.injEq, Event.empty.injEq, true_and, and_true] at h
    exact List.isEmpty_iff.mp h
  by_cases hc : threwIn l = []
  · obtain ⟨_, _, h3⟩ := hi.calm hc
    refine ⟨?_, ?_, hc⟩ <;>
    · cases hp : s.pc <;> rw [hp, he] at h3 <;> simp_all
  · obtain ⟨t, e, r, _, b2, _⟩ := hi.failed hc
    rw [he] at b2; cases b2

/-- C38: after a task failed the queue never reports to be empty. -/
theorem C38_failed_never_empty (cs ds : List (Choice T E)) (t : T) (e : E) (c : Nat)
    (h : .threw t e ∈ (run (State.init : State T E) cs).2) :
    (step (run (State.init : State T E) (cs ++ ds)).1 (.isEmpty c)).2 = [.empty c false] := by
  have hm : .threw t e ∈ (run (State.init : State T E) (cs ++ ds)).2 := by
    rw [run_append]; exact List.mem_append_left _ h
  have hi := inv_reach (T := T) (E := E) (cs ++ ds)
  have hne : threwIn (run (State.init : State T E) (cs ++ ds)).2 ≠ [] := by
    intro c
    have : (t, e) ∈ threwIn (run (State.init : State T E) (cs ++ ds)).2 := List.mem_filterMap.mpr ⟨_, hm, rfl⟩
    rw [c] at this; cases this
  obtain ⟨t, e, r, _, b2, _⟩ := hi.failed hne
  simp only [step]
  rw [b2]; rfl

/-- Two clients and a dispatcher: task 1 succeeds, task 2 throws, task 3 was queued in between and is never
started; afterwards `delay` throws and the queue is not empty. -/
def exChoices : List (Choice Nat String) :=
  [.dispatcher none, .delay 0 1, .dispatcher none, .push 0, .delay 0 2, .dispatcher none, .push 0, .dispatcher none,
   .dispatcher none, .dispatcher none, .delay 1 3, .dispatcher none, .dispatcher none, .dispatcher none,
   .dispatcher none, .dispatcher none, .push 1, .dispatcher (some "x"), .dispatcher none, .delay 0 4, .isEmpty 0]

example : (run State.init exChoices).2 =
    [.queued 0 1, .queued 0 2, .started 1, .finished 1, .started 2, .queued 1 3, .threw 2 "x", .recorded "x",
     .rejected 0 "x", .empty 0 false] := by decide +kernel

example : (run State.init ([.delay 0 1, .push 0] ++ List.replicate 4 (.dispatcher none) ++ [.isEmpty 0, .dispatcher none, .isEmpty 0] :
    List (Choice Nat String))).2 = [.queued 0 1, .started 1, .finished 1, .empty 0 false, .empty 0 true] := by
  decide +kernel

end Verif.TaskQueue
