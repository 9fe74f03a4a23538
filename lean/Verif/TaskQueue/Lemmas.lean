import Verif.TaskQueue.Model
/-
Invariants of the task queue.
-/
namespace Verif.TaskQueue
variable {T E : Type}

theorem run_append (s : State T E) (a b : List (Choice T E)) :
    run s (a ++ b) = ((run (run s a).1 b).1, (run s a).2 ++ (run (run s a).1 b).2) := by
  induction a generalizing s with
  | nil => rfl
  | cons c a ih => simp only [List.cons_append, run, ih, List.append_assoc]

theorem queuedIn_append (a b : List (Event T E)) : queuedIn (a ++ b) = queuedIn a ++ queuedIn b := by simp [queuedIn]
theorem startedIn_append (a b : List (Event T E)) : startedIn (a ++ b) = startedIn a ++ startedIn b := by simp [startedIn]
theorem finishedIn_append (a b : List (Event T E)) : finishedIn (a ++ b) = finishedIn a ++ finishedIn b := by simp [finishedIn]
theorem threwIn_append (a b : List (Event T E)) : threwIn (a ++ b) = threwIn a ++ threwIn b := by simp [threwIn]

/-- What holds between the state and the events so far. -/
structure Inv (s : State T E) (l : List (Event T E)) : Prop where
  /-- nothing failed: the started tasks are the finished ones and the one running -/
  calm : threwIn l = [] → (s.thrown = none ∧ ∀ e, .recorded e ∉ l) ∧ (∀ e, s.pc ≠ .catching e) ∧
    match s.pc with
    | .running t => (∃ r, s.thunks = t :: r) ∧ startedIn l = finishedIn l ++ [t] ∧ queuedIn l = finishedIn l ++ s.thunks
    | .pop => (∃ t r, s.thunks = t :: r) ∧ startedIn l = finishedIn l ∧ queuedIn l = finishedIn l ++ s.thunks.tail
    | .front => s.thunks ≠ [] ∧ startedIn l = finishedIn l ∧ queuedIn l = finishedIn l ++ s.thunks
    | _ => startedIn l = finishedIn l ∧ queuedIn l = finishedIn l ++ s.thunks
  /-- a task failed: nothing else will happen -/
  failed : threwIn l ≠ [] → ∃ t e r, threwIn l = [(t, e)] ∧ s.thunks = t :: r ∧
    startedIn l = finishedIn l ++ [t] ∧ queuedIn l = finishedIn l ++ s.thunks ∧
    (s.pc = .catching e ∧ s.thrown = none ∧ (∀ e', .recorded e' ∉ l) ∨
      s.pc = .done ∧ s.thrown = some e ∧ ∀ e', .recorded e' ∈ l ↔ e' = e)

theorem inv_init : Inv (State.init : State T E) [] :=
  ⟨fun _ => ⟨⟨rfl, by simp⟩, by simp [State.init], by simp [State.init, startedIn, finishedIn, queuedIn]⟩, fun h => absurd rfl h⟩

theorem inv_dispatch {s : State T E} {l : List (Event T E)} (h : Inv s l) (o : Option E) :
    Inv (dispatch s o).1 (l ++ (dispatch s o).2) := by
  by_cases hc : threwIn l = []
  · obtain ⟨h1, h2, h3⟩ := h.calm hc
    unfold dispatch
    cases hp : s.pc with
    | loop =>
      rw [hp] at h3
      simp only [List.append_nil]
      refine ⟨fun _ => ⟨h1, ?_, ?_⟩, fun a => absurd hc a⟩
      · intro e; dsimp only; split <;> simp
      · dsimp only
        split
        · next h => split at h <;> cases h
        · next h => split at h <;> cases h
        · next h => split at h <;> cases h
        · exact h3
    | test =>
      rw [hp] at h3
      simp only [List.append_nil]
      refine ⟨fun _ => ⟨h1, ?_, ?_⟩, fun a => absurd hc a⟩
      · intro e; dsimp only; split <;> simp
      · dsimp only
        cases hq : s.thunks with
        | nil => rw [hq] at h3; simpa using h3
        | cons t r => rw [hq] at h3; simpa using h3
    | front =>
      rw [hp] at h3
      obtain ⟨hne, h3, h4⟩ := h3
      cases hq : s.thunks with
      | nil => exact absurd hq hne
      | cons t r =>
        dsimp only
        refine ⟨fun _ => ⟨⟨h1.1, by simpa using h1.2⟩, by simp, ?_⟩, fun a => absurd (by rw [threwIn_append, hc]; rfl) a⟩
        dsimp only
        rw [startedIn_append, finishedIn_append, queuedIn_append, h3, h4, hq]
        simp [startedIn, finishedIn, queuedIn]
    | running t =>
      rw [hp] at h3
      obtain ⟨⟨r, hq⟩, h3, h4⟩ := h3
      cases o with
      | none =>
        refine ⟨fun _ => ⟨⟨h1.1, by simpa using h1.2⟩, by simp, ?_⟩, fun a => absurd (by rw [threwIn_append, hc]; rfl) a⟩
        dsimp only
        rw [startedIn_append, finishedIn_append, queuedIn_append, h3, h4, hq]
        simp [startedIn, finishedIn, queuedIn]
      | some e =>
        refine ⟨fun a => ?_, fun _ => ⟨t, e, r, ?_, hq, ?_, ?_, .inl ⟨rfl, h1.1, ?_⟩⟩⟩
        · rw [threwIn_append, hc] at a; cases a
        · rw [threwIn_append, hc]; rfl
        · rw [startedIn_append, finishedIn_append, h3]; simp [startedIn, finishedIn]
        · rw [queuedIn_append, finishedIn_append, h4]; simp [queuedIn, finishedIn]
        · simpa using h1.2
    | pop =>
      rw [hp] at h3
      simp only [List.append_nil]
      refine ⟨fun _ => ⟨h1, by simp, ?_⟩, fun a => absurd hc a⟩
      exact ⟨h3.2.1, h3.2.2⟩
    | sleep =>
      rw [hp] at h3
      simp only [List.append_nil]
      exact ⟨fun _ => ⟨h1, by simp, h3⟩, fun a => absurd hc a⟩
    | catching e => exact absurd hp (h2 e)
    | done =>
      rw [hp] at h3
      simp only [List.append_nil]
      exact ⟨fun _ => ⟨h1, h2, by rw [hp]; exact h3⟩, fun a => absurd hc a⟩
  · obtain ⟨t, e, r, a1, a2, a3, a4, a5⟩ := h.failed hc
    rcases a5 with ⟨b1, b2, b3⟩ | ⟨b1, b2, b3⟩
    · unfold dispatch
      rw [b1]
      dsimp only
      refine ⟨fun x => ?_, fun _ => ⟨t, e, r, ?_, a2, ?_, ?_, .inr ⟨rfl, rfl, by simp [b3]⟩⟩⟩
      · rw [threwIn_append, a1] at x; cases x
      · rw [threwIn_append, a1]; rfl
      · rw [startedIn_append, finishedIn_append, a3]; simp [startedIn, finishedIn]
      · rw [queuedIn_append, finishedIn_append, a4]; simp [queuedIn, finishedIn]
    · unfold dispatch
      rw [b1]
      simp only [List.append_nil]
      exact h

/-- A step of a client changes neither the dispatcher nor what has been recorded; it can only add to the
queue. -/
theorem inv_client {s s' : State T E} {l a : List (Event T E)} (h : Inv s l) (hpc : s'.pc = s.pc)
    (ht : s'.thrown = s.thrown) (hq : s'.thunks = s.thunks ++ queuedIn a) (h1 : startedIn a = [])
    (h2 : finishedIn a = []) (h3 : threwIn a = []) (h4 : ∀ e, .recorded e ∉ a) : Inv s' (l ++ a) := by
  constructor
  · intro x
    rw [threwIn_append, h3, List.append_nil] at x
    obtain ⟨a1, a2, a3⟩ := h.calm x
    refine ⟨⟨by rw [ht]; exact a1.1, by simp [a1.2, h4]⟩, by rw [hpc]; exact a2, ?_⟩
    rw [hpc, startedIn_append, finishedIn_append, queuedIn_append, h1, h2, hq]
    simp only [List.append_nil]
    cases hp : s.pc with
    | running t =>
      rw [hp] at a3
      obtain ⟨⟨r, b1⟩, b2, b3⟩ := a3
      exact ⟨⟨r ++ queuedIn a, by rw [b1]; rfl⟩, b2, by rw [b3, List.append_assoc]⟩
    | pop =>
      rw [hp] at a3
      obtain ⟨⟨t, r, b1⟩, b2, b3⟩ := a3
      refine ⟨⟨t, r ++ queuedIn a, by rw [b1]; rfl⟩, b2, ?_⟩
      rw [b3, b1]; simp
    | front =>
      rw [hp] at a3
      exact ⟨by simp [a3.1], a3.2.1, by rw [a3.2.2, List.append_assoc]⟩
    | loop => rw [hp] at a3; exact ⟨a3.1, by rw [a3.2, List.append_assoc]⟩
    | test => rw [hp] at a3; exact ⟨a3.1, by rw [a3.2, List.append_assoc]⟩
    | sleep => rw [hp] at a3; exact ⟨a3.1, by rw [a3.2, List.append_assoc]⟩
    | catching e => rw [hp] at a3; exact ⟨a3.1, by rw [a3.2, List.append_assoc]⟩
    | done => rw [hp] at a3; exact ⟨a3.1, by rw [a3.2, List.append_assoc]⟩
  · intro x
    rw [threwIn_append, h3, List.append_nil] at x
    obtain ⟨t, e, r, b1, b2, b3, b4, b5⟩ := h.failed x
    refine ⟨t, e, r ++ queuedIn a, ?_, by rw [hq, b2]; rfl, ?_, ?_, ?_⟩
    · rw [threwIn_append, h3, List.append_nil, b1]
    · rw [startedIn_append, finishedIn_append, h1, h2, b3]; simp
    · rw [queuedIn_append, finishedIn_append, h2, b4, hq]; simp
    · rw [hpc, ht]
      simpa [h4] using b5

theorem inv_step {s : State T E} {l : List (Event T E)} (h : Inv s l) (c : Choice T E) :
    Inv (step s c).1 (l ++ (step s c).2) := by
  cases c with
  | dispatcher o => exact inv_dispatch h o
  | delay c t =>
    cases hp : s.pending c with
    | some _ => simpa [step, hp] using h
    | none =>
      cases ht : s.thrown with
      | some e =>
        simp only [step, hp, ht]
        exact inv_client h rfl rfl (by simp [queuedIn]) rfl rfl rfl (by simp)
      | none =>
        simp only [step, hp, ht]
        exact inv_client h rfl ht.symm (by simp [queuedIn]) rfl rfl rfl (by simp)
  | push c =>
    cases hp : s.pending c with
    | none => simpa [step, hp] using h
    | some t =>
      simp only [step, hp]
      exact inv_client h rfl rfl rfl rfl rfl rfl (by simp)
  | check c => exact inv_client h rfl rfl (by simp [queuedIn, step]) rfl rfl rfl (by simp [step])
  | isEmpty c => exact inv_client h rfl rfl (by simp [queuedIn, step]) rfl rfl rfl (by simp [step])
  | finalize => exact inv_client h rfl rfl (by simp [queuedIn, step]) rfl rfl rfl (by simp [step])
  | shutdown => exact inv_client h rfl rfl (by simp [queuedIn, step]) rfl rfl rfl (by simp [step])

theorem inv_run {s : State T E} {l : List (Event T E)} (h : Inv s l) (cs : List (Choice T E)) :
    Inv (run s cs).1 (l ++ (run s cs).2) := by
  induction cs generalizing s l with
  | nil => simpa [run] using h
  | cons c cs ih => simpa [run] using ih (inv_step h c)

theorem inv_reach (cs : List (Choice T E)) : Inv (run State.init cs).1 (run State.init cs).2 := by
  simpa using inv_run inv_init cs

/-- The choices of a scheduler while nothing is shut down and no task fails. -/
def benign : Choice T E → Bool
  | .dispatcher (some _) => false
  | .finalize => false
  | .shutdown => false
  | _ => true

/-- How many steps the dispatcher gets. -/
def turns (cs : List (Choice T E)) : Nat := cs.countP fun | .dispatcher _ => true | _ => false

/-- How many steps of the dispatcher suffice until `n` more tasks have finished. -/
def need (pc : PC T E) (n : Nat) : Nat :=
  if n = 0 then 0 else
  match pc with
  | .loop => 5 * n - 1
  | .test => 5 * n - 2
  | .front => 5 * n - 3
  | .running _ => 5 * n - 4
  | _ => 5 * n

/-- The dispatcher is alive. -/
structure Alive (s : State T E) (l : List (Event T E)) : Prop where
  inv : Inv s l
  calm : threwIn l = []
  ok : s.ok = true
  notFinalized : s.finalized = false
  notDone : s.pc ≠ .done

theorem alive_step {s : State T E} {l : List (Event T E)} (h : Alive s l) (c : Choice T E) (hb : benign c = true) :
    Alive (step s c).1 (l ++ (step s c).2) ∧ ∀ i, i < (queuedIn l).length →
    need (step s c).1.pc (i + 1 - (finishedIn (l ++ (step s c).2)).length) + turns [c] ≤
      max (need s.pc (i + 1 - (finishedIn l).length)) (turns [c]) := by
  have hinv := inv_step h.inv c
  obtain ⟨_, hcat, h3⟩ := h.inv.calm h.calm
  have client : ∀ (s' : State T E) (a : List (Event T E)), Inv s' (l ++ a) → threwIn a = [] → finishedIn a = [] →
      s'.ok = s.ok → s'.finalized = s.finalized → s'.pc = s.pc → turns [c] = 0 →
      Alive s' (l ++ a) ∧ ∀ i, i < (queuedIn l).length →
      need s'.pc (i + 1 - (finishedIn (l ++ a)).length) + turns [c] ≤
        max (need s.pc (i + 1 - (finishedIn l).length)) (turns [c]) := by
    intro s' a h1 h2 h3 h4 h5 h6 h7
    refine ⟨⟨h1, by rw [threwIn_append, h.calm, h2]; rfl, h4.trans h.ok, h5.trans h.notFinalized, h6 ▸ h.notDone⟩, ?_⟩
    intro i _
    rw [finishedIn_append, h3, List.append_nil, h6, h7]
    omega
  cases c with
  | dispatcher o =>
    cases o with
    | some e => cases hb
    | none =>
      have ht : turns [(.dispatcher none : Choice T E)] = 1 := rfl
      rw [ht]
      cases hp : s.pc with
      | loop =>
        simp only [step, dispatch, hp] at hinv ⊢
        refine ⟨⟨hinv, by rw [threwIn_append, h.calm]; rfl, h.ok, h.notFinalized, by simp [h.ok, h.notFinalized]⟩, ?_⟩
        intro i hi
        simp only [List.append_nil, need, h.ok, h.notFinalized]
        split <;> simp <;> omega
      | test =>
        rw [hp] at h3
        cases ht : s.thunks with
        | nil =>
          rw [ht, List.append_nil] at h3
          simp only [step, dispatch, hp, ht] at hinv ⊢
          refine ⟨⟨hinv, by rw [threwIn_append, h.calm]; rfl, h.ok, h.notFinalized, by simp⟩, ?_⟩
          intro i hi
          rw [h3.2] at hi
          simp only [List.append_nil, need]
          rw [if_pos (by omega)]
          omega
        | cons t r =>
          simp only [step, dispatch, hp, ht] at hinv ⊢
          refine ⟨⟨hinv, by rw [threwIn_append, h.calm]; rfl, h.ok, h.notFinalized, by simp⟩, ?_⟩
          intro i hi
          simp only [List.append_nil, need]
          split <;> simp <;> omega
      | front =>
        rw [hp] at h3
        cases ht : s.thunks with
        | nil => exact absurd ht h3.1
        | cons t r =>
          simp only [step, dispatch, hp, ht] at hinv ⊢
          refine ⟨⟨hinv, by rw [threwIn_append, h.calm]; rfl, h.ok, h.notFinalized, by simp⟩, ?_⟩
          intro i hi
          have : finishedIn [(.started t : Event T E)] = [] := rfl
          rw [finishedIn_append, this, List.append_nil]
          simp only [need]
          split <;> omega
      | running t =>
        simp only [step, dispatch, hp] at hinv ⊢
        refine ⟨⟨hinv, by rw [threwIn_append, h.calm]; rfl, h.ok, h.notFinalized, by simp⟩, ?_⟩
        intro i hi
        rw [finishedIn_append]
        have : (finishedIn [(.finished t : Event T E)]).length = 1 := rfl
        simp only [List.length_append, this, need]
        split <;> split <;> omega
      | pop =>
        simp only [step, dispatch, hp] at hinv ⊢
        refine ⟨⟨hinv, by rw [threwIn_append, h.calm]; rfl, h.ok, h.notFinalized, by simp⟩, ?_⟩
        intro i hi
        simp only [List.append_nil, need]
        split <;> omega
      | sleep =>
        simp only [step, dispatch, hp] at hinv ⊢
        refine ⟨⟨hinv, by rw [threwIn_append, h.calm]; rfl, h.ok, h.notFinalized, by simp⟩, ?_⟩
        intro i hi
        simp only [List.append_nil, need]
        split <;> omega
      | catching e => exact absurd hp (hcat e)
      | done => exact absurd hp h.notDone
  | delay c t =>
    cases hp : s.pending c with
    | some _ => simp only [step, hp] at hinv ⊢; exact client _ _ hinv rfl rfl rfl rfl rfl rfl
    | none =>
      cases ht : s.thrown with
      | some e => simp only [step, hp, ht] at hinv ⊢; exact client _ _ hinv rfl rfl rfl rfl rfl rfl
      | none => simp only [step, hp, ht] at hinv ⊢; exact client _ _ hinv rfl rfl rfl rfl rfl rfl
  | push c =>
    cases hp : s.pending c with
    | none => simp only [step, hp] at hinv ⊢; exact client _ _ hinv rfl rfl rfl rfl rfl rfl
    | some t => simp only [step, hp] at hinv ⊢; exact client _ _ hinv rfl rfl rfl rfl rfl rfl
  | check c => exact client _ _ hinv rfl rfl rfl rfl rfl rfl
  | isEmpty c => exact client _ _ hinv rfl rfl rfl rfl rfl rfl
  | finalize => cases hb
  | shutdown => cases hb

theorem progress {s : State T E} {l : List (Event T E)} (h : Alive s l) (ds : List (Choice T E))
    (hb : ∀ c ∈ ds, benign c = true) (i : Nat) (hi : i < (queuedIn l).length)
    (ht : need s.pc (i + 1 - (finishedIn l).length) ≤ turns ds) :
    i < (finishedIn (l ++ (run s ds).2)).length := by
  induction ds generalizing s l with
  | nil =>
    have : turns ([] : List (Choice T E)) = 0 := rfl
    rw [this] at ht
    simp only [run, List.append_nil]
    apply Classical.byContradiction
    intro c
    have : 0 < need s.pc (i + 1 - (finishedIn l).length) := by
      unfold need
      rw [if_neg (by omega)]
      split <;> omega
    omega
  | cons c ds ih =>
    obtain ⟨a1, a3⟩ := alive_step h c (hb c (by simp))
    have a2 : i < (queuedIn (l ++ (step s c).2)).length := by rw [queuedIn_append, List.length_append]; omega
    have a3 := a3 i hi
    have ht' : turns (c :: ds) = turns [c] + turns ds := by
      unfold turns
      rw [List.countP_cons, List.countP_cons, List.countP_nil]
      omega
    have := ih a1 (fun c hc => hb c (by simp [hc])) a2 (by omega)
    simpa [run] using this

theorem alive_run {s : State T E} {l : List (Event T E)} (h : Alive s l) (cs : List (Choice T E))
    (hb : ∀ c ∈ cs, benign c = true) : Alive (run s cs).1 (l ++ (run s cs).2) := by
  induction cs generalizing s l with
  | nil => simpa [run] using h
  | cons c cs ih => simpa [run] using ih (alive_step h c (hb c (by simp))).1 (fun c hc => hb c (by simp [hc]))

theorem thrown_stays {s : State T E} {l : List (Event T E)} (h : Inv s l) {e : E} (ht : s.thrown = some e)
    (cs : List (Choice T E)) : (run s cs).1.thrown = some e := by
  have h' := inv_run h cs
  have hne : threwIn l ≠ [] := by intro c; have := (h.calm c).1.1; rw [ht] at this; cases this
  obtain ⟨t, e0, r, b1, _, _, _, b5⟩ := h.failed hne
  have b5 : s.pc = .done ∧ s.thrown = some e0 ∧ ∀ e', .recorded e' ∈ l ↔ e' = e0 := by
    rcases b5 with b | b
    · rw [ht] at b; cases b.2.1
    · exact b
  have e1 : e0 = e := by have := b5.2.1; rw [ht] at this; cases this; rfl
  subst e1
  have hr : .recorded e0 ∈ l := (b5.2.2 e0).mpr rfl
  have hne' : threwIn (l ++ (run s cs).2) ≠ [] := by
    rw [threwIn_append]; simp [hne]
  obtain ⟨t', e', r', c1, _, _, _, c5⟩ := h'.failed hne'
  rcases c5 with c | c
  · exact absurd (List.mem_append_left _ hr) (c.2.2 e0)
  · have := (c.2.2 e0).mp (List.mem_append_left _ hr)
    rw [c.2.1, this]

end Verif.TaskQueue
