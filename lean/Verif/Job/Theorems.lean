import Verif.Job.Lemmas
/-
C27: jobs.
-/
namespace Verif.Job
variable {σ T : Type} [Zero T] [Add T]

/-- C27: in every history, the calls of every job are some runs, followed by exactly one clean-up if
and only if the job is not active any more: an inactive job is never run again and never cleaned up
twice. -/
theorem C27_calls (st : σ) (ops : List (Op σ T)) (k : Nat) (j : Job σ T)
    (h : (run st ops).jobs[k]? = some j) :
    ∃ n, of k (run st ops).log = List.replicate n (.ran k) ++ if j.active then [] else [.cleaned k] :=
  (fine_run st ops).1 k j h

/-- C27: at any time at most one job of each type is active among those appended as exclusive (and
among the others as well). -/
theorem C27_at_most_one (st : σ) (ops : List (Op σ T)) (k k' : Nat) (j j' : Job σ T)
    (h : (run st ops).jobs[k]? = some j) (h' : (run st ops).jobs[k']? = some j')
    (a : j.active = true) (a' : j'.active = true) (t : j.type = j'.type)
    (x : j.exclusive = j'.exclusive) : k = k' := by
  have f := (fine_run st ops).2.2
  rcases Nat.lt_trichotomy k k' with hlt | rfl | hlt
  · exact absurd ⟨t, x⟩ (f k k' j j' hlt h h' a a')
  · rfl
  · exact absurd ⟨t.symm, x.symm⟩ (f k' k j' j hlt h' h a' a)

omit [Add T] in
/-- C27: an append adds an active job at the end; of the others, exactly the active ones of the same
type and exclusiveness are inactivated and cleaned up, once; the rest is not touched. -/
theorem C27_append (u : T → σ → σ × Outcome) (c : σ → σ) (t : JType) (x : Bool) (e : Event) (s : S σ T) :
    (∃ j, (append u c t x e s).jobs[s.jobs.length]? = some j ∧ j.active = true ∧ j.type = t ∧
      j.exclusive = x ∧ j.event = e ∧ j.onUpdate = u ∧ j.onCleanup = c ∧ j.duration = 0) ∧
    (append u c t x e s).jobs.length = s.jobs.length + 1 ∧
    ∀ k j, s.jobs[k]? = some j →
      if j.active = true ∧ j.type = t ∧ j.exclusive = x then
        (append u c t x e s).jobs[k]? = some { j with active := false } ∧
        of k (append u c t x e s).log = of k s.log ++ [.cleaned k]
      else
        (append u c t x e s).jobs[k]? = some j ∧ of k (append u c t x e s).log = of k s.log := by
  have hj : (append u c t x e s).jobs = s.jobs.map (fun j =>
      if j.type == t && j.exclusive == x && j.active then { j with active := false } else j) ++
        [{ onUpdate := u, onCleanup := c, type := t, exclusive := x, event := e, active := true, duration := 0 }] := by
    unfold append; simp only [inactivate_jobs]
  refine ⟨?_, ?_, ?_⟩
  · rw [hj, List.getElem?_append_right (by simp)]
    simp
  · rw [hj]; simp
  · intro k j hk
    have hl := (List.getElem?_eq_some_iff.mp hk).1
    have hjk : (append u c t x e s).jobs[k]? = some (if j.type == t && j.exclusive == x && j.active
        then { j with active := false } else j) := by
      rw [hj, List.getElem?_append_left (by simpa using hl), List.getElem?_map, hk]; rfl
    have hc := inactivate_calls (fun j => j.type == t && j.exclusive == x) 0 s.st s.jobs k j hk
    rw [Nat.zero_add] at hc
    have hlog : of k (append u c t x e s).log = of k s.log ++ _ := of_append k _ _
    rw [hc] at hlog
    rw [hjk, hlog]
    by_cases h1 : j.active = true <;> by_cases h2 : j.type = t <;> by_cases h3 : j.exclusive = x <;>
      simp_all

omit [Zero T] in
/-- C27: an update that is not left by an exception runs every active job of its event exactly once,
and no other. -/
theorem C27_update (step : T) (ev : Event) (s : S σ T) (ok : (update step ev s).2 = false) (k : Nat)
    (j : Job σ T) (h : s.jobs[k]? = some j) :
    ((of k (update step ev s).1.log).drop (of k s.log).length).count (.ran k) =
      if j.active = true ∧ j.event = ev then 1 else 0 := by
  obtain ⟨j', _, hu⟩ := update_calls step ev 0 s.st s.jobs k j h
  rw [Nat.zero_add] at hu
  have hlog : of k (update step ev s).1.log = of k s.log ++ _ := of_append k _ _
  rw [hlog, List.drop_left]
  obtain ⟨_, _, _, _, _, (⟨e1, _⟩ | ⟨e1, e2, _, e4⟩ | ⟨e1, e2, _, e4⟩)⟩ := hu
  · rw [e1]
    by_cases c : j.active = true ∧ j.event = ev
    · exact absurd (by rw [Nat.zero_add]; exact e1) (update_runs step ev 0 s.st s.jobs k j h c.1 c.2 ok)
    · rw [if_neg c]; rfl
  · rw [e4, if_pos ⟨e1, e2⟩]; simp
  · rw [e4, if_pos ⟨e1, e2⟩]; simp

omit [Add T] in
/-- C27: the calls of an append have their effects: the state is the one after the clean-ups logged. -/
theorem C27_append_effects (u : T → σ → σ × Outcome) (c : σ → σ) (t : JType) (x : Bool) (e : Event) (s : S σ T) :
    ∃ calls, (append u c t x e s).log = s.log ++ calls ∧ (append u c t x e s).st = replay s.jobs s.st calls :=
  ⟨_, rfl, inactivate_replay s.jobs _ 0 s.st s.jobs rfl⟩

omit [Zero T] in
/-- C27: the calls of an update have their effects: the state is the one after the runs and clean-ups logged. -/
theorem C27_update_effects (step : T) (ev : Event) (s : S σ T) :
    ∃ calls, (update step ev s).1.log = s.log ++ calls ∧ (update step ev s).1.st = replay s.jobs s.st calls :=
  ⟨_, rfl, update_replay s.jobs step ev 0 s.st s.jobs rfl⟩

omit [Zero T] in
/-- C27: the duration given to a job is the time for which it has been run. -/
theorem C27_duration (step : T) (ev : Event) (s : S σ T) (ok : (update step ev s).2 = false) (k : Nat)
    (j : Job σ T) (h : s.jobs[k]? = some j) :
    ((update step ev s).1.jobs[k]?).map (·.duration) =
      some (if j.active = true ∧ j.event = ev then j.duration + step else j.duration) :=
  update_duration step ev 0 s.st s.jobs k j h ok

/-- Two requests of the same type and an update: the first job has been run once and cleaned up once
by the second append, the second has been run twice and is still active. -/
example : (run (σ := Nat) (T := Nat) 0
      [.append (fun _ n => (n + 1, .returns false)) (· + 100) .linearVelocity true .post,
       .update 1 .post,
       .append (fun _ n => (n + 10, .returns false)) (· + 1000) .linearVelocity true .post,
       .update 1 .post, .update 1 .pre, .update 1 .post]).log =
    [.ran 0, .cleaned 0, .ran 1, .ran 1] ∧
    (run (σ := Nat) (T := Nat) 0
      [.append (fun _ n => (n + 1, .returns false)) (· + 100) .linearVelocity true .post,
       .update 1 .post,
       .append (fun _ n => (n + 10, .returns false)) (· + 1000) .linearVelocity true .post,
       .update 1 .post, .update 1 .pre, .update 1 .post]).st = 121 := by
  decide +kernel

end Verif.Job
