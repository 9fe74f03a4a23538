import Verif.Process.NoticeTheorems
/-
Where C229, C232 and C233 are false, and examples of all claims about processes.
-/
namespace Verif.Process

theorem Recordable.run {s : State} (h : Recordable s) (l : List Op) (hl : ∀ o ∈ l, o ≠ .activate true none) : Recordable (run s l) := by
  induction l generalizing s with
  | nil => exact h
  | cons o l ih => exact ih (.step s o h (hl o (List.mem_cons_self ..))) fun o ho => hl o (List.mem_cons_of_mem _ ho)

/-- A machine with two processes of others. -/
def some0 : State := start 100 100 [⟨1, 1, 0, none, false, none, none⟩, ⟨50, 50, 1, none, false, none, none⟩] 2

theorem some0_recordable : Recordable some0 := .start _ _ _ _
  ⟨by decide, by decide, by decide, by decide, by decide⟩

/-- C229 is false if the wait for Autoware is interrupted by a signal: the ego is removed, and its Autoware runs on. -/
theorem C229_interrupted_violated (s : State) (hm : s.mode = .terminating) (k : Nat) (hr : Running s k) :
    let s' := run s [.wake .interrupted, .interrupt]
    s'.autoware = none ∧ Running s' k := by
  have e : step s (.wake .interrupted) = { s with mode := .reaping } := if_pos hm
  obtain ⟨p, hp, h1, h2⟩ := hr
  intro s'
  have e' : s' = afterDestroy { s with mode := .reaping } := by
    show step (step s (.wake .interrupted)) .interrupt = _
    rw [e]; rfl
  rw [e']
  unfold afterDestroy stopRecord
  dsimp only
  split
  · split
    · split <;> exact ⟨rfl, p, hp, h1, h2⟩
    · exact ⟨rfl, p, hp, h1, h2⟩
  · exact ⟨rfl, p, hp, h1, h2⟩

/-- C229 is false for the processes Autoware's launch has started, if the launch itself ends before the ego is removed: the ego
is removed, and nothing is told to end. -/
theorem C229_left_violated (s : State) (hs : Recordable s) (n : Nat) (hm : s.mode = .idle) (ha : s.active = true)
    (hn : s.autoware = some n) (h0 : n ≠ 0) (hr : ∃ p ∈ s.m.procs, p.pid = n ∧ p.ended ≠ none)
    (q : Proc) (hq : q ∈ s.m.procs) (hqr : q.ended = none) :
    let s' := run s [.spin, .despawn]
    s'.mode = .idle ∧ s'.autoware = none ∧ s'.m.sent = s.m.sent ∧ q ∈ s'.m.procs := by
  have i := hs.inv
  obtain ⟨p, hp, p1, p2⟩ := hr
  obtain ⟨c, hc, c1, c2⟩ := i.aw n hn h0
  have hpc : c = p := nodup_inj i.wf.pids hc hp (c1.trans p1.symm)
  subst hpc
  obtain ⟨st, hst⟩ := Option.ne_none_iff_exists'.1 p2
  have hw := find_ended i.wf hc c2 hst
  rw [c1] at hw
  obtain ⟨e, he, hse⟩ := i.wf.fin c hc st hst
  have hend := end_status e he
  rw [← hse] at hend
  have hq' : q ∈ s.m.procs.filter fun x => x.key != c.key := by
    refine List.mem_filter.2 ⟨hq, ?_⟩
    rw [bne_iff_ne]
    intro h
    rw [nodup_inj i.wf.keys hq hc h] at hqr
    exact p2 hqr
  have key : ∀ (t : State), t.mode = .idle → t.active = true → t.autoware = some 0 → t.resetting = false →
      t.m.sent = s.m.sent → q ∈ t.m.procs →
      (step t .despawn).mode = .idle ∧ (step t .despawn).autoware = none ∧ (step t .despawn).m.sent = s.m.sent ∧ q ∈ (step t .despawn).m.procs := by
    intro t h1 h2 h3 h4 h5 h6
    have : step t .despawn = { t with autoware := none, mode := .idle } := by
      rw [show step t .despawn = destroy t from if_pos ⟨h1, h2⟩]
      unfold destroy
      rw [h3]
      show afterDestroy t = _
      unfold afterDestroy
      dsimp only
      rw [if_neg (by rw [h4]; nofun)]
    rw [this]
    exact ⟨rfl, rfl, h5, h6⟩
  have hrs : s.resetting = false := by
    cases h : s.resetting with
    | false => rfl
    | true => exact absurd hm (i.rst h).2.1
  intro s'
  show (step (step s .spin) .despawn).mode = .idle ∧ (step (step s .spin) .despawn).autoware = none ∧
    (step (step s .spin) .despawn).m.sent = s.m.sent ∧ q ∈ (step (step s .spin) .despawn).m.procs
  have hsp : step s .spin = spin s := if_pos hm
  rw [hsp]
  unfold spin
  split
  · rename_i h; rw [h] at hn; cases hn
  · rename_i h; rw [h] at hn; injection hn with h; exact absurd h.symm h0
  · rename_i x _ hx
    have hx : x = n := by rw [hx] at hn; injection hn
    rw [hx, hw]
    dsimp only
    by_cases h1 : wifexited st = true
    · rw [if_pos h1]; exact key _ hm ha rfl hrs rfl hq'
    · rw [if_neg h1]
      have h2 : wifsignaled st = true := by
        simp only [Bool.or_eq_true] at hend
        exact hend.resolve_left h1
      rw [if_pos h2]
      exact key _ hm ha rfl hrs rfl hq'

/-- A removal that has stopped waiting for the time limit waits for as long as Autoware runs. -/
theorem reaping_stays {s : State} (i : Inv s) {n : Nat} (hm : s.mode = .reaping) (hn : s.autoware = some n)
    (hr : ∃ p ∈ s.m.procs, p.pid = n ∧ p.child = true ∧ p.ended = none) (h : List Op)
    (hh : ∀ o ∈ h, Smooth o ∧ ∀ e, o ≠ .event (.finish n e)) : (run s h).mode = .reaping := by
  have p := run_induct (C := fun o => Smooth o ∧ ∀ e, o ≠ .event (.finish n e))
    (P := fun t : State => t.mode = .reaping ∧ t.autoware = some n ∧ ∃ p ∈ t.m.procs, p.pid = n ∧ p.child = true ∧ p.ended = none)
    (fun o ho => smooth_ne ho.1) ?_ i ⟨hm, hn, hr⟩ h hh
  · exact p.1
  · rintro t o it ⟨hsm, hfi⟩ ⟨hmode, haw, p, hp, p1, p2, p3⟩
    have hidle : t.mode ≠ .idle := by rw [hmode]; nofun
    cases o with
    | event e =>
      refine ⟨hmode, haw, ?_⟩
      show ∃ p ∈ (t.m.event e).procs, p.pid = n ∧ p.child = true ∧ p.ended = none
      cases e with
      | spawn a x =>
        refine ⟨p, ?_, p1, p2, p3⟩
        unfold Machine.event; dsimp only
        split
        · split
          · exact List.mem_append_left _ hp
          · exact hp
        · exact hp
      | lead x =>
        refine ⟨_, List.mem_map.2 ⟨p, hp, rfl⟩, ?_⟩
        split <;> exact ⟨p1, p2, p3⟩
      | finish x e =>
        refine ⟨p, ?_, p1, p2, p3⟩
        unfold Machine.event; dsimp only
        split
        · refine List.mem_map.2 ⟨p, List.mem_filter.2 ⟨hp, by simp [p2]⟩, ?_⟩
          rw [if_neg]
          intro hx
          simp only [Bool.and_eq_true, beq_iff_eq] at hx
          exact hfi e (by rw [← p1, hx.1])
        · exact hp
      | stop x sig =>
        refine ⟨_, List.mem_map.2 ⟨p, hp, rfl⟩, ?_⟩
        split <;> exact ⟨p1, p2, p3⟩
    | activate r f => rw [show step t (.activate r f) = t from if_neg fun h => hidle h.1]; exact ⟨hmode, haw, p, hp, p1, p2, p3⟩
    | launch f => rw [show step t (.launch f) = t from if_neg fun h => hidle h.1]; exact ⟨hmode, haw, p, hp, p1, p2, p3⟩
    | attach => rw [show step t .attach = t from if_neg fun h => hidle h.1]; exact ⟨hmode, haw, p, hp, p1, p2, p3⟩
    | spin => rw [show step t .spin = t from if_neg hidle]; exact ⟨hmode, haw, p, hp, p1, p2, p3⟩
    | despawn => rw [show step t .despawn = t from if_neg fun h => hidle h.1]; exact ⟨hmode, haw, p, hp, p1, p2, p3⟩
    | reset => rw [show step t .reset = t from if_neg fun h => hidle h.1]; exact ⟨hmode, haw, p, hp, p1, p2, p3⟩
    | shutdown => rw [show step t .shutdown = t from if_neg hidle]; exact ⟨hmode, haw, p, hp, p1, p2, p3⟩
    | command f => rw [show step t (.command f) = t from if_neg fun h => hidle h.1]; exact ⟨hmode, haw, p, hp, p1, p2, p3⟩
    | wake w => rw [show step t (.wake w) = t from if_neg (by rw [hmode]; nofun)]; exact ⟨hmode, haw, p, hp, p1, p2, p3⟩
    | resume => rw [show step t .resume = t from stays it (.inr hmode) haw hp p1 p2 p3]; exact ⟨hmode, haw, p, hp, p1, p2, p3⟩
    | interrupt => exact hsm.elim

/-- The second of two scenarios, of which the first has been recorded, when its ego is removed. -/
def second : List Op := [.activate true (some 200), .launch (some 201), .event (.lead 201), .reset, .event (.finish 201 (.exit 0)),
  .wake .signal, .resume, .event (.finish 200 (.exit 0)), .resume, .activate false none, .launch (some 202), .event (.lead 202), .reset]

/-- C229 is false in a later scenario even for an Autoware that leads a group of its own: the end of the recorder of the first
scenario is taken for the end of Autoware, so that it is not killed, and the removal of the ego waits for ever. -/
theorem C229_stale_violated : ∃ s, Recordable s ∧ s.mode = .terminating ∧ s.autoware = some 202 ∧
    (∃ p ∈ s.m.procs, p.pid = 202 ∧ p.group = 202 ∧ p.child = true ∧ p.ended = none) ∧
    ∀ h : List Op, (∀ o ∈ h, Smooth o ∧ ∀ e, o ≠ .event (.finish 202 e)) → (run s (.wake .signal :: h)).mode = .reaping := by
  have hr : Recordable (run some0 second) := some0_recordable.run _ (by simp [second])
  refine ⟨run some0 second, hr, by decide +kernel, by decide +kernel, by decide +kernel, fun h hh => ?_⟩
  exact reaping_stays (s := step (run some0 second) (.wake .signal)) (n := 202) (step_inv hr.inv _ nofun) (by decide +kernel) (by decide +kernel)
    (by decide +kernel) h hh

/-- C232 is false when the simulator is shut down: the recorder is neither told to end nor waited for. -/
theorem C232_shutdown_violated (s : State) (hm : s.mode = .idle) (hn : s.autoware = none) (hr : s.resetting = false) :
    (step s .shutdown).active = false ∧ (step s .shutdown).m = s.m := by
  rw [show step s .shutdown = destroy { s with active := false } from if_pos hm]
  unfold destroy
  dsimp only
  rw [hn]
  dsimp only
  unfold afterDestroy
  dsimp only
  rw [if_neg (by rw [hr]; nofun)]
  exact ⟨rfl, rfl⟩

/-- C233 is false if the wait is interrupted by a signal: the simulation goes on while the command runs. -/
theorem C233_interrupted_violated (s : State) (n : Nat) (hm : s.mode = .idle) (ha : s.active = true) (hf : s.m.free n = true) :
    let s' := run s [.command (some n), .interrupt]
    s'.mode = .idle ∧ Running s' s.m.next := by
  have e : step s (.command (some n)) = { s with m := s.m.fork n, mode := .waiting n 0 } := by
    unfold step; dsimp only
    rw [if_pos ⟨hm, ha⟩, if_pos hf]
  intro s'
  have e' : s' = { s with m := s.m.fork n, mode := .idle } := by
    show step (step s (.command (some n))) .interrupt = _
    rw [e]; rfl
  rw [e']
  exact ⟨rfl, _, List.mem_append_right _ (List.mem_singleton.2 rfl), rfl, rfl⟩

/-! Examples -/

/-- An ego with Autoware, and a node Autoware's launch has started. -/
def withEgo : List Op := [.activate true (some 200), .launch (some 201), .event (.spawn 201 202)]

theorem withEgo_recordable : Recordable (run some0 withEgo) := some0_recordable.run _ (by simp [withEgo])

-- C229_ended_partial: the ego is removed, and its Autoware is gone.
example : let s := run some0 [.activate false none]
    s.mode = .idle ∧ s.active = true ∧ s.autoware = none ∧ s.m.free 201 = true ∧
    (run s [.launch (some 201), .despawn, .event (.finish 201 (.exit 0)), .wake .signal, .resume]).autoware = none := by decide +kernel
example : ∀ o ∈ [Op.despawn, .event (.finish 201 (.exit 0)), .wake .signal, .resume], Smooth o := by simp [Smooth]
-- C229_asked
example : Recordable (run some0 withEgo) ∧ (run some0 withEgo).mode = .idle ∧ (run some0 withEgo).active = true ∧
    (run some0 withEgo).autoware = some 201 := ⟨withEgo_recordable, by decide +kernel⟩
-- C229_finishes
example : let s := run some0 (withEgo ++ [.despawn, .event (.finish 201 (.exit 1)), .wake .signal])
    s.mode = .reaping ∧ s.autoware = some 201 ∧ ∃ p ∈ s.m.procs, p.pid = 201 ∧ p.child = true ∧ p.ended ≠ none := by decide +kernel
-- C229_killed_partial, with a node in the group
example : let s := run some0 [.activate false none, .launch (some 201), .event (.lead 201), .event (.spawn 201 202), .despawn]
    s.mode = .terminating ∧ s.autoware = some 201 ∧ (∃ p ∈ s.m.procs, p.pid = 201 ∧ p.child = true ∧ p.group = 201) ∧
    ∃ p ∈ s.m.procs, p.pid = 202 ∧ p.group = 201 ∧ p.ended = none := by decide +kernel
-- C229_hangs_violated, C229_interrupted_violated
example : let s := run some0 (withEgo ++ [.despawn])
    s.mode = .terminating ∧ s.autoware = some 201 ∧ ∃ p ∈ s.m.procs, p.pid = 201 ∧ p.child = true ∧ p.ended = none ∧ p.group = s.m.own := by
  decide +kernel
-- C229_left_violated
example : let s := run some0 (withEgo ++ [.event (.finish 201 (.exit 1))])
    s.mode = .idle ∧ s.active = true ∧ s.autoware = some 201 ∧ (∃ p ∈ s.m.procs, p.pid = 201 ∧ p.ended ≠ none) ∧
    ∃ q ∈ s.m.procs, q.pid = 202 ∧ q.origin = some 3 ∧ q.ended = none := by decide +kernel
-- C230_sent_partial, C230_others_partial: signals have been sent, and there are processes of others.
example : let s := run some0 (withEgo ++ [.despawn])
    s.m.sent.length = 1 ∧ ∃ q ∈ s.m.procs, q.pid = 50 ∧ q.origin = none := by decide +kernel
-- C230_broadcast_violated
example : some0.mode = .idle ∧ some0.active = false ∧ ∃ q ∈ some0.m.procs, q.origin = none := by decide +kernel
-- C231_noticed
example : (run some0 (withEgo ++ [.event (.finish 201 (.killed 11 true)), .spin, .spin])).errors = [.killed 11] ∧
    (run some0 (withEgo ++ [.spin, .event (.finish 201 (.exit 3)), .spin])).errors = [.exited 3] := by decide +kernel
-- C232_ended_partial
example : some0.mode = .idle ∧ some0.active = false ∧ some0.m.free 200 = true ∧
    (run some0 [.activate true (some 200), .reset, .event (.finish 200 (.exit 0)), .resume]).active = false ∧
    (run some0 [.activate true (some 200), .reset, .event (.finish 200 (.exit 0)), .resume]).m.sent.map (fun x => x.2.pid) = [200] := by
  decide +kernel
-- C232_shutdown_violated: a recorder that runs on
example : let s := run some0 [.activate true (some 200)]
    s.mode = .idle ∧ s.autoware = none ∧ s.resetting = false ∧ ∃ q ∈ s.m.procs, q.pid = 200 ∧ q.ended = none := by decide +kernel
-- C233_waited_partial, C233_stays: stopped and continued
example : let s := run some0 [.activate false none, .command (some 300), .event (.stop 300 19)]
    s.mode = .waiting 300 0 ∧ (step s .resume).mode = .waiting 300 (19 * 256 + 127) ∧
    (run s [.resume, .event (.finish 300 (.exit 0)), .resume]).mode = .idle := by decide +kernel
-- C233_returns
example : let s := run some0 [.activate false none, .command (some 300), .event (.finish 300 (.killed 9 false))]
    s.mode = .waiting 300 0 ∧ ∃ p ∈ s.m.procs, p.pid = 300 ∧ p.child = true ∧ p.ended ≠ none := by decide +kernel

end Verif.Process
