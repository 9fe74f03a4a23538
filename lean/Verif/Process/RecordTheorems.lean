import Verif.Process.AutowareTheorems
/-
C232: the recording ends with the scenario. C233: a command of the scenario is waited for.
-/
namespace Verif.Process

/-- The process has been sent `SIGINT`. -/
def Told (s : State) (k : Nat) : Prop := ∃ p, (.int, p) ∈ s.m.sent ∧ p.key = k

def R0 (s : State) (n k : Nat) : Prop := s.active = true ∧ s.record = true ∧ s.recorder = (n : Int) ∧ ChildK s.m n k

def Rec (s : State) (n k : Nat) : Prop := R0 s n k ∧ s.mode ≠ .exited ∧ (s.mode = .saving → Told s k)

theorem stopRecord_rec {s : State} {n k : Nat} (w : WF s.m) (h : R0 s n k) : Rec (stopRecord s) n k := by
  obtain ⟨h1, h2, h3, h4⟩ := h
  have hc := h4
  obtain ⟨c, hm, c1, c2, c3⟩ := hc
  have hn : n ≠ 0 := by have := w.pos c hm; omega
  unfold stopRecord
  rw [if_pos (by rw [h2, h3]; simpa using hn), h3]
  dsimp only
  rw [if_pos (kill_found (Child.ofK h4))]
  refine ⟨⟨h1, h2, rfl, (sub_kill s.m n).child h4⟩, nofun, fun _ => ⟨c, ?_, c2⟩⟩
  exact List.mem_append_right _ (List.mem_map.2 ⟨c, List.mem_filter.2 ⟨hm, (denotes_nat n c).2 c1.symm⟩, rfl⟩)

theorem afterDestroy_rec {s : State} {n k : Nat} (w : WF s.m) (h : R0 s n k) : Rec (afterDestroy s) n k := by
  unfold afterDestroy
  dsimp only
  split
  · exact stopRecord_rec (s := { s with autoware := none }) w h
  · exact ⟨h, nofun, nofun⟩

theorem destroy_rec {s : State} {n k : Nat} (w : WF s.m) (h : R0 s n k) : Rec (destroy s) n k := by
  unfold destroy
  split
  · exact afterDestroy_rec w h
  · exact afterDestroy_rec w h
  · exact ⟨⟨h.1, h.2.1, h.2.2.1, h.2.2.2⟩, nofun, nofun⟩

theorem loop_rec {s : State} {n k x st : Nat} (h : R0 s n k) : Rec (loop s x st) n k := by
  unfold loop
  split <;> exact ⟨h, nofun, nofun⟩

/-- The recorder is remembered until it has been told to end and has been waited for. -/
theorem rec_step {s : State} (i : Inv s) (o : Op) (ho : Smooth o) (hns : o ≠ .shutdown) {n k : Nat} (h : Rec s n k) :
    Rec (step s o) n k ∨ (Gone (step s o).m k ∧ Told (step s o) k) := by
  obtain ⟨r, hx, ht⟩ := h
  obtain ⟨h1, h2, h3, h4⟩ := id r
  have hself : Rec s n k := ⟨r, hx, ht⟩
  obtain ⟨x, i1, i2, i3⟩ := i.rcd h1 h2 hx
  have hxn : x = n := by rw [i1] at h3; exact_mod_cast h3
  subst hxn
  cases o with
  | event e =>
    have kp := keep_event s.m e
    exact .inl ⟨⟨h1, h2, h3, kp.child _ _ h4⟩, hx, fun h => by
      obtain ⟨p, p1, p2⟩ := ht h; exact ⟨p, by show _ ∈ (s.m.event e).sent; rw [kp.sent]; exact p1, p2⟩⟩
  | activate a f => rw [show step s (.activate a f) = s from if_neg fun h => h.2 h1]; exact .inl hself
  | launch f =>
    unfold step; dsimp only
    split
    · rename_i hm
      cases f with
      | none => exact .inl hself
      | some y =>
        dsimp only
        split
        · rename_i hf
          exact .inl ⟨⟨h1, h2, h3, (keep_fork s.m y hf).child _ _ h4⟩, hx, fun h => by rw [show s.mode = _ from h] at hm; cases hm.1⟩
        · exact .inl hself
    · exact .inl hself
  | attach => unfold step; dsimp only; split <;> exact .inl hself
  | spin =>
    unfold step; dsimp only
    split
    · rename_i hm
      unfold spin
      split
      · exact .inl hself
      · exact .inl hself
      · rename_i y _ hy
        split
        · exact .inl hself
        · exact .inl ⟨r, hx, ht⟩
        · rename_i m h
          obtain ⟨p, _, _, _, _, _, _, _, _, hc, _⟩ := waitpid_ended i.wf h
          have h5 : ChildK m x k := hc x k (fun e => i3 (by rw [hy, e])) h4
          have hnot : ∀ {P : Prop}, s.mode = .saving → P := fun h => by rw [hm] at h; cases h
          split
          · exact .inl ⟨⟨h1, h2, h3, h5⟩, hx, fun h => hnot h⟩
          · split <;> exact .inl ⟨⟨h1, h2, h3, h5⟩, hx, fun h => hnot h⟩
    · exact .inl hself
  | despawn =>
    unfold step; dsimp only
    split
    · exact .inl (destroy_rec i.wf r)
    · exact .inl hself
  | reset =>
    unfold step; dsimp only
    split
    · exact .inl (destroy_rec (s := { s with resetting := true }) i.wf r)
    · exact .inl hself
  | shutdown => exact absurd rfl hns
  | command f =>
    unfold step; dsimp only
    split
    · rename_i hm
      cases f with
      | none => exact .inl hself
      | some y =>
        dsimp only
        split
        · rename_i hf
          exact .inl ⟨⟨h1, h2, h3, (keep_fork s.m y hf).child _ _ h4⟩, nofun, nofun⟩
        · exact .inl hself
    · exact .inl hself
  | wake w =>
    unfold step; dsimp only
    split
    · cases w with
      | signal =>
        unfold wake; dsimp only
        split
        · exact .inl ⟨r, nofun, nofun⟩
        · exact .inl hself
      | interrupted => exact .inl ⟨r, nofun, nofun⟩
      | timeout => exact .inl ⟨⟨h1, h2, h3, (sub_killpg s.m _).child h4⟩, nofun, nofun⟩
    · exact .inl hself
  | resume =>
    show Rec (resume s) x k ∨ (Gone (resume s).m k ∧ Told (resume s) k)
    unfold resume
    split
    · rename_i hm
      obtain ⟨y, hy, _⟩ := i.trm (.inr hm)
      rw [hy]
      dsimp only [Option.getD_some]
      split
      · exact .inl hself
      · exact .inl (afterDestroy_rec i.wf r)
      · rename_i m h
        obtain ⟨p, _, _, _, _, _, w', _, _, hc, _⟩ := waitpid_ended i.wf h
        exact .inl (afterDestroy_rec (s := { s with m := m }) w' ⟨h1, h2, h3, hc x k (fun e => i3 (by rw [hy, e])) h4⟩)
    · rename_i hm
      rw [h3]
      split
      · exact .inl hself
      · rename_i h; exact absurd (Child.ofK h4) (waitpid_noChild h)
      · rename_i m h
        obtain ⟨p, _, _, _, _, p4, _, _, _, _, hr⟩ := waitpid_ended i.wf h
        obtain ⟨q, q1, q2⟩ := ht hm
        exact .inr ⟨hr k h4, q, by rw [p4]; exact q1, q2⟩
    · rename_i y st hm
      obtain ⟨_, _, _, c4⟩ := i.cmd y st hm
      have hne : x ≠ y := fun e => c4 ⟨h1, h2, by rw [h3, e]⟩
      split
      · rename_i m h
        obtain ⟨p, _, _, _, _, _, _, _, _, hc, _⟩ := waitpid_ended i.wf h
        exact .inl (loop_rec ⟨h1, h2, h3, hc x k hne h4⟩)
      · exact .inl (loop_rec r)
      · split
        · exact .inl (loop_rec ⟨h1, h2, h3, (sub_clear s.m _).child h4⟩)
        · exact .inl hself
    · exact .inl hself
  | interrupt => exact ho.elim

theorem stopRecord_live {s : State} (h : s.record = true → ∃ n : Nat, s.recorder = (n : Int) ∧ Child s.m n) :
    (stopRecord s).mode ≠ .exited := by
  unfold stopRecord
  split
  · rename_i hr
    simp only [Bool.and_eq_true] at hr
    obtain ⟨n, h1, h2⟩ := h hr.1
    dsimp only
    rw [h1, if_pos (kill_found h2)]
    nofun
  · nofun

theorem afterDestroy_live {s : State} (h : s.resetting = true → s.record = true → ∃ n : Nat, s.recorder = (n : Int) ∧ Child s.m n) :
    (afterDestroy s).mode ≠ .exited := by
  unfold afterDestroy
  dsimp only
  split
  · rename_i hr; exact stopRecord_live (s := { s with autoware := none }) (h hr)
  · nofun

theorem destroy_live {s : State} (h : s.resetting = true → s.record = true → ∃ n : Nat, s.recorder = (n : Int) ∧ Child s.m n) :
    (destroy s).mode ≠ .exited := by
  unfold destroy
  split
  · exact afterDestroy_live h
  · exact afterDestroy_live h
  · nofun

theorem loop_live (s : State) (n st : Nat) : (loop s n st).mode ≠ .exited := by
  unfold loop; split <;> nofun

/-- The simulator does not end itself. -/
theorem live_step {s : State} (i : Inv s) (o : Op) (ho : Smooth o) (hx : s.mode ≠ .exited) : (step s o).mode ≠ .exited := by
  have hr : s.active = true → s.record = true → ∃ n : Nat, s.recorder = (n : Int) ∧ Child s.m n := fun h1 h2 => by
    obtain ⟨n, a, b, _⟩ := i.rcd h1 h2 hx; exact ⟨n, a, b⟩
  cases o with
  | event e => exact hx
  | activate a f =>
    unfold step; dsimp only
    split
    · split
      · cases f with
        | none => rename_i h; subst h; exact ho.elim
        | some y => dsimp only; split <;> exact hx
      · exact hx
    · exact hx
  | launch f =>
    unfold step; dsimp only
    split
    · cases f with
      | none => exact hx
      | some y => dsimp only; split <;> exact hx
    · exact hx
  | attach => unfold step; dsimp only; split <;> exact hx
  | spin =>
    unfold step; dsimp only
    split
    · unfold spin
      split
      · exact hx
      · exact hx
      · split
        · exact hx
        · exact hx
        · split
          · exact hx
          · split <;> exact hx
    · exact hx
  | despawn =>
    unfold step; dsimp only
    split
    · rename_i h; exact destroy_live fun _ => hr h.2
    · exact hx
  | reset =>
    unfold step; dsimp only
    split
    · rename_i h; exact destroy_live (s := { s with resetting := true }) fun _ => hr h.2
    · exact hx
  | shutdown =>
    unfold step; dsimp only
    split
    · rename_i h; exact destroy_live (s := { s with active := false }) fun h' => absurd h (i.rst h').2.1
    · exact hx
  | command f =>
    unfold step; dsimp only
    split
    · cases f with
      | none => exact hx
      | some y =>
        dsimp only
        split
        · nofun
        · exact hx
    · exact hx
  | wake w =>
    unfold step; dsimp only
    split
    · cases w with
      | signal =>
        unfold wake; dsimp only
        split
        · nofun
        · exact hx
      | interrupted => nofun
      | timeout => nofun
    · exact hx
  | resume =>
    show (resume s).mode ≠ .exited
    unfold resume
    split
    · rename_i hm
      obtain ⟨y, hy, _⟩ := i.trm (.inr hm)
      rw [hy]
      dsimp only [Option.getD_some]
      split
      · exact hx
      · exact afterDestroy_live fun h => hr (i.rst h).1
      · rename_i m h
        obtain ⟨p, _, _, _, _, _, _, _, _, hc, _⟩ := waitpid_ended i.wf h
        refine afterDestroy_live (s := { s with m := m }) fun h1 h2 => ?_
        obtain ⟨n, a, b, c⟩ := i.rcd (i.rst h1).1 h2 hx
        obtain ⟨k, hk⟩ := b.toK
        exact ⟨n, a, Child.ofK (hc n k (fun e => c (by rw [hy, e])) hk)⟩
    · rename_i hm
      obtain ⟨s1, s2, _⟩ := i.sav hm
      obtain ⟨n, a, b⟩ := hr s1 s2
      rw [a]
      split
      · exact hx
      · rename_i h; exact absurd b (waitpid_noChild h)
      · nofun
    · split
      · exact loop_live _ _ _
      · exact loop_live _ _ _
      · split
        · exact loop_live _ _ _
        · exact hx
    · exact hx
  | interrupt => exact ho.elim

/-- C232: when a scenario that is recorded is not active any more, the recorder has been told to end, has ended and is not left
behind, unless the simulator is shut down or one of its calls is interrupted by a signal. -/
theorem C232_ended_partial (s : State) (hs : Recordable s) (n : Nat) (hm : s.mode = .idle) (ha : s.active = false)
    (hf : s.m.free n = true) (h : List Op) (hh : ∀ o ∈ h, Smooth o ∧ o ≠ .shutdown) :
    let s' := run s (.activate true (some n) :: h)
    s'.mode ≠ .exited ∧ (s'.active = false → ¬ Exists s' s.m.next ∧ ∃ p, (.int, p) ∈ s'.m.sent ∧ p.key = s.m.next) := by
  intro s'
  have i := hs.inv
  have e : step s (.activate true (some n)) = { s with record := true, m := s.m.fork n, recorder := n, active := true } := by
    unfold step; dsimp only
    rw [if_pos ⟨hm, by rw [ha]; nofun⟩, if_pos rfl, if_pos hf]
  have i1 : Inv (step s (.activate true (some n))) := step_inv i _ nofun
  have p := run_induct (C := fun o => Smooth o ∧ o ≠ .shutdown)
    (P := fun t : State => Rec t n s.m.next ∨ (t.mode ≠ .exited ∧ Gone t.m s.m.next ∧ Told t s.m.next))
    (fun o ho => smooth_ne ho.1) ?_ i1 (.inl ?_) h hh
  · rcases p with p | ⟨p0, p1, p2⟩
    · exact ⟨p.2.1, fun h => by rw [show s'.active = true from p.1.1] at h; cases h⟩
    · exact ⟨p0, fun _ => ⟨gone_not p1, p2⟩⟩
  · rintro t o it ⟨ho, ho'⟩ (h1 | ⟨h0, h1, q, h2, h3⟩)
    · rcases rec_step it o ho ho' h1 with h | h
      · exact .inl h
      · exact .inr ⟨live_step it o ho h1.2.1, h⟩
    · have k := step_keeps it o
      exact .inr ⟨live_step it o ho h0, k.gone _ h1, q, k.sent _ h2, h3⟩
  · rw [e]
    exact ⟨⟨rfl, rfl, rfl, fork_child s.m n⟩, by show s.mode ≠ _; rw [hm]; nofun, by show s.mode = _ → _; rw [hm]; nofun⟩

/-- The command has not ended, or it is not there any more. -/
theorem cmd_step {s : State} (i : Inv s) (o : Op) (ho : Smooth o) {n k : Nat} (hm : s.mode = .waiting n 0 ∨ ∃ st, s.mode = .waiting n st ∧ st % 128 = 127)
    (hk : ChildK s.m n k) :
    ((step s o).mode = .waiting n 0 ∨ ∃ st, (step s o).mode = .waiting n st ∧ st % 128 = 127) ∧ ChildK (step s o).m n k ∨ Gone (step s o).m k := by
  obtain ⟨st, hst⟩ : ∃ st, s.mode = .waiting n st := by rcases hm with h | ⟨st, h, _⟩ <;> exact ⟨_, h⟩
  have hidle : s.mode ≠ .idle := by rw [hst]; nofun
  cases o with
  | event e => exact .inl ⟨hm, (keep_event s.m e).child _ _ hk⟩
  | activate r f => rw [show step s (.activate r f) = s from if_neg fun h => hidle h.1]; exact .inl ⟨hm, hk⟩
  | launch f => rw [show step s (.launch f) = s from if_neg fun h => hidle h.1]; exact .inl ⟨hm, hk⟩
  | attach => rw [show step s .attach = s from if_neg fun h => hidle h.1]; exact .inl ⟨hm, hk⟩
  | spin => rw [show step s .spin = s from if_neg hidle]; exact .inl ⟨hm, hk⟩
  | despawn => rw [show step s .despawn = s from if_neg fun h => hidle h.1]; exact .inl ⟨hm, hk⟩
  | reset => rw [show step s .reset = s from if_neg fun h => hidle h.1]; exact .inl ⟨hm, hk⟩
  | shutdown => rw [show step s .shutdown = s from if_neg hidle]; exact .inl ⟨hm, hk⟩
  | command f => rw [show step s (.command f) = s from if_neg fun h => hidle h.1]; exact .inl ⟨hm, hk⟩
  | wake w => rw [show step s (.wake w) = s from if_neg (by rw [hst]; nofun)]; exact .inl ⟨hm, hk⟩
  | resume =>
    show ((resume s).mode = _ ∨ ∃ st, (resume s).mode = _ ∧ _) ∧ ChildK (resume s).m n k ∨ Gone (resume s).m k
    unfold resume
    rw [hst]
    dsimp only
    split
    · rename_i h
      obtain ⟨p, _, _, _, _, _, _, _, _, _, hr⟩ := waitpid_ended i.wf h
      rw [loop_m]
      exact .inr (hr k hk)
    · rename_i h; exact absurd (Child.ofK hk) (waitpid_noChild h)
    · split
      · rename_i p hp
        have hpm := List.mem_of_find?_eq_some hp
        have hq := List.find?_some hp
        simp only [Bool.and_eq_true] at hq
        obtain ⟨x, hx⟩ := Option.isSome_iff_exists.1 hq.2
        have h127 := i.wf.stp p hpm hq.1.1 x hx
        left
        rw [hx, loop_m]
        refine ⟨.inr ⟨x, ?_, h127⟩, (sub_clear s.m _).child hk⟩
        unfold loop
        rw [if_neg]
        · rfl
        · simp [wifexited, wifsignaled, h127]
      · exact .inl ⟨hm, hk⟩
  | interrupt => exact ho.elim

/-- C233: whatever happens after a command has been started, it has ended and is not left behind once the simulation goes on,
unless a call of the simulator is interrupted by a signal. Until then nothing else of the scenario happens. -/
theorem C233_waited_partial (s : State) (hs : Recordable s) (n : Nat) (hm : s.mode = .idle) (ha : s.active = true)
    (hf : s.m.free n = true) (h : List Op) (hh : ∀ o ∈ h, Smooth o) :
    let s' := run s (.command (some n) :: h)
    (∃ st, s'.mode = .waiting n st) ∨ ¬ Exists s' s.m.next := by
  intro s'
  have i := hs.inv
  have e : step s (.command (some n)) = { s with m := s.m.fork n, mode := .waiting n 0 } := by
    unfold step; dsimp only
    rw [if_pos ⟨hm, ha⟩, if_pos hf]
  have i1 : Inv (step s (.command (some n))) := step_inv i _ nofun
  have p := run_induct (C := Smooth)
    (P := fun t : State => (t.mode = .waiting n 0 ∨ ∃ st, t.mode = .waiting n st ∧ st % 128 = 127) ∧ ChildK t.m n s.m.next ∨ Gone t.m s.m.next)
    (fun o => smooth_ne) ?_ i1 (.inl ?_) h hh
  · rcases p with ⟨p | ⟨st, p, _⟩, _⟩ | p
    · exact .inl ⟨_, p⟩
    · exact .inl ⟨_, p⟩
    · exact .inr (gone_not p)
  · rintro t o it ho (⟨h1, h2⟩ | h1)
    · exact cmd_step it o ho h1 h2
    · exact .inr ((step_keeps it o).gone _ h1)
  · rw [e]; exact ⟨.inl rfl, fork_child s.m n⟩

/-- C233: once the command has ended the simulation goes on. -/
theorem C233_returns (s : State) (hs : Recordable s) (n st : Nat) (hm : s.mode = .waiting n st)
    (hr : ∃ p ∈ s.m.procs, p.pid = n ∧ p.child = true ∧ p.ended ≠ none) : (step s .resume).mode = .idle := by
  have i := hs.inv
  obtain ⟨p, hp, h1, h2, h3⟩ := hr
  obtain ⟨x, hx⟩ := Option.ne_none_iff_exists'.1 h3
  have hw := find_ended i.wf hp h2 hx
  obtain ⟨e, he, hst⟩ := i.wf.fin p hp x hx
  show (resume s).mode = .idle
  unfold resume
  rw [hm]
  dsimp only
  rw [← h1, hw]
  dsimp only
  unfold loop
  rw [hst, end_status e he]
  rfl

/-- C233: a command that runs, even if it has been stopped for a while, keeps the simulation waiting. -/
theorem C233_stays (s : State) (hs : Recordable s) (n st : Nat) (hm : s.mode = .waiting n st)
    (hr : ∃ p ∈ s.m.procs, p.pid = n ∧ p.child = true ∧ p.ended = none) : ∃ st', (step s .resume).mode = .waiting n st' := by
  have i := hs.inv
  obtain ⟨p, hp, h1, h2, h3⟩ := hr
  have hw := find_running i.wf hp h2 h3
  show ∃ st', (resume s).mode = .waiting n st'
  unfold resume
  rw [hm]
  dsimp only
  rw [← h1, hw]
  dsimp only
  split
  · rename_i q hq
    have hpm := List.mem_of_find?_eq_some hq
    have hq := List.find?_some hq
    simp only [Bool.and_eq_true] at hq
    obtain ⟨x, hx⟩ := Option.isSome_iff_exists.1 hq.2
    have h127 := i.wf.stp q hpm hq.1.1 x hx
    refine ⟨x, ?_⟩
    rw [hx]
    unfold loop
    rw [if_neg]
    · rfl
    · simp [wifexited, wifsignaled, h127]
  · exact ⟨st, by rw [hm, h1]⟩

end Verif.Process
