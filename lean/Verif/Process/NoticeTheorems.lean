import Verif.Process.RecordTheorems
/-
C230: signals go to processes of the simulation only. C231: the end of Autoware is noticed.
-/
namespace Verif.Process

/-- C230: every process the simulator has sent a signal to is one it has started, or descends from one. -/
theorem C230_sent_partial (s : State) (hs : Recordable s) : ∀ x ∈ s.m.sent, x.2.origin ≠ none := by
  intro x hx
  obtain ⟨k, hk⟩ := hs.inv.sent x hx
  rw [hk]; nofun

/-- Processes of others are untouched. -/
def Spare (m m' : Machine) : Prop := ∀ q ∈ m.procs, q.origin = none → q ∈ m'.procs

theorem Spare.refl (m : Machine) : Spare m m := fun _ h _ => h
theorem Spare.trans {a b c : Machine} (h : Spare a b) (h' : Spare b c) : Spare a c := fun q hq hn => h' q (h q hq hn) hn

theorem waitpid_spare {m m' : Machine} {n st : Nat} (w : WF m) (h : m.waitpid n = .ended st m') : Spare m m' := by
  obtain ⟨p, hp, _, p2, _, p4, _⟩ := waitpid_ended w h
  intro q hq hn
  rw [p4]
  refine List.mem_filter.2 ⟨hq, ?_⟩
  rw [bne_iff_ne]
  intro e
  have := nodup_inj w.keys hq hp e
  rw [this, w.orig p hp p2] at hn
  cases hn

theorem fork_spare (m : Machine) (n : Nat) : Spare m (m.fork n) := fun _ h _ => List.mem_append_left _ h

theorem killpg_spare {m : Machine} {n : Nat} (w : WF m) (hc : Child m n) : Spare m (m.killpg n) := by
  intro q hq hn
  have hne : (q.group == n) = false := by
    rw [beq_eq_false_iff_ne]
    intro e
    obtain ⟨k, hk⟩ := origin_of_group w hc hq e
    rw [hk] at hn; cases hn
  simp only [Machine.killpg, Machine.terminate]
  refine List.mem_map.2 ⟨q, List.mem_filter.2 ⟨hq, by simp [hne]⟩, ?_⟩
  rw [if_neg (by simp [hne])]

theorem stopRecord_spare (s : State) : Spare s.m (stopRecord s).m := by
  unfold stopRecord
  split
  · dsimp only; split <;> exact fun _ h _ => h
  · exact Spare.refl _

theorem afterDestroy_spare (s : State) : Spare s.m (afterDestroy s).m := by
  unfold afterDestroy; dsimp only
  split
  · exact stopRecord_spare { s with autoware := none }
  · exact Spare.refl _

theorem destroy_spare (s : State) : Spare s.m (destroy s).m := by
  unfold destroy
  split
  · exact afterDestroy_spare s
  · exact afterDestroy_spare s
  · exact fun _ h _ => h

/-- C230: nothing the simulator does ends or changes a process of others. -/
theorem C230_others_partial (s : State) (hs : Recordable s) (o : Op) (ho : ∀ e, o ≠ .event e) (hr : o ≠ .activate true none) :
    ∀ q ∈ s.m.procs, q.origin = none → q ∈ (step s o).m.procs := by
  have i := hs.inv
  show Spare s.m (step s o).m
  cases o with
  | event e => exact absurd rfl (ho e)
  | activate r f =>
    unfold step; dsimp only
    split
    · split
      · cases f with
        | none => exact stopRecord_spare { s with record := r, recorder := -1, resetting := true, errors := s.errors ++ [.noFork] }
        | some n =>
          dsimp only
          split
          · exact fork_spare _ _
          · exact Spare.refl _
      · exact Spare.refl _
    · exact Spare.refl _
  | launch f =>
    unfold step; dsimp only
    split
    · cases f with
      | none => exact Spare.refl _
      | some n =>
        dsimp only
        split
        · exact fork_spare _ _
        · exact Spare.refl _
    · exact Spare.refl _
  | attach => unfold step; dsimp only; split <;> exact Spare.refl _
  | spin =>
    unfold step; dsimp only
    split
    · unfold spin
      split
      · exact Spare.refl _
      · exact Spare.refl _
      · split
        · exact Spare.refl _
        · exact Spare.refl _
        · rename_i h
          have := waitpid_spare i.wf h
          split
          · exact this
          · split <;> exact this
    · exact Spare.refl _
  | despawn =>
    unfold step; dsimp only
    split
    · exact destroy_spare s
    · exact Spare.refl _
  | reset =>
    unfold step; dsimp only
    split
    · exact destroy_spare { s with resetting := true }
    · exact Spare.refl _
  | shutdown =>
    unfold step; dsimp only
    split
    · exact destroy_spare { s with active := false }
    · exact Spare.refl _
  | command f =>
    unfold step; dsimp only
    split
    · cases f with
      | none => exact Spare.refl _
      | some n =>
        dsimp only
        split
        · exact fork_spare _ _
        · exact Spare.refl _
    · exact Spare.refl _
  | wake w =>
    unfold step; dsimp only
    split
    · rename_i hm
      cases w with
      | signal => unfold wake; dsimp only; split <;> exact fun _ h _ => h
      | interrupted => exact Spare.refl _
      | timeout =>
        obtain ⟨n, hn, h0⟩ := i.trm (.inl hm)
        unfold wake; dsimp only
        rw [hn]
        exact killpg_spare i.wf (i.aw n hn h0)
    · exact Spare.refl _
  | resume =>
    show Spare s.m (resume s).m
    unfold resume
    split
    · split
      · exact Spare.refl _
      · exact afterDestroy_spare s
      · rename_i m h
        exact (waitpid_spare i.wf h).trans (afterDestroy_spare { s with m := m })
    · rename_i hm
      obtain ⟨s1, s2, _⟩ := i.sav hm
      obtain ⟨n, hn, _⟩ := i.rcd s1 s2 (by rw [hm]; nofun)
      rw [hn]
      split
      · exact Spare.refl _
      · exact Spare.refl _
      · rename_i h; exact waitpid_spare i.wf h
    · split
      · rename_i h; rw [loop_m]; exact waitpid_spare i.wf h
      · rw [loop_m]; exact Spare.refl _
      · split
        · rename_i p hp
          have hpm := List.mem_of_find?_eq_some hp
          have hq := List.find?_some hp
          simp only [Bool.and_eq_true] at hq
          rw [loop_m]
          intro q hq' hn
          refine List.mem_map.2 ⟨q, hq', ?_⟩
          rw [if_neg]
          rw [beq_iff_eq]
          intro e
          rw [nodup_inj i.wf.keys hq' hpm e, i.wf.orig p hpm hq.1.1] at hn
          cases hn
        · exact Spare.refl _
    · exact Spare.refl _
  | interrupt =>
    show Spare s.m (interrupt s).m
    unfold interrupt
    split
    · exact afterDestroy_spare s
    · exact Spare.refl _
    · rw [loop_m]; exact Spare.refl _
    · exact Spare.refl _

/-- C230 is false if the recorder cannot be started: minus one, which tells so, is then used as the number of a process, and the
signal goes to every process there is. -/
theorem C230_broadcast_violated (s : State) (hm : s.mode = .idle) (ha : s.active = false) :
    ∀ p ∈ s.m.procs, (.int, p) ∈ (step s (.activate true none)).m.sent := by
  intro p hp
  unfold step; dsimp only
  rw [if_pos ⟨hm, by rw [ha]; nofun⟩, if_pos rfl]
  unfold stopRecord
  rw [if_pos (by rfl)]
  dsimp only
  split <;> exact List.mem_append_right _ (List.mem_map.2 ⟨p, List.mem_filter.2 ⟨hp, rfl⟩, rfl⟩)

/-- How an end is reported. -/
def reported : End → Error
  | .exit c => .exited c
  | .killed sig _ => .killed sig

theorem status_exit (c : Nat) (h : c < 256) : wifexited (End.exit c).status = true ∧ wexitstatus (End.exit c).status = c := by
  simp only [wifexited, wexitstatus, End.status, beq_iff_eq]
  omega

theorem status_killed (g : Nat) (core : Bool) (h0 : 0 < g) (h : g < 127) :
    wifexited (End.killed g core).status = false ∧ wifsignaled (End.killed g core).status = true ∧ wtermsig (End.killed g core).status = g := by
  have : (End.killed g core).status % 128 = g := by
    cases core <;> simp only [End.status] <;> simp <;> omega
  simp only [wifexited, wifsignaled, wtermsig, this, beq_eq_false_iff_ne, Bool.and_eq_true, decide_eq_true_eq]
  exact ⟨by omega, ⟨h0, h⟩, trivial⟩

/-- C231: when Autoware ends, in whatever way, the next time the ego is looked after this is reported with its exit code or the
signal, and the process is not left behind. -/
theorem C231_noticed (s : State) (hs : Recordable s) (n : Nat) (hm : s.mode = .idle) (hn : s.autoware = some n) (h0 : n ≠ 0) (e : End)
    (he : e.valid = true) (hr : ∃ p ∈ s.m.procs, p.pid = n ∧ p.ended = none) :
    let s' := run s [.event (.finish n e), .spin]
    s'.errors = s.errors ++ [reported e] ∧ s'.autoware = some 0 ∧ ∀ p ∈ s.m.procs, p.pid = n → ¬ Exists s' p.key := by
  have i := hs.inv
  obtain ⟨p, hp, p1, p2⟩ := hr
  obtain ⟨c, hc, c1, c2⟩ := i.aw n hn h0
  have hpc : c = p := nodup_inj i.wf.pids hc hp (c1.trans p1.symm)
  subst hpc
  have i' : Inv (step s (.event (.finish n e))) := step_inv i _ nofun
  have hmem : { c with ended := some e.status } ∈ (step s (.event (.finish n e))).m.procs := by
    simp only [step, Machine.event, he, if_true, Machine.terminate]
    refine List.mem_map.2 ⟨c, List.mem_filter.2 ⟨hc, by simp [c2]⟩, ?_⟩
    rw [if_pos (by simp [c1, p2])]
  have hw := find_ended i'.wf hmem c2 rfl
  have hkey : ∀ m : Machine, (step s (.event (.finish n e))).m.waitpid n = .ended e.status m → ∀ p ∈ s.m.procs, p.pid = n → ∀ q ∈ m.procs, q.key ≠ p.key := by
    intro m h q hq hqn
    obtain ⟨_, _, _, _, _, _, _, _, _, _, hg⟩ := waitpid_ended i'.wf h
    refine (hg q.key ?_).2
    rw [nodup_inj i.wf.pids hq hc (hqn.trans c1.symm)]
    exact ⟨_, hmem, c1, rfl, c2⟩
  obtain ⟨m, hw'⟩ : ∃ m, (step s (.event (.finish n e))).m.waitpid n = .ended e.status m := ⟨_, by
    have := hw; dsimp only at this; rw [c1] at this; exact this⟩
  have hex : ∀ (t : State) (m : Machine), t.m = m → (∀ p ∈ s.m.procs, p.pid = n → ∀ q ∈ m.procs, q.key ≠ p.key) →
      ∀ p ∈ s.m.procs, p.pid = n → ¬ Exists t p.key := by
    rintro t m rfl h p hp hpn ⟨q, hq, hqk⟩; exact h p hp hpn q hq hqk
  intro s'
  have hsp : step (step s (.event (.finish n e))) .spin = spin (step s (.event (.finish n e))) := if_pos hm
  rw [show s' = spin (step s (.event (.finish n e))) from hsp]
  unfold spin
  rw [show (step s (.event (.finish n e))).autoware = some n from hn]
  split
  · rename_i h; cases h
  · rename_i h; injection h with h; exact absurd h h0
  · rename_i x _ h
    injection h with h; subst h
    rw [hw']
    dsimp only
    cases e with
    | exit code =>
      obtain ⟨a, b⟩ := status_exit code (by simpa [End.valid] using he)
      rw [if_pos a, b]
      exact ⟨rfl, rfl, hex _ _ rfl (hkey _ hw')⟩
    | killed g core =>
      have hv : 0 < g ∧ g < 127 := by simpa [End.valid] using he
      obtain ⟨a, b, d⟩ := status_killed g core hv.1 hv.2
      rw [if_neg (by rw [a]; nofun), if_pos b, d]
      exact ⟨rfl, rfl, hex _ _ rfl (hkey _ hw')⟩

/-- C231: nothing is reported of an Autoware that runs. -/
theorem C231_running (s : State) (hs : Recordable s) (n : Nat) (hn : s.autoware = some n) (h0 : n ≠ 0)
    (hr : ∃ p ∈ s.m.procs, p.pid = n ∧ p.ended = none) : step s .spin = s := by
  have i := hs.inv
  obtain ⟨p, hp, p1, p2⟩ := hr
  obtain ⟨c, hc, c1, c2⟩ := i.aw n hn h0
  have hpc : c = p := nodup_inj i.wf.pids hc hp (c1.trans p1.symm)
  subst hpc
  have hw := find_running i.wf hc c2 p2
  unfold step; dsimp only
  split
  · unfold spin
    split
    · rfl
    · rfl
    · rename_i x _ hx
      have hx : x = n := by rw [hx] at hn; injection hn
      rw [hx, ← c1, hw]
  · rfl

/-- C231: the end is reported once. -/
theorem C231_once (s : State) (hn : s.autoware = some 0 ∨ s.autoware = none) : step s .spin = s := by
  unfold step; dsimp only
  split
  · unfold spin
    rcases hn with hn | hn <;> rw [hn] <;> rfl
  · rfl

end Verif.Process
