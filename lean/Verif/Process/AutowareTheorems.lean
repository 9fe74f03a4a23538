import Verif.Process.Roles
/-
C229: the Autoware of an ego ends with it. C231: the end of Autoware is noticed.
-/
namespace Verif.Process

theorem launch_eq {s : State} {n : Nat} (hm : s.mode = .idle) (ha : s.active = true) (hw : s.autoware = none) (hf : s.m.free n = true) :
    step s (.launch (some n)) = { s with m := s.m.fork n, autoware := some n } := by
  simp only [step, hm, ha, hw, hf, and_self, if_true]

theorem gone_not {s : State} {k : Nat} (h : Gone s.m k) : ¬ Exists s k := by
  rintro ⟨p, hp, hk⟩; exact h.2 p hp hk

/-- C229: whatever happens after Autoware has been launched, when the ego is not there any more, or its Autoware has been found
to have ended, the process has ended and is not left behind, unless a call of the simulator is interrupted by a signal. -/
theorem C229_ended_partial (s : State) (hs : Recordable s) (n : Nat) (hm : s.mode = .idle) (ha : s.active = true) (hw : s.autoware = none)
    (hf : s.m.free n = true) (h : List Op) (hh : ∀ o ∈ h, Smooth o) :
    let s' := run s (.launch (some n) :: h)
    s'.autoware = none ∨ s'.autoware = some 0 → ¬ Exists s' s.m.next := by
  intro s' hd
  have i := hs.inv
  have e := launch_eq hm ha hw hf
  have i1 : Inv (step s (.launch (some n))) := step_inv i _ nofun
  have hn0 := free_pos hf
  have p : (fun t : State => (t.autoware = some n ∧ ChildK t.m n s.m.next) ∨ Gone t.m s.m.next) s' := by
    refine run_induct (C := Smooth) (P := fun t : State => (t.autoware = some n ∧ ChildK t.m n s.m.next) ∨ Gone t.m s.m.next)
      (fun o => smooth_ne) ?_ i1 (.inl ?_) h hh
    · rintro t o it ho (⟨h1, h2⟩ | h1)
      · have k := step_keeps it o
        rcases k.child n _ h2 with h3 | h3
        · rcases aw_step it o ho h1 hn0 h2 with h4 | h4
          · exact .inl ⟨h4, h3⟩
          · exact .inr h4
        · exact .inr h3
      · exact .inr ((step_keeps it o).gone _ h1)
    · rw [e]; exact ⟨rfl, fork_child s.m n⟩
  rcases p with ⟨p1, _⟩ | p
  · rw [p1] at hd
    rcases hd with hd | hd
    · cases hd
    · injection hd with hd; exact absurd hd hn0
  · exact gone_not p

/-- C229: when the ego is removed its Autoware is asked to end. -/
theorem C229_asked (s : State) (hs : Recordable s) (n : Nat) (hm : s.mode = .idle) (ha : s.active = true) (hn : s.autoware = some n)
    (h0 : n ≠ 0) (o : Op) (ho : o = .despawn ∨ o = .reset ∨ o = .shutdown) :
    (step s o).mode = .terminating ∧ ∃ p ∈ s.m.procs, p.pid = n ∧ (.int, p) ∈ (step s o).m.sent := by
  have i := hs.inv
  obtain ⟨c, hc, h1, _⟩ := i.aw n hn h0
  have key : ∀ t : State, t.m = s.m → t.autoware = some n → (destroy t).mode = .terminating ∧ (.int, c) ∈ (destroy t).m.sent := by
    intro t ht hta
    unfold destroy
    split
    · rename_i h; rw [h] at hta; cases hta
    · rename_i h; rw [h] at hta; injection hta with hta; exact absurd hta.symm h0
    · rename_i x _ hx
      have hx : x = n := by rw [hx] at hta; injection hta
      subst hx
      refine ⟨rfl, ?_⟩
      simp only [Machine.kill, ht]
      exact List.mem_append_right _ (List.mem_map.2 ⟨c, List.mem_filter.2 ⟨hc, (denotes_nat _ c).2 h1.symm⟩, rfl⟩)
  rcases ho with rfl | rfl | rfl
  · simp only [step, hm, ha, and_self, if_true]
    exact ⟨(key s rfl hn).1, c, hc, h1, (key s rfl hn).2⟩
  · have := key { s with resetting := true } rfl hn
    rw [show step s .reset = destroy { s with resetting := true } from if_pos ⟨hm, ha⟩]
    exact ⟨this.1, c, hc, h1, this.2⟩
  · have := key { s with active := false } rfl hn
    rw [show step s .shutdown = destroy { s with active := false } from if_pos hm]
    exact ⟨this.1, c, hc, h1, this.2⟩

theorem find_ended {m : Machine} (w : WF m) {p : Proc} (hp : p ∈ m.procs) (hc : p.child = true) {st : Nat} (he : p.ended = some st) :
    m.waitpid p.pid = .ended st { m with procs := m.procs.filter fun q => q.key != p.key } := by
  unfold Machine.waitpid
  have hf : m.procs.find? (fun q => q.child && denotes p.pid q && q.ended.isSome) = some p := by
    cases hq : m.procs.find? (fun q => q.child && denotes p.pid q && q.ended.isSome) with
    | none =>
      have := List.find?_eq_none.1 hq p hp
      rw [hc, (denotes_nat p.pid p).2 rfl, he] at this
      exact absurd rfl this
    | some q =>
      have h1 := List.mem_of_find?_eq_some hq
      have h2 := List.find?_some hq
      simp only [Bool.and_eq_true] at h2
      rw [nodup_inj w.pids h1 hp ((denotes_nat p.pid q).1 h2.1.2).symm]
  rw [hf]
  dsimp only
  rw [he]
  rfl

theorem find_running {m : Machine} (w : WF m) {p : Proc} (hp : p ∈ m.procs) (hc : p.child = true) (he : p.ended = none) :
    m.waitpid p.pid = .running := by
  unfold Machine.waitpid
  have hf : m.procs.find? (fun q => q.child && denotes p.pid q && q.ended.isSome) = none := by
    rw [List.find?_eq_none]
    intro q hq h
    simp only [Bool.and_eq_true] at h
    rw [nodup_inj w.pids hq hp ((denotes_nat p.pid q).1 h.1.2).symm, he] at h
    cases h.2
  rw [hf]
  dsimp only
  rw [if_pos (List.any_eq_true.2 ⟨p, hp, by rw [hc, (denotes_nat p.pid p).2 rfl]; rfl⟩)]

/-- C229: if Autoware has ended, the ego is removed. -/
theorem C229_finishes (s : State) (hs : Recordable s) (n : Nat) (hm : s.mode = .reaping) (hn : s.autoware = some n)
    (hr : ∃ p ∈ s.m.procs, p.pid = n ∧ p.child = true ∧ p.ended ≠ none) :
    (step s .resume).autoware = none ∧ (s.resetting = false → (step s .resume).mode = .idle) := by
  have i := hs.inv
  obtain ⟨p, hp, h1, h2, h3⟩ := hr
  obtain ⟨st, hst⟩ := Option.ne_none_iff_exists'.1 h3
  have hw := find_ended i.wf hp h2 hst
  show (resume s).autoware = none ∧ (_ → (resume s).mode = .idle)
  unfold resume
  rw [hm, hn]
  dsimp only [Option.getD_some]
  rw [← h1, hw]
  dsimp only
  unfold afterDestroy
  dsimp only
  constructor
  · split
    · unfold stopRecord
      split
      · dsimp only; split <;> rfl
      · rfl
    · rfl
  · intro hr
    rw [if_neg (by rw [hr]; nofun)]

/-- C229: if Autoware leads a group of its own and does not end in time, it is killed together with the rest of the group, and the
ego is removed. -/
theorem C229_killed_partial (s : State) (hs : Recordable s) (n : Nat) (hm : s.mode = .terminating) (hn : s.autoware = some n)
    (hr : ∃ p ∈ s.m.procs, p.pid = n ∧ p.child = true ∧ p.group = n) :
    let s' := run s [.wake .timeout, .resume]
    s'.autoware = none ∧ (∀ p ∈ s.m.procs, p.pid = n → ¬ Exists s' p.key) ∧ ∀ p ∈ s'.m.procs, p.group = n → p.ended ≠ none := by
  have i := hs.inv
  obtain ⟨p, hp, h1, h2, h3⟩ := hr
  have hw : step s (.wake .timeout) = { s with m := s.m.killpg n, mode := .reaping } := by
    simp only [step, hm, if_true, wake, hn, Option.getD_some]
  have hmem : ∀ q ∈ (s.m.killpg n).procs, q.group = n → q.ended ≠ none := by
    intro q hq hg
    simp only [Machine.killpg, Machine.terminate] at hq
    obtain ⟨r, hr, rfl⟩ := List.mem_map.1 hq
    split
    · nofun
    · rename_i hne
      rw [if_neg hne] at hg
      rw [hg] at hne
      simp only [beq_self_eq_true, Bool.true_and, Option.isNone_iff_eq_none] at hne
      exact hne
  have i' : Inv (step s (.wake .timeout)) := step_inv i _ nofun
  obtain ⟨c, hc, c1, c2, c3⟩ := (sub_killpg s.m n).child ⟨p, hp, h1, rfl, h2⟩
  have hcg : c.group = n := by
    simp only [Machine.killpg, Machine.terminate] at hc
    obtain ⟨r, hr, rfl⟩ := List.mem_map.1 hc
    have hk : r.key = p.key := by revert c2; split <;> exact id
    have : r = p := nodup_inj i.wf.keys (List.mem_filter.1 hr).1 hp hk
    subst this
    split <;> exact h3
  have hce := hmem c hc hcg
  have hrec : Recordable (step s (.wake .timeout)) := .step _ _ hs nofun
  have hfin := C229_finishes (step s (.wake .timeout)) hrec n (by rw [hw]) (by rw [hw]; exact hn) ⟨c, by rw [hw]; exact hc, c1, c3, hce⟩
  have hk := step_keeps i' .resume
  refine ⟨hfin.1, ?_, ?_⟩
  · intro q hq hqn
    have : q = p := nodup_inj i.wf.pids hq hp (hqn.trans h1.symm)
    subst this
    have haw := aw_step i' .resume trivial (n := n) (k := q.key) (by rw [hw]; exact hn) (by have := i.wf.pos q hq; omega)
      (by rw [hw]; exact ⟨c, hc, c1, c2, c3⟩)
    rcases haw with h | h
    · rw [hfin.1] at h; cases h
    · exact gone_not h
  · obtain ⟨st, hst⟩ := Option.ne_none_iff_exists'.1 hce
    have hwait := find_ended (m := s.m.killpg n) (by have := i'.wf; rw [hw] at this; exact this) hc c3 hst
    have hprocs : ∀ q ∈ (step (step s (.wake .timeout)) .resume).m.procs, q ∈ (s.m.killpg n).procs := by
      intro q hq
      rw [hw] at hq
      rw [c1] at hwait
      simp only [step, resume, hn, Option.getD_some, hwait] at hq
      have hs2 : ∀ t : State, (afterDestroy t).m.procs = t.m.procs := by
        intro t
        unfold afterDestroy stopRecord
        dsimp only
        split
        · split
          · split <;> rfl
          · rfl
        · rfl
      rw [hs2] at hq
      exact (List.mem_filter.1 hq).1
    intro q hq hg
    exact hmem q (hprocs q hq) hg

theorem stays {s : State} (i : Inv s) {n : Nat} (hm : s.mode = .terminating ∨ s.mode = .reaping) (hn : s.autoware = some n) {p : Proc}
    (hp : p ∈ s.m.procs) (h1 : p.pid = n) (h2 : p.child = true) (h3 : p.ended = none) :
    resume s = s := by
  have hw := find_running i.wf hp h2 h3
  unfold resume
  rcases hm with hm | hm
  · rw [hm]
  · rw [hm, hn]
    dsimp only [Option.getD_some]
    rw [← h1, hw]

/-- C229 is false for an Autoware that does not end when it is asked to: it is in the group of the simulator, so that there is no
group with its number, and the removal of the ego waits for ever, whatever the time limit. -/
theorem C229_hangs_violated (s : State) (hs : Recordable s) (n : Nat) (hm : s.mode = .terminating) (hn : s.autoware = some n)
    (hr : ∃ p ∈ s.m.procs, p.pid = n ∧ p.child = true ∧ p.ended = none ∧ p.group = s.m.own) (h : List Op)
    (hh : ∀ o ∈ h, Smooth o ∧ o ≠ .event (.lead n) ∧ ∀ e, o ≠ .event (.finish n e)) :
    (run s h).mode = .terminating ∨ (run s h).mode = .reaping := by
  have i := hs.inv
  have p := run_induct (C := fun o => Smooth o ∧ o ≠ .event (.lead n) ∧ ∀ e, o ≠ .event (.finish n e))
    (P := fun t : State => (t.mode = .terminating ∨ t.mode = .reaping) ∧ t.autoware = some n ∧
      ∃ p ∈ t.m.procs, p.pid = n ∧ p.child = true ∧ p.ended = none ∧ p.group = t.m.own) (fun o ho => smooth_ne ho.1) ?_ i ⟨.inl hm, hn, hr⟩ h hh
  · exact p.1
  · rintro t o it ⟨hsm, hl, hfi⟩ ⟨hmode, haw, p, hp, p1, p2, p3, p4⟩
    have hne : p.group ≠ n := by rw [p4]; exact fun e => it.wf.own p hp p2 (p1.trans e.symm)
    have hidle : t.mode ≠ .idle := by rcases hmode with h | h <;> rw [h] <;> nofun
    cases o with
    | event e =>
      refine ⟨hmode, haw, ?_⟩
      show ∃ p ∈ (t.m.event e).procs, p.pid = n ∧ p.child = true ∧ p.ended = none ∧ p.group = (t.m.event e).own
      rw [(keep_event t.m e).own]
      cases e with
      | spawn a x =>
        refine ⟨p, ?_, p1, p2, p3, p4⟩
        unfold Machine.event; dsimp only
        split
        · split
          · exact List.mem_append_left _ hp
          · exact hp
        · exact hp
      | lead x =>
        refine ⟨p, List.mem_map.2 ⟨p, hp, ?_⟩, p1, p2, p3, p4⟩
        rw [if_neg]
        intro hx
        simp only [Bool.and_eq_true, beq_iff_eq] at hx
        exact hl (by rw [← p1, hx.1])
      | finish x e =>
        refine ⟨p, ?_, p1, p2, p3, p4⟩
        unfold Machine.event; dsimp only
        split
        · refine List.mem_map.2 ⟨p, List.mem_filter.2 ⟨hp, by simp [p2]⟩, ?_⟩
          rw [if_neg]
          intro hx
          simp only [Bool.and_eq_true, beq_iff_eq] at hx
          exact hfi e (by rw [← p1, hx.1])
        · exact hp
      | stop x sig =>
        refine ⟨_, List.mem_map.2 ⟨p, hp, rfl⟩, ?_⟩
        split <;> exact ⟨p1, p2, p3, p4⟩
    | activate r f => rw [show step t (.activate r f) = t from if_neg fun h => hidle h.1]; exact ⟨hmode, haw, p, hp, p1, p2, p3, p4⟩
    | launch f => rw [show step t (.launch f) = t from if_neg fun h => hidle h.1]; exact ⟨hmode, haw, p, hp, p1, p2, p3, p4⟩
    | attach => rw [show step t .attach = t from if_neg fun h => hidle h.1]; exact ⟨hmode, haw, p, hp, p1, p2, p3, p4⟩
    | spin => rw [show step t .spin = t from if_neg hidle]; exact ⟨hmode, haw, p, hp, p1, p2, p3, p4⟩
    | despawn => rw [show step t .despawn = t from if_neg fun h => hidle h.1]; exact ⟨hmode, haw, p, hp, p1, p2, p3, p4⟩
    | reset => rw [show step t .reset = t from if_neg fun h => hidle h.1]; exact ⟨hmode, haw, p, hp, p1, p2, p3, p4⟩
    | shutdown => rw [show step t .shutdown = t from if_neg hidle]; exact ⟨hmode, haw, p, hp, p1, p2, p3, p4⟩
    | command f => rw [show step t (.command f) = t from if_neg fun h => hidle h.1]; exact ⟨hmode, haw, p, hp, p1, p2, p3, p4⟩
    | wake w =>
      unfold step; dsimp only
      split
      · cases w with
        | signal =>
          unfold wake; dsimp only
          split
          · exact ⟨.inr rfl, haw, p, hp, p1, p2, p3, p4⟩
          · exact ⟨hmode, haw, p, hp, p1, p2, p3, p4⟩
        | interrupted => exact ⟨.inr rfl, haw, p, hp, p1, p2, p3, p4⟩
        | timeout =>
          refine ⟨.inr rfl, haw, p, ?_, p1, p2, p3, p4⟩
          simp only [wake, Machine.killpg, Machine.terminate, haw, Option.getD_some]
          refine List.mem_map.2 ⟨p, List.mem_filter.2 ⟨hp, by simp [p2]⟩, ?_⟩
          rw [if_neg]
          simp [hne]
      · exact ⟨hmode, haw, p, hp, p1, p2, p3, p4⟩
    | resume => rw [show step t .resume = t from stays it hmode haw hp p1 p2 p3]; exact ⟨hmode, haw, p, hp, p1, p2, p3, p4⟩
    | interrupt => exact hsm.elim

end Verif.Process
