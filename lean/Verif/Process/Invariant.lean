import Verif.Process.Lemmas
/-
The invariant of the simulator's states, if every recorder can be started.
-/
namespace Verif.Process

/-- The recorder of the active scenario. -/
def Recorded (s : State) (n : Nat) : Prop := s.active = true ∧ s.record = true ∧ s.recorder = (n : Int)

structure Inv (s : State) : Prop where
  wf : WF s.m
  aw : ∀ n, s.autoware = some n → n ≠ 0 → Child s.m n
  rcd : s.active = true → s.record = true → s.mode ≠ .exited → ∃ n : Nat, s.recorder = (n : Int) ∧ Child s.m n ∧ s.autoware ≠ some n
  cmd : ∀ n st, s.mode = .waiting n st → s.active = true ∧ Child s.m n ∧ s.autoware ≠ some n ∧ ¬ Recorded s n
  rst : s.resetting = true → s.active = true ∧ s.mode ≠ .idle ∧ ∀ n st, s.mode ≠ .waiting n st
  sav : s.mode = .saving → s.active = true ∧ s.record = true ∧ s.autoware = none
  trm : s.mode = .terminating ∨ s.mode = .reaping → ∃ n, s.autoware = some n ∧ n ≠ 0
  ina : s.active = false → s.mode = .idle → s.autoware = none
  sent : ∀ x ∈ s.m.sent, ∃ k, x.2.origin = some k

theorem Inv.start (self own : Nat) (others : List Proc) (next : Nat) (h : Before self others next) :
    Inv (start self own others next) := by
  have hc : ∀ c ∈ others, c.child = true → False := fun c hm hc => by rw [(h.foreign c hm).1] at hc; cases hc
  exact ⟨⟨h.keys, h.old, h.pids, h.positive, fun c hm h => (hc c hm h).elim, fun c hm h => (hc c hm h).elim, fun c hm h => (hc c hm h).elim,
    fun p hp st hst => (by rw [(h.foreign p hp).2.2.1] at hst; cases hst), fun c hm h => (hc c hm h).elim⟩,
    nofun, nofun, nofun, nofun, nofun, (by rintro (h | h) <;> cases h), fun _ _ => rfl, nofun⟩

theorem Child.toK {m : Machine} {n : Nat} (h : Child m n) : ∃ k, ChildK m n k := by
  obtain ⟨c, hc, h1, h2⟩ := h; exact ⟨c.key, c, hc, h1, rfl, h2⟩

theorem Keep.child' {m m' : Machine} (h : Keep m m') {n : Nat} (hc : Child m n) : Child m' n := by
  obtain ⟨k, hk⟩ := hc.toK; exact Child.ofK (h.child n k hk)

theorem Sub.child' {m m' : Machine} (h : Sub m m') {n : Nat} (hc : Child m n) : Child m' n := by
  obtain ⟨k, hk⟩ := hc.toK; exact Child.ofK (h.child hk)

theorem origin_of_pid {m : Machine} (w : WF m) {n : Nat} (hc : Child m n) {p : Proc} (hp : p ∈ m.procs) (hn : p.pid = n) :
    ∃ k, p.origin = some k := by
  obtain ⟨c, hm, h1, h2⟩ := hc
  have : p = c := nodup_inj w.pids hp hm (hn.trans h1.symm)
  exact ⟨c.key, this ▸ w.orig c hm h2⟩

theorem origin_of_group {m : Machine} (w : WF m) {n : Nat} (hc : Child m n) {p : Proc} (hp : p ∈ m.procs) (hn : p.group = n) :
    ∃ k, p.origin = some k := by
  obtain ⟨c, hm, h1, h2⟩ := hc
  exact ⟨c.key, by rw [w.grp c hm h2 p hp (hn.trans h1.symm)]; exact w.orig c hm h2⟩

/-- Changes of the table that change no role. -/
theorem Inv.keep {s : State} (i : Inv s) {m : Machine} (h : Keep s.m m) : Inv { s with m := m } :=
  ⟨h.wf i.wf, fun n h1 h2 => h.child' (i.aw n h1 h2),
    fun h1 h2 h3 => by obtain ⟨n, a, b, c⟩ := i.rcd h1 h2 h3; exact ⟨n, a, h.child' b, c⟩,
    fun n st h1 => by obtain ⟨a, b, c, d⟩ := i.cmd n st h1; exact ⟨a, h.child' b, c, d⟩,
    i.rst, i.sav, i.trm, i.ina, fun x hx => i.sent x (by rw [← h.sent]; exact hx)⟩

theorem stopRecord_inv {s : State} (w : WF s.m) (hs : ∀ x ∈ s.m.sent, ∃ k, x.2.origin = some k) (ha : s.autoware = none)
    (hact : s.active = true) (hr : s.record = true → ∃ n : Nat, s.recorder = (n : Int) ∧ Child s.m n) : Inv (stopRecord s) := by
  unfold stopRecord
  split
  · rename_i h
    simp only [Bool.and_eq_true, bne_iff_ne, ne_eq] at h
    obtain ⟨n, hn, hc⟩ := hr h.1
    have hf := kill_found hc
    have hsub : Sub s.m (s.m.kill s.recorder).1 := sub_kill s.m _
    have hsent : ∀ x ∈ (s.m.kill s.recorder).1.sent, ∃ k, x.2.origin = some k := by
      intro x hx
      rw [hn] at hx
      rcases kill_mem hx with h | ⟨_, h2, h3⟩
      · exact hs x h
      · exact origin_of_pid w hc h2 h3
    rw [← hn] at hf
    dsimp only
    rw [if_pos hf]
    refine ⟨hsub.wf w, fun n h => (by rw [ha] at h; cases h), fun _ _ _ => ⟨n, hn, hsub.child' hc, by rw [ha]; nofun⟩, nofun,
      fun _ => ⟨hact, nofun, nofun⟩, fun _ => ⟨hact, h.1, ha⟩, (by rintro (h | h) <;> cases h), nofun, hsent⟩
  · refine ⟨w, fun n h => (by rw [ha] at h; cases h), nofun, nofun, nofun, nofun, (by rintro (h | h) <;> cases h), fun _ _ => ha, hs⟩

theorem afterDestroy_inv {s : State} (w : WF s.m) (hs : ∀ x ∈ s.m.sent, ∃ k, x.2.origin = some k)
    (hrst : s.resetting = true → s.active = true)
    (hr : s.active = true → s.record = true → ∃ n : Nat, s.recorder = (n : Int) ∧ Child s.m n) : Inv (afterDestroy s) := by
  unfold afterDestroy
  dsimp only
  split
  · rename_i h
    exact stopRecord_inv w hs rfl (hrst h) (hr (hrst h))
  · rename_i h
    exact ⟨w, nofun, fun h1 h2 _ => by obtain ⟨n, a, b⟩ := hr h1 h2; exact ⟨n, a, b, nofun⟩, nofun, fun h' => absurd h' h, nofun,
      (by rintro (h | h) <;> cases h), fun _ _ => rfl, hs⟩

theorem destroy_inv {s : State} (i : Inv s) (hm : s.mode = .idle) (r : Bool) (a : Bool) (ha : a = true → s.active = true)
    (hr : r = true → a = true) : Inv (destroy { s with resetting := r, active := a }) := by
  have hne : s.mode ≠ .exited := by rw [hm]; nofun
  have hrec : a = true → s.record = true → ∃ n : Nat, s.recorder = (n : Int) ∧ Child s.m n :=
    fun h1 h2 => by obtain ⟨n, x, y, _⟩ := i.rcd (ha h1) h2 hne; exact ⟨n, x, y⟩
  unfold destroy
  dsimp only
  split
  · exact afterDestroy_inv (s := { s with resetting := r, active := a }) i.wf i.sent hr hrec
  · exact afterDestroy_inv (s := { s with resetting := r, active := a }) i.wf i.sent hr hrec
  · rename_i n h0 hn
    have hn0 : n ≠ 0 := fun h => h0 (by rw [← h])
    have hc := i.aw n hn hn0
    have hsub : Sub s.m ({ s.m with blocked := true }.kill n).1 := Sub.refl _ _ rfl rfl rfl
    refine ⟨hsub.wf i.wf, fun x h1 h2 => hsub.child' (i.aw x h1 h2), ?_, nofun, fun h => ⟨hr h, nofun, nofun⟩, nofun, fun _ => ⟨n, hn, hn0⟩,
      nofun, ?_⟩
    · intro h1 h2 _
      obtain ⟨x, a1, b1, c1⟩ := i.rcd (ha h1) h2 hne
      exact ⟨x, a1, hsub.child' b1, c1⟩
    · intro x hx
      rcases kill_mem (m := { s.m with blocked := true }) hx with h | ⟨_, h2, h3⟩
      · exact i.sent x h
      · exact origin_of_pid i.wf hc h2 h3

theorem wake_inv {s : State} (i : Inv s) (hm : s.mode = .terminating) (w : Wake) : Inv (wake s w) := by
  obtain ⟨n, hn, hn0⟩ := i.trm (.inl hm)
  have hne : s.mode ≠ .exited := by rw [hm]; nofun
  have key : ∀ m, Sub s.m m → (∀ x ∈ m.sent, ∃ k, x.2.origin = some k) → Inv { s with m := m, mode := .reaping } := by
    intro m hsub hs
    refine ⟨hsub.wf i.wf, fun x h1 h2 => hsub.child' (i.aw x h1 h2), ?_, nofun, fun h => ⟨(i.rst h).1, nofun, nofun⟩, nofun,
      fun _ => ⟨n, hn, hn0⟩, nofun, hs⟩
    intro h1 h2 _
    obtain ⟨x, a, b, c⟩ := i.rcd h1 h2 hne
    exact ⟨x, a, hsub.child' b, c⟩
  cases w with
  | signal =>
    unfold wake; dsimp only
    split
    · exact key _ (Sub.refl _ _ rfl rfl rfl) i.sent
    · exact i
  | interrupted => exact key _ (Sub.refl _ _ rfl rfl rfl) i.sent
  | timeout =>
    refine key _ (sub_killpg s.m _) fun x hx => ?_
    rw [hn] at hx
    rcases killpg_mem hx with h | ⟨_, h2, h3⟩
    · exact i.sent x h
    · exact origin_of_group i.wf (i.aw n hn hn0) h2 h3

theorem loop_inv {s : State} (w : WF s.m) (hs : ∀ x ∈ s.m.sent, ∃ k, x.2.origin = some k)
    (haw : ∀ n, s.autoware = some n → n ≠ 0 → Child s.m n) (hact : s.active = true) (hrst : s.resetting = false)
    (hr : s.active = true → s.record = true → ∃ n : Nat, s.recorder = (n : Int) ∧ Child s.m n ∧ s.autoware ≠ some n) (n st : Nat)
    (hc : wifexited st = false → wifsignaled st = false → Child s.m n ∧ s.autoware ≠ some n ∧ ¬ Recorded s n) : Inv (loop s n st) := by
  unfold loop
  split
  · exact ⟨w, haw, fun h1 h2 _ => hr h1 h2, nofun, fun h => (by rw [hrst] at h; cases h), nofun, (by rintro (h | h) <;> cases h),
      fun h => (by rw [hact] at h; cases h), hs⟩
  · rename_i h
    simp only [Bool.or_eq_true, not_or, Bool.not_eq_true] at h
    exact ⟨w, haw, fun h1 h2 _ => hr h1 h2, fun a b hab => by injection hab with h1 h2; subst h1; exact ⟨hact, hc h.1 h.2⟩,
      fun h => (by rw [hrst] at h; cases h), nofun, (by rintro (h | h) <;> cases h), nofun, hs⟩

theorem waiting_rst {s : State} (i : Inv s) {n st : Nat} (hw : s.mode = .waiting n st) : s.resetting = false := by
  cases h : s.resetting
  · rfl
  · exact absurd hw ((i.rst h).2.2 n st)

theorem end_status (e : End) (he : e.valid = true) : (wifexited e.status || wifsignaled e.status) = true := by
  cases e with
  | exit c => simp only [End.status, wifexited, Bool.or_eq_true, beq_iff_eq]; omega
  | killed s core =>
    simp only [End.valid, Bool.and_eq_true, decide_eq_true_eq] at he
    simp only [End.status, wifsignaled, Bool.or_eq_true, Bool.and_eq_true]
    right
    cases core <;> simp <;> omega

theorem Sub.sent_inv {s : State} (i : Inv s) {m : Machine} (h : m.sent = s.m.sent) : ∀ x ∈ m.sent, ∃ k, x.2.origin = some k :=
  fun x hx => i.sent x (h ▸ hx)

theorem resume_inv {s : State} (i : Inv s) : Inv (resume s) := by
  unfold resume
  split
  · rename_i hm
    obtain ⟨n, hn, hn0⟩ := i.trm (.inr hm)
    have hne : s.mode ≠ .exited := by rw [hm]; nofun
    rw [hn]
    dsimp only [Option.getD_some]
    split
    · exact i
    · rename_i h
      exact absurd (i.aw n hn hn0) (waitpid_noChild h)
    · rename_i st m h
      obtain ⟨p, hp, p1, p2, p3, p4, w', _, _, hc, _⟩ := waitpid_ended i.wf h
      refine afterDestroy_inv (s := { s with m := m }) w' (by rw [p4]; exact i.sent) (fun h => (i.rst h).1) ?_
      intro h1 h2
      obtain ⟨x, a, b, c⟩ := i.rcd h1 h2 hne
      obtain ⟨k, hk⟩ := b.toK
      exact ⟨x, a, Child.ofK (hc x k (fun e => c (by rw [hn, e])) hk)⟩
  · rename_i hm
    obtain ⟨s1, s2, s3⟩ := i.sav hm
    obtain ⟨n, hn, hc, _⟩ := i.rcd s1 s2 (by rw [hm]; nofun)
    rw [hn]
    split
    · exact i
    · rename_i h
      exact absurd hc (waitpid_noChild h)
    · rename_i st m h
      obtain ⟨p, hp, p1, p2, p3, p4, w', _⟩ := waitpid_ended i.wf h
      exact ⟨w', fun n h => (by rw [s3] at h; cases h), nofun, nofun, nofun, nofun, (by rintro (h | h) <;> cases h), fun _ _ => s3,
        by rw [p4]; exact i.sent⟩
  · rename_i n st hm
    obtain ⟨c1, c2, c3, c4⟩ := i.cmd n st hm
    have hne : s.mode ≠ .exited := by rw [hm]; nofun
    have hrs := waiting_rst i hm
    split
    · rename_i st' m h
      obtain ⟨p, hp, p1, p2, p3, p4, w', _, _, hc, _⟩ := waitpid_ended i.wf h
      obtain ⟨e, he, hst⟩ := i.wf.fin p hp st' p3
      refine loop_inv (s := { s with m := m }) w' (by rw [p4]; exact i.sent) ?_ c1 hrs ?_ n st' ?_
      · intro x h1 h2
        obtain ⟨k, hk⟩ := (i.aw x h1 h2).toK
        exact Child.ofK (hc x k (fun e => c3 (by rw [← e]; exact h1)) hk)
      · intro h1 h2
        obtain ⟨x, a, b, c⟩ := i.rcd h1 h2 hne
        obtain ⟨k, hk⟩ := b.toK
        exact ⟨x, a, Child.ofK (hc x k (fun e => c4 ⟨h1, h2, by rw [← e]; exact a⟩) hk), c⟩
      · intro h1 h2
        have := end_status e he
        rw [← hst, h1, h2] at this
        cases this
    · rename_i h
      exact absurd c2 (waitpid_noChild h)
    · split
      · rename_i p hp
        have hsub : Sub s.m { s.m with procs := s.m.procs.map fun q => if q.key == p.key then { q with stopped := none } else q } :=
          sub_map s.m _ fun q => by
            split
            · exact ⟨rfl, rfl, rfl, rfl, .inl rfl, .inl rfl, nofun⟩
            · exact ⟨rfl, rfl, rfl, rfl, .inl rfl, .inl rfl, fun _ h => .inl h⟩
        exact loop_inv (s := { s with m := _ }) (hsub.wf i.wf) i.sent (fun x h1 h2 => hsub.child' (i.aw x h1 h2)) c1 hrs
          (fun h1 h2 => by obtain ⟨x, a, b, c⟩ := i.rcd h1 h2 hne; exact ⟨x, a, hsub.child' b, c⟩) n _
          (fun _ _ => ⟨hsub.child' c2, c3, c4⟩)
      · exact i
  · exact i

theorem interrupt_inv {s : State} (i : Inv s) : Inv (interrupt s) := by
  unfold interrupt
  split
  · rename_i hm
    exact afterDestroy_inv i.wf i.sent (fun h => (i.rst h).1)
      (fun h1 h2 => by obtain ⟨x, a, b, c⟩ := i.rcd h1 h2 (by rw [hm]; nofun); exact ⟨x, a, b⟩)
  · rename_i hm
    exact ⟨i.wf, i.aw, fun _ _ h => absurd rfl h, nofun, fun h => ⟨(i.rst h).1, nofun, nofun⟩, nofun, (by rintro (h | h) <;> cases h), nofun,
      i.sent⟩
  · rename_i n st hm
    obtain ⟨c1, c2, c3, c4⟩ := i.cmd n st hm
    exact loop_inv i.wf i.sent i.aw c1 (waiting_rst i hm) (fun h1 h2 => i.rcd h1 h2 (by rw [hm]; nofun)) n st (fun _ _ => ⟨c2, c3, c4⟩)
  · exact i

/-- Autoware has been waited for. -/
theorem reaped_inv {s : State} (i : Inv s) (hm : s.mode = .idle) {n st : Nat} {m : Machine} (hn : s.autoware = some n)
    (h : s.m.waitpid n = .ended st m) (l : List Error) : Inv { s with m := m, autoware := some 0, errors := l } := by
  obtain ⟨p, hp, p1, p2, p3, p4, w', _, _, hc, _⟩ := waitpid_ended i.wf h
  refine ⟨w', ?_, ?_, ?_, i.rst, ?_, ?_, ?_, by rw [p4]; exact i.sent⟩
  · intro x h1 h2; injection h1 with h1; exact absurd h1.symm h2
  · intro h1 h2 h3
    obtain ⟨x, a, b, c⟩ := i.rcd h1 h2 h3
    obtain ⟨k, hk⟩ := b.toK
    have hx := Child.ofK (hc x k (fun e => c (by rw [hn, e])) hk)
    refine ⟨x, a, hx, ?_⟩
    intro e; injection e with e
    obtain ⟨q, hq, q1, _⟩ := hx
    have := w'.pos q hq
    omega
  · intro x st' h; rw [hm] at h; cases h
  · intro h; rw [hm] at h; cases h
  · intro h; rw [hm] at h; rcases h with h | h <;> cases h
  · intro h1 h2; exact absurd (i.ina h1 hm) (by rw [hn]; nofun)

theorem spin_inv {s : State} (i : Inv s) (hm : s.mode = .idle) : Inv (spin s) := by
  unfold spin
  split
  · exact i
  · exact i
  · rename_i n h0 hn
    have hn0 : n ≠ 0 := h0
    split
    · exact i
    · rename_i h; exact absurd (i.aw n hn hn0) (waitpid_noChild h)
    · rename_i st m h
      split
      · exact reaped_inv i hm hn h _
      · split
        · exact reaped_inv i hm hn h _
        · rename_i h1 h2
          obtain ⟨p, hp, p1, p2, p3, _⟩ := waitpid_ended i.wf h
          obtain ⟨e, he, hst⟩ := i.wf.fin p hp st p3
          have := end_status e he
          rw [← hst] at this
          simp only [Bool.or_eq_true] at this
          rcases this with h | h
          · exact absurd h h1
          · exact absurd h h2

theorem step_inv {s : State} (i : Inv s) (o : Op) (ho : o ≠ .activate true none) : Inv (step s o) := by
  cases o with
  | event e => exact i.keep (keep_event s.m e)
  | activate r f =>
    unfold step; dsimp only
    split
    · rename_i h
      have ha : s.active = false := by simpa using h.2
      have hrs : s.resetting = false := by
        cases hr : s.resetting
        · rfl
        · rw [(i.rst hr).1] at ha; cases ha
      have haw := i.ina ha h.1
      split
      · rename_i hr
        cases f with
        | none => exact absurd (by rw [hr]) ho
        | some n =>
          dsimp only
          split
          · rename_i hf
            have k := keep_fork s.m n hf
            exact ⟨k.wf i.wf, fun x h1 h2 => k.child' (i.aw x h1 h2), fun _ _ _ => ⟨n, rfl, Child.ofK (fork_child s.m n), by rw [haw]; nofun⟩,
              fun x st hx => (by rw [h.1] at hx; cases hx), fun hx => (by rw [hrs] at hx; cases hx), fun hx => (by rw [h.1] at hx; cases hx),
              fun hx => (by rw [h.1] at hx; rcases hx with hx | hx <;> cases hx), nofun, fun x hx => i.sent x (by rw [← k.sent]; exact hx)⟩
          · exact ⟨i.wf, i.aw, fun h1 => (by rw [ha] at h1; cases h1), fun x st hx => (by rw [h.1] at hx; cases hx),
              fun hx => (by rw [hrs] at hx; cases hx), fun hx => (by rw [h.1] at hx; cases hx),
              fun hx => (by rw [h.1] at hx; rcases hx with hx | hx <;> cases hx), fun _ _ => haw, i.sent⟩
      · rename_i hr
        exact ⟨i.wf, i.aw, fun _ h2 => absurd h2 hr, fun x st hx => (by rw [h.1] at hx; cases hx), fun hx => (by rw [hrs] at hx; cases hx),
          fun hx => (by rw [h.1] at hx; cases hx), fun hx => (by rw [h.1] at hx; rcases hx with hx | hx <;> cases hx), nofun, i.sent⟩
    · exact i
  | launch f =>
    unfold step; dsimp only
    split
    · rename_i h
      have hne : s.mode ≠ .exited := by rw [h.1]; nofun
      cases f with
      | none => exact ⟨i.wf, i.aw, i.rcd, i.cmd, i.rst, i.sav, i.trm, i.ina, i.sent⟩
      | some n =>
        dsimp only
        split
        · rename_i hf
          have k := keep_fork s.m n hf
          refine ⟨k.wf i.wf, ?_, ?_, fun x st hx => (by rw [h.1] at hx; cases hx), i.rst, fun hx => (by rw [h.1] at hx; cases hx),
              fun hx => (by rw [h.1] at hx; rcases hx with hx | hx <;> cases hx), fun ha => (by rw [h.2.1] at ha; cases ha),
              fun x hx => i.sent x (by rw [← k.sent]; exact hx)⟩
          · intro x hx _; injection hx with hx; exact hx ▸ Child.ofK (fork_child s.m n)
          · intro h1 h2 h3
            obtain ⟨x, a, b, c⟩ := i.rcd h1 h2 hne
            exact ⟨x, a, k.child' b, fun e => by injection e with e; exact free_ne hf b e.symm⟩
        · exact i
    · exact i
  | attach =>
    unfold step; dsimp only
    split
    · rename_i h
      refine ⟨i.wf, ?_, ?_, fun x st hx => (by rw [h.1] at hx; cases hx), i.rst, fun hx => (by rw [h.1] at hx; cases hx),
              fun hx => (by rw [h.1] at hx; rcases hx with hx | hx <;> cases hx), fun ha => (by rw [h.2.1] at ha; cases ha), i.sent⟩
      · intro x hx h0; injection hx with hx; exact absurd hx.symm h0
      · intro h1 h2 h3
        obtain ⟨x, a, b, c⟩ := i.rcd h1 h2 h3
        refine ⟨x, a, b, fun e => ?_⟩
        injection e with e
        obtain ⟨q, hq, q1, _⟩ := b
        have := i.wf.pos q hq
        omega
    · exact i
  | spin =>
    unfold step; dsimp only
    split
    · rename_i h; exact spin_inv i h
    · exact i
  | despawn =>
    unfold step; dsimp only
    split
    · rename_i h
      have hrs : s.resetting = false := by
        cases hr : s.resetting
        · rfl
        · exact absurd h.1 (i.rst hr).2.1
      have := destroy_inv i h.1 s.resetting s.active (fun h => h) (fun h => by rw [hrs] at h; cases h)
      exact this
    · exact i
  | reset =>
    unfold step; dsimp only
    split
    · rename_i h
      exact destroy_inv i h.1 true s.active (fun h => h) (fun _ => h.2)
    · exact i
  | shutdown =>
    unfold step; dsimp only
    split
    · rename_i h
      have hrs : s.resetting = false := by
        cases hr : s.resetting
        · rfl
        · exact absurd h (i.rst hr).2.1
      exact destroy_inv i h s.resetting false nofun (fun h => by rw [hrs] at h; cases h)
    · exact i
  | command f =>
    unfold step; dsimp only
    split
    · rename_i h
      have hne : s.mode ≠ .exited := by rw [h.1]; nofun
      have hrs : s.resetting = false := by
        cases hr : s.resetting
        · rfl
        · exact absurd h.1 (i.rst hr).2.1
      cases f with
      | none => exact ⟨i.wf, i.aw, i.rcd, i.cmd, i.rst, i.sav, i.trm, i.ina, i.sent⟩
      | some n =>
        dsimp only
        split
        · rename_i hf
          have k := keep_fork s.m n hf
          refine ⟨k.wf i.wf, fun x h1 h2 => k.child' (i.aw x h1 h2), ?_, ?_, fun hx => (by rw [hrs] at hx; cases hx), nofun,
            (by rintro (hx | hx) <;> cases hx), nofun, fun x hx => i.sent x (by rw [← k.sent]; exact hx)⟩
          · intro h1 h2 _
            obtain ⟨x, a, b, c⟩ := i.rcd h1 h2 hne
            exact ⟨x, a, k.child' b, c⟩
          · intro x st hx
            injection hx with hx _
            subst hx
            refine ⟨h.2, Child.ofK (fork_child s.m n), fun e => ?_, fun e => ?_⟩
            · exact free_ne hf (i.aw n e (free_pos hf)) rfl
            · obtain ⟨e1, e2, e3⟩ := e
              obtain ⟨x, a, b, c⟩ := i.rcd e1 e2 hne
              have : x = n := by have := a.symm.trans e3; omega
              exact free_ne hf b this
        · exact i
    · exact i
  | wake w =>
    unfold step; dsimp only
    split
    · rename_i h; exact wake_inv i h w
    · exact i
  | resume => exact resume_inv i
  | interrupt => exact interrupt_inv i

theorem Recordable.inv {s : State} (h : Recordable s) : Inv s := by
  induction h with
  | start me own others next h => exact Inv.start me own others next h
  | step s o _ ho ih => exact step_inv ih o ho

end Verif.Process
