import Verif.Process.Invariant
/-
What becomes of a single process, step by step.
-/
namespace Verif.Process

/-- Processes that have gone do not come back, children stay until they are waited for, and signals stay sent. -/
structure Keeps (m m' : Machine) : Prop where
  gone : ∀ k, Gone m k → Gone m' k
  child : ∀ n k, ChildK m n k → ChildK m' n k ∨ Gone m' k
  sent : ∀ x ∈ m.sent, x ∈ m'.sent

theorem Keeps.refl (m : Machine) : Keeps m m := ⟨fun _ h => h, fun _ _ h => .inl h, fun _ h => h⟩

theorem Keeps.trans {a b c : Machine} (h : Keeps a b) (h' : Keeps b c) : Keeps a c :=
  ⟨fun k hk => h'.gone k (h.gone k hk), fun n k hk => by
    rcases h.child n k hk with h1 | h1
    · exact h'.child n k h1
    · exact .inr (h'.gone k h1), fun x hx => h'.sent x (h.sent x hx)⟩

theorem Sub.keeps {m m' : Machine} (h : Sub m m') (hs : ∀ x ∈ m.sent, x ∈ m'.sent) : Keeps m m' :=
  ⟨fun _ => h.gone, fun _ _ hk => .inl (h.child hk), hs⟩

theorem Keep.keeps {m m' : Machine} (h : Keep m m') : Keeps m m' :=
  ⟨h.gone, fun n k hk => .inl (h.child n k hk), fun _ hx => h.sent ▸ hx⟩

theorem kill_keeps (m : Machine) (t : Int) : Keeps m (m.kill t).1 :=
  (sub_kill m t).keeps fun _ hx => List.mem_append_left _ hx

theorem killpg_keeps (m : Machine) (g : Nat) : Keeps m (m.killpg g) :=
  (sub_killpg m g).keeps fun _ hx => List.mem_append_left _ hx

theorem waitpid_keeps {m m' : Machine} {n st : Nat} (w : WF m) (h : m.waitpid n = .ended st m') : Keeps m m' := by
  obtain ⟨p, _, _, _, _, p4, _, _, hg, hc, hr⟩ := waitpid_ended w h
  refine ⟨hg, fun x k hk => ?_, fun x hx => by rw [p4]; exact hx⟩
  by_cases hx : x = n
  · exact .inr (hr k (hx ▸ hk))
  · exact .inl (hc x k hx hk)

theorem stopRecord_keeps (s : State) : Keeps s.m (stopRecord s).m := by
  unfold stopRecord
  split
  · dsimp only
    split <;> exact kill_keeps s.m _
  · exact Keeps.refl _

theorem afterDestroy_keeps (s : State) : Keeps s.m (afterDestroy s).m := by
  unfold afterDestroy
  dsimp only
  split
  · exact stopRecord_keeps { s with autoware := none }
  · exact Keeps.refl _

theorem destroy_keeps (s : State) : Keeps s.m (destroy s).m := by
  unfold destroy
  split
  · exact afterDestroy_keeps s
  · exact afterDestroy_keeps s
  · exact Keeps.trans (b := { s.m with blocked := true }) ((Sub.refl s.m { s.m with blocked := true } rfl rfl rfl).keeps fun _ h => h) (kill_keeps _ _)

theorem wake_keeps (s : State) (w : Wake) : Keeps s.m (wake s w).m := by
  unfold wake
  split
  · split
    · exact (Sub.refl s.m { s.m with pending := false } rfl rfl rfl).keeps fun _ h => h
    · exact Keeps.refl _
  · exact Keeps.refl _
  · exact killpg_keeps _ _

theorem loop_m (s : State) (n st : Nat) : (loop s n st).m = s.m := by unfold loop; split <;> rfl

theorem spin_keeps {s : State} (i : Inv s) : Keeps s.m (spin s).m := by
  unfold spin
  split
  · exact Keeps.refl _
  · exact Keeps.refl _
  · split
    · exact Keeps.refl _
    · exact Keeps.refl _
    · rename_i h
      have k := waitpid_keeps i.wf h
      split
      · exact k
      · split <;> exact k

theorem sub_clear (m : Machine) (k : Nat) :
    Sub m { m with procs := m.procs.map fun q => if q.key == k then { q with stopped := none } else q } :=
  sub_map m _ fun q => by
    split
    · exact ⟨rfl, rfl, rfl, rfl, .inl rfl, .inl rfl, nofun⟩
    · exact ⟨rfl, rfl, rfl, rfl, .inl rfl, .inl rfl, fun _ h => .inl h⟩

theorem resume_keeps {s : State} (i : Inv s) : Keeps s.m (resume s).m := by
  unfold resume
  split
  · split
    · exact Keeps.refl _
    · exact afterDestroy_keeps s
    · rename_i m h
      exact (waitpid_keeps i.wf h).trans (afterDestroy_keeps { s with m := m })
  · rename_i hm
    obtain ⟨s1, s2, s3⟩ := i.sav hm
    obtain ⟨n, hn, hc, _⟩ := i.rcd s1 s2 (by rw [hm]; nofun)
    rw [hn]
    split
    · exact Keeps.refl _
    · exact Keeps.refl _
    · rename_i h; exact waitpid_keeps i.wf h
  · split
    · rename_i h; rw [loop_m]; exact waitpid_keeps i.wf h
    · rw [loop_m]; exact Keeps.refl _
    · split
      · rw [loop_m]; exact (sub_clear s.m _).keeps fun _ h => h
      · exact Keeps.refl _
  · exact Keeps.refl _

theorem interrupt_keeps (s : State) : Keeps s.m (interrupt s).m := by
  unfold interrupt
  split
  · exact afterDestroy_keeps s
  · exact Keeps.refl _
  · rw [loop_m]; exact Keeps.refl _
  · exact Keeps.refl _

theorem step_keeps {s : State} (i : Inv s) (o : Op) : Keeps s.m (step s o).m := by
  cases o with
  | event e => exact (keep_event s.m e).keeps
  | activate r f =>
    unfold step; dsimp only
    split
    · split
      · cases f with
        | none => exact stopRecord_keeps { s with record := r, recorder := -1, resetting := true, errors := s.errors ++ [.noFork] }
        | some n =>
          dsimp only
          split
          · rename_i hf; exact (keep_fork s.m n hf).keeps
          · exact Keeps.refl _
      · exact Keeps.refl _
    · exact Keeps.refl _
  | launch f =>
    unfold step; dsimp only
    split
    · cases f with
      | none => exact Keeps.refl _
      | some n =>
        dsimp only
        split
        · rename_i hf; exact (keep_fork s.m n hf).keeps
        · exact Keeps.refl _
    · exact Keeps.refl _
  | attach => unfold step; dsimp only; split <;> exact Keeps.refl _
  | spin =>
    unfold step; dsimp only
    split
    · exact spin_keeps i
    · exact Keeps.refl _
  | despawn => unfold step; dsimp only; split; exact destroy_keeps _; exact Keeps.refl _
  | reset => unfold step; dsimp only; split; exact destroy_keeps { s with resetting := true }; exact Keeps.refl _
  | shutdown => unfold step; dsimp only; split; exact destroy_keeps { s with active := false }; exact Keeps.refl _
  | command f =>
    unfold step; dsimp only
    split
    · cases f with
      | none => exact Keeps.refl _
      | some n =>
        dsimp only
        split
        · rename_i hf; exact (keep_fork s.m n hf).keeps
        · exact Keeps.refl _
    · exact Keeps.refl _
  | wake w => unfold step; dsimp only; split; exact wake_keeps s w; exact Keeps.refl _
  | resume => exact resume_keeps i
  | interrupt => exact interrupt_keeps s

theorem loop_autoware (s : State) (n st : Nat) : (loop s n st).autoware = s.autoware := by unfold loop; split <;> rfl

theorem destroy_autoware {s : State} {n : Nat} (h : s.autoware = some n) (h0 : n ≠ 0) : (destroy s).autoware = some n := by
  unfold destroy
  split
  · rename_i h'; rw [h'] at h; cases h
  · rename_i h'; rw [h'] at h; injection h with h; exact absurd h.symm h0
  · exact h

/-- Autoware's process is remembered until it has been waited for. -/
theorem aw_step {s : State} (i : Inv s) (o : Op) (ho : Smooth o) {n k : Nat} (hn : s.autoware = some n) (h0 : n ≠ 0)
    (hk : ChildK s.m n k) : (step s o).autoware = some n ∨ Gone (step s o).m k := by
  cases o with
  | event e => exact .inl hn
  | activate r f =>
    unfold step; dsimp only
    split
    · rename_i h
      have ha : s.active = false := by simpa using h.2
      rw [i.ina ha h.1] at hn; cases hn
    · exact .inl hn
  | launch f =>
    unfold step; dsimp only
    split
    · rename_i h; rw [h.2.2] at hn; cases hn
    · exact .inl hn
  | attach =>
    unfold step; dsimp only
    split
    · rename_i h; rw [h.2.2] at hn; cases hn
    · exact .inl hn
  | spin =>
    unfold step; dsimp only
    split
    · unfold spin
      split
      · exact .inl hn
      · exact .inl hn
      · rename_i x _ hx
        have hx : x = n := by rw [hx] at hn; injection hn
        subst hx
        split
        · exact .inl hn
        · rename_i h; exact absurd (Child.ofK hk) (waitpid_noChild h)
        · rename_i h
          obtain ⟨p, _, _, _, _, _, _, _, _, _, hr⟩ := waitpid_ended i.wf h
          have := hr k hk
          split
          · exact .inr this
          · split <;> exact .inr this
    · exact .inl hn
  | despawn =>
    unfold step; dsimp only
    split
    · exact .inl (destroy_autoware hn h0)
    · exact .inl hn
  | reset =>
    unfold step; dsimp only
    split
    · exact .inl (destroy_autoware (s := { s with resetting := true }) hn h0)
    · exact .inl hn
  | shutdown =>
    unfold step; dsimp only
    split
    · exact .inl (destroy_autoware (s := { s with active := false }) hn h0)
    · exact .inl hn
  | command f =>
    unfold step; dsimp only
    split
    · cases f with
      | none => exact .inl hn
      | some x => dsimp only; split <;> exact .inl hn
    · exact .inl hn
  | wake w =>
    unfold step; dsimp only
    split
    · cases w with
      | signal => unfold wake; dsimp only; split <;> exact .inl hn
      | interrupted => exact .inl hn
      | timeout => exact .inl hn
    · exact .inl hn
  | resume =>
    show (resume s).autoware = _ ∨ Gone (resume s).m k
    unfold resume
    split
    · rw [hn]
      dsimp only [Option.getD_some]
      split
      · exact .inl hn
      · rename_i h; exact absurd (Child.ofK hk) (waitpid_noChild h)
      · rename_i m h
        obtain ⟨p, _, _, _, _, _, _, _, _, _, hr⟩ := waitpid_ended i.wf h
        exact .inr ((afterDestroy_keeps { s with m := m }).gone k (hr k hk))
    · rename_i hm; rw [(i.sav hm).2.2] at hn; cases hn
    · split
      · rw [loop_autoware]; exact .inl hn
      · rw [loop_autoware]; exact .inl hn
      · split
        · rw [loop_autoware]; exact .inl hn
        · exact .inl hn
    · exact .inl hn
  | interrupt => exact ho.elim

theorem smooth_ne {o : Op} (h : Smooth o) : o ≠ .activate true none := by rintro rfl; exact h

theorem run_inv {s : State} (i : Inv s) (h : List Op) (hs : ∀ o ∈ h, o ≠ .activate true none) : Inv (run s h) := by
  induction h generalizing s with
  | nil => exact i
  | cons o h ih => exact ih (step_inv i o (hs o (List.mem_cons_self ..))) fun o ho => hs o (List.mem_cons_of_mem _ ho)

/-- A property of the inductive kind along a history. -/
theorem run_induct {P : State → Prop} {C : Op → Prop} (hC : ∀ o, C o → o ≠ .activate true none)
    (hP : ∀ s o, Inv s → C o → P s → P (step s o)) {s : State} (i : Inv s) (p : P s) (h : List Op) (hs : ∀ o ∈ h, C o) : P (run s h) := by
  induction h generalizing s with
  | nil => exact p
  | cons o h ih =>
    have ho := hs o (List.mem_cons_self ..)
    exact ih (step_inv i o (hC o ho)) (hP s o i ho p) fun o ho => hs o (List.mem_cons_of_mem _ ho)

end Verif.Process
