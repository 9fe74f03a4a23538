import Verif.Registry.Spec
/-
The invariant of the registry and its mirror.
-/
namespace Verif.Registry
variable {α : Type} [DecidableEq α]
set_option linter.unusedSectionVars false

/-- The names of a kind in the entity manager. -/
def namesOf (k : Kind) (es : List (α × Kind)) : List α := (es.filter (fun e => e.2 = k)).map (·.1)

structure Inv (w : World α) : Prop where
  nodup : (w.entities.map (·.1)).Nodup
  ego : (namesOf .ego w.entities).length ≤ 1
  mirror : ∀ k, (w.sim.ofKind k).Perm (namesOf k w.entities)
  status : w.sim.status.Perm (w.entities.map (·.1))
  opened : w.closed = false
  networked : w.standalone = false

theorem inv_init : Inv (World.init (α := α) false) :=
  ⟨by simp [World.init], by simp [World.init, namesOf], by intro k; cases k <;> simp [World.init, Sim.empty, Sim.ofKind, namesOf],
   by simp [World.init, Sim.empty], rfl, rfl⟩

theorem mem_namesOf {k : Kind} {es : List (α × Kind)} {n : α} : n ∈ namesOf k es ↔ (n, k) ∈ es := by
  unfold namesOf
  constructor
  · intro h
    obtain ⟨⟨a, b⟩, h1, h2⟩ := List.mem_map.mp h
    have := List.mem_filter.mp h1
    simp at this h2
    obtain ⟨h3, rfl⟩ := this
    rw [← h2]; exact h3
  · intro h
    exact List.mem_map.mpr ⟨(n, k), List.mem_filter.mpr ⟨h, by simp⟩, rfl⟩

theorem find_of_mem {es : List (α × Kind)} (hn : (es.map (·.1)).Nodup) {n : α} {k : Kind} (h : (n, k) ∈ es) :
    es.find? (fun e => e.1 = n) = some (n, k) := by
  induction es with
  | nil => simp at h
  | cons e es ih =>
    simp only [List.map_cons, List.nodup_cons] at hn
    rw [List.find?_cons]
    by_cases c : e.1 = n
    · simp only [c, decide_true]
      rcases List.mem_cons.mp h with rfl | h
      · rfl
      · exact absurd (c ▸ List.mem_map.mpr ⟨(n, k), h, rfl⟩) hn.1
    · simp only [c, decide_false]
      rcases List.mem_cons.mp h with rfl | h
      · exact absurd rfl c
      · exact ih hn.2 h

theorem kindOf_eq {w : World α} (hn : (w.entities.map (·.1)).Nodup) {n : α} {k : Kind} :
    kindOf w n = some k ↔ (n, k) ∈ w.entities := by
  unfold kindOf
  constructor
  · intro h
    obtain ⟨⟨a, b⟩, h1, h2⟩ := Option.map_eq_some_iff.mp h
    have := List.find?_some h1
    simp at this h2
    subst this h2
    exact List.mem_of_find?_eq_some h1
  · intro h
    rw [find_of_mem hn h]; rfl

theorem kindOf_none {w : World α} {n : α} : kindOf w n = none ↔ w.exists_ n = false := by
  unfold kindOf World.exists_
  simp

theorem exists_iff {w : World α} {n : α} : w.exists_ n = true ↔ n ∈ w.names := by
  unfold World.exists_ World.names; simp

theorem anyEgo_iff {w : World α} : w.anyEgo = true ↔ ∃ m, (m, Kind.ego) ∈ w.entities := by
  unfold World.anyEgo
  rw [List.any_eq_true]
  constructor
  · rintro ⟨⟨a, b⟩, h, e⟩
    simp at e; subst e; exact ⟨a, h⟩
  · rintro ⟨m, h⟩
    exact ⟨_, h, by simp⟩

/-- Two worlds with the same entities up to order have the same kinds. -/
theorem kindOf_perm {w w' : World α} (h : w'.entities.Perm w.entities) (hn : (w.entities.map (·.1)).Nodup) (n : α) :
    kindOf w' n = kindOf w n := by
  have hn' : (w'.entities.map (·.1)).Nodup := (h.map _).nodup_iff.mpr hn
  apply Option.ext
  intro k
  rw [kindOf_eq hn', kindOf_eq hn]
  exact h.mem_iff

theorem insertStatus_ofKind (n : α) (s : Sim α) (k : Kind) : (Sim.insertStatus n s).ofKind k = s.ofKind k := by
  unfold Sim.insertStatus; split <;> cases k <;> rfl

theorem insertStatus_status (n : α) (s : Sim α) (h : n ∉ s.status) :
    (Sim.insertStatus n s).status = s.status ++ [n] := by
  unfold Sim.insertStatus; rw [if_neg h]

/-- Spawning in the environment simulator a name that has no status, no Ego existing. -/
theorem sim_spawn (n : α) (k : Kind) (s : Sim α) (h : n ∉ s.status) (he : k = .ego → s.egos = []) :
    (Sim.spawn n k s).2 = .ok ∧ (Sim.spawn n k s).1.status = s.status ++ [n] ∧
    ∀ k', (Sim.spawn n k s).1.ofKind k' = if k' = k then s.ofKind k ++ [n] else s.ofKind k' := by
  cases k with
  | ego =>
    unfold Sim.spawn
    rw [if_neg (by simp [he rfl])]
    refine ⟨rfl, insertStatus_status n _ h, ?_⟩
    intro k'; rw [insertStatus_ofKind]; cases k' <;> simp [Sim.ofKind, he rfl]
  | vehicle =>
    refine ⟨rfl, insertStatus_status n _ h, ?_⟩
    intro k'; show (Sim.insertStatus n _).ofKind k' = _; rw [insertStatus_ofKind]; cases k' <;> simp [Sim.ofKind]
  | pedestrian =>
    refine ⟨rfl, insertStatus_status n _ h, ?_⟩
    intro k'; show (Sim.insertStatus n _).ofKind k' = _; rw [insertStatus_ofKind]; cases k' <;> simp [Sim.ofKind]
  | misc =>
    refine ⟨rfl, insertStatus_status n _ h, ?_⟩
    intro k'; show (Sim.insertStatus n _).ofKind k' = _; rw [insertStatus_ofKind]; cases k' <;> simp [Sim.ofKind]

theorem namesOf_append (k k' : Kind) (n : α) (es : List (α × Kind)) :
    namesOf k' (es ++ [(n, k)]) = if k' = k then namesOf k es ++ [n] else namesOf k' es := by
  unfold namesOf
  by_cases c : k' = k
  · subst c; simp
  · rw [if_neg c]
    have : k ≠ k' := fun e => c e.symm
    simp [this]

theorem namesOf_perm (k : Kind) {es es' : List (α × Kind)} (h : es.Perm es') : (namesOf k es).Perm (namesOf k es') :=
  (h.filter _).map _

theorem inv_spawn (H : Hash α) (n : α) (k : Kind) (ctor : Bool) {w : World α} (h : Inv w) :
    Inv (w.spawn H n k ctor).1 ∧
    specStep (kindOf w) (.spawn n k ctor) (kindOf (w.spawn H n k ctor).1, (w.spawn H n k ctor).2) ∧
    ((w.spawn H n k ctor).2 ≠ .ok → (w.spawn H n k ctor).1 = w) := by
  have key : (ctor = true ∧ kindOf w n = none ∧ (k = .ego → ∀ m, kindOf w m ≠ some .ego)) ↔
      ¬ (k = .ego ∧ w.anyEgo = true) ∧ ctor ≠ false ∧ ¬ w.exists_ n = true := by
    rw [kindOf_none]
    have : (∀ m, kindOf w m ≠ some .ego) ↔ ¬ w.anyEgo = true := by
      rw [anyEgo_iff]
      constructor
      · rintro h1 ⟨m, hm⟩; exact h1 m ((kindOf_eq h.nodup).mpr hm)
      · intro h1 m hm; exact h1 ⟨m, (kindOf_eq h.nodup).mp hm⟩
    rw [this]
    cases ctor <;> simp
    exact And.comm
  by_cases free : ctor = true ∧ kindOf w n = none ∧ (k = .ego → ∀ m, kindOf w m ≠ some .ego)
  · have f := key.mp free
    have hse : w.spawnEntity H n k ctor = ({ w with entities := H.order (w.entities ++ [(n, k)]) }, .ok) := by
      unfold World.spawnEntity
      rw [if_neg f.1, if_neg f.2.1, if_neg f.2.2]
    have hns : n ∉ w.sim.status := by
      rw [h.status.mem_iff]
      intro hc; exact f.2.2 (exists_iff.mpr hc)
    have hego : k = .ego → w.sim.egos = [] := by
      intro e
      have : namesOf .ego w.entities = [] := by
        apply List.eq_nil_iff_forall_not_mem.mpr
        intro m hm
        exact free.2.2 e m ((kindOf_eq h.nodup).mpr (mem_namesOf.mp hm))
      have hm := h.mirror .ego
      rw [this] at hm
      exact hm.eq_nil
    obtain ⟨s1, s2, s3⟩ := sim_spawn n k w.sim hns hego
    have hsp : w.spawn H n k ctor =
        ({ w with entities := H.order (w.entities ++ [(n, k)]), sim := (Sim.spawn n k w.sim).1 }, .ok) := by
      unfold World.spawn
      rw [hse]
      simp only [h.networked, Bool.false_eq_true, if_false, World.ask, h.opened, s1]
    rw [hsp]
    have hperm := H.perm (w.entities ++ [(n, k)])
    have hnd : ((w.entities ++ [(n, k)]).map (·.1)).Nodup := by
      rw [List.map_append, List.nodup_append]
      refine ⟨h.nodup, by simp, ?_⟩
      intro a ha b hb e
      simp at hb
      subst hb e
      exact f.2.2 (exists_iff.mpr ha)
    refine ⟨⟨(hperm.map _).nodup_iff.mpr hnd, ?_, ?_, ?_, h.opened, h.networked⟩, ⟨fun _ => ⟨rfl, ?_⟩, fun c => absurd free c⟩, fun c => absurd rfl c⟩
    · show (namesOf .ego (H.order _)).length ≤ 1
      rw [(namesOf_perm .ego hperm).length_eq, namesOf_append]
      split
      · rename_i e
        have := (h.mirror .ego).length_eq
        rw [show w.sim.ofKind .ego = w.sim.egos from rfl, hego e.symm] at this
        rw [← e, List.length_append, ← this]; simp
      · exact h.ego
    · intro k'
      show ((Sim.spawn n k w.sim).1.ofKind k').Perm (namesOf k' (H.order _))
      refine List.Perm.trans ?_ (namesOf_perm k' hperm).symm
      rw [s3, namesOf_append]
      split
      · exact (h.mirror k).append_right _
      · exact h.mirror k'
    · show (Sim.spawn n k w.sim).1.status.Perm ((H.order _).map (·.1))
      rw [s2]
      refine List.Perm.trans ?_ (hperm.map _).symm
      rw [List.map_append]
      exact h.status.append_right _
    · funext m
      rw [kindOf_perm (w := { w with entities := w.entities ++ [(n, k)] }) hperm hnd]
      unfold kindOf
      simp only [List.find?_append]
      by_cases c : m = n
      · subst c
        have : w.entities.find? (fun e => e.1 = m) = none := by
          have := free.2.1; unfold kindOf at this; simpa using this
        simp [this]
      · rw [if_neg c]
        cases hf : w.entities.find? (fun e => e.1 = m) with
        | some x => rfl
        | none => simp [Ne.symm c]
  · have hse : w.spawnEntity H n k ctor = (w, .throws) := by
      unfold World.spawnEntity
      split
      · rfl
      · split
        · rfl
        · split
          · rfl
          · rename_i a b c; exact absurd (key.mpr ⟨a, b, c⟩) free
    have hsp : w.spawn H n k ctor = (w, .throws) := by unfold World.spawn; rw [hse]
    rw [hsp]
    exact ⟨h, ⟨fun c => absurd c free, fun _ => ⟨rfl, rfl⟩⟩, fun _ => rfl⟩

theorem namesOf_filter (k : Kind) (n : α) (es : List (α × Kind)) :
    namesOf k (es.filter (fun e => e.1 ≠ n)) = (namesOf k es).filter (fun m => m ≠ n) := by
  unfold namesOf
  rw [List.filter_map, List.filter_filter, List.filter_filter]
  congr 1
  apply List.filter_congr
  intro x _
  simp [Bool.and_comm]

theorem filter_id {l : List α} {n : α} (h : n ∉ l) : l.filter (fun m => m ≠ n) = l := by
  rw [List.filter_eq_self]
  intro a ha
  simp only [ne_eq, decide_not, Bool.not_eq_eq_eq_not, Bool.not_true, decide_eq_false_iff_not]
  intro e; subst e; exact h ha

theorem sim_despawn (n : α) (s : Sim α) (k : Kind) (hk : n ∈ s.ofKind k) (hu : ∀ k', k' ≠ k → n ∉ s.ofKind k') :
    (Sim.despawn n s).2 = .ok ∧ (Sim.despawn n s).1.status = s.status.filter (fun m => m ≠ n) ∧
    ∀ k', (Sim.despawn n s).1.ofKind k' = (s.ofKind k').filter (fun m => m ≠ n) := by
  have he := hu .ego
  have hv := hu .vehicle
  have hp := hu .pedestrian
  have hm := hu .misc
  unfold Sim.despawn
  simp only [Sim.ofKind] at he hv hp hm
  cases k with
  | ego =>
    simp only [Sim.ofKind] at hk
    rw [if_pos hk]
    refine ⟨rfl, rfl, ?_⟩
    intro k'; cases k' <;> simp only [Sim.ofKind] <;> first | rfl | (rw [filter_id]; simp_all)
  | vehicle =>
    simp only [Sim.ofKind] at hk
    rw [if_neg (he (by simp)), if_pos hk]
    refine ⟨rfl, rfl, ?_⟩
    intro k'; cases k' <;> simp only [Sim.ofKind] <;> first | rfl | (rw [filter_id]; simp_all)
  | pedestrian =>
    simp only [Sim.ofKind] at hk
    rw [if_neg (he (by simp)), if_neg (hv (by simp)), if_pos hk]
    refine ⟨rfl, rfl, ?_⟩
    intro k'; cases k' <;> simp only [Sim.ofKind] <;> first | rfl | (rw [filter_id]; simp_all)
  | misc =>
    simp only [Sim.ofKind] at hk
    rw [if_neg (he (by simp)), if_neg (hv (by simp)), if_neg (hp (by simp)), if_pos hk]
    refine ⟨rfl, rfl, ?_⟩
    intro k'; cases k' <;> simp only [Sim.ofKind] <;> first | rfl | (rw [filter_id]; simp_all)

theorem map_filter_fst (n : α) (es : List (α × Kind)) :
    (es.filter (fun e => e.1 ≠ n)).map (·.1) = (es.map (·.1)).filter (fun m => m ≠ n) := by
  rw [List.filter_map]; rfl

theorem inv_despawn (n : α) {w : World α} (h : Inv w) :
    Inv (w.despawn n).1 ∧
    specStep (kindOf w) (.despawn n) (kindOf (w.despawn n).1, (w.despawn n).2) ∧
    ((w.despawn n).2 ≠ .ok → (w.despawn n).1 = w) ∧
    (w.despawn n).1.entities = w.entities.filter (fun e => e.1 ≠ n) := by
  by_cases c : w.exists_ n = true
  · obtain ⟨⟨n', k⟩, hmem, e⟩ := List.mem_map.mp (exists_iff.mp c)
    simp only at e
    subst e
    have hk : n' ∈ w.sim.ofKind k := (h.mirror k).mem_iff.mpr (mem_namesOf.mpr hmem)
    have hu : ∀ k', k' ≠ k → n' ∉ w.sim.ofKind k' := by
      intro k' hne hc
      have h1 := mem_namesOf.mp ((h.mirror k').mem_iff.mp hc)
      have := find_of_mem h.nodup h1
      rw [find_of_mem h.nodup hmem] at this
      simp at this
      exact hne this.symm
    obtain ⟨s1, s2, s3⟩ := sim_despawn n' w.sim k hk hu
    have hd : w.despawn n' = ({ w with entities := w.entities.filter (fun e => e.1 ≠ n'), sim := (Sim.despawn n' w.sim).1 }, .ok) := by
      unfold World.despawn World.despawnEntity
      rw [if_pos c]
      simp only [h.networked, Bool.false_eq_true, if_false, World.ask, h.opened, s1]
    rw [hd]
    have hnd : ((w.entities.filter (fun e => e.1 ≠ n')).map (·.1)).Nodup := by
      rw [map_filter_fst]; exact h.nodup.filter _
    refine ⟨⟨hnd, ?_, ?_, ?_, h.opened, h.networked⟩, ⟨?_, ?_⟩, fun c => absurd rfl c, rfl⟩
    · show (namesOf .ego (w.entities.filter _)).length ≤ 1
      rw [namesOf_filter]
      exact Nat.le_trans (List.length_filter_le _ _) h.ego
    · intro k'
      show ((Sim.despawn n' w.sim).1.ofKind k').Perm _
      rw [s3, namesOf_filter]
      exact (h.mirror k').filter _
    · show (Sim.despawn n' w.sim).1.status.Perm _
      rw [s2, map_filter_fst]
      exact h.status.filter _
    · have : kindOf w n' ≠ none := by rw [Ne, kindOf_none, c]; simp
      rw [if_neg this]
    · funext m
      apply Option.ext
      intro k'
      rw [kindOf_eq (w := { w with entities := w.entities.filter (fun e => e.1 ≠ n'), sim := (Sim.despawn n' w.sim).1 }) hnd]
      show (m, k') ∈ w.entities.filter (fun e => e.1 ≠ n') ↔ _
      rw [List.mem_filter]
      by_cases e : m = n'
      · simp [e]
      · rw [if_neg e, kindOf_eq h.nodup]; simp [e]
  · have hd : w.despawn n = (w, .no) := by
      unfold World.despawn World.despawnEntity
      rw [if_neg c]
    have hx : w.exists_ n = false := by simpa using c
    rw [hd]
    refine ⟨h, ⟨?_, ?_⟩, fun _ => rfl, ?_⟩
    · rw [if_pos (kindOf_none.mpr hx)]
    · funext m
      by_cases e : m = n
      · subst e; rw [if_pos rfl]; exact kindOf_none.mpr hx
      · rw [if_neg e]
    · symm
      rw [List.filter_eq_self]
      intro a ha
      simp only [ne_eq, decide_not, Bool.not_eq_eq_eq_not, Bool.not_true, decide_eq_false_iff_not]
      intro e; exact c (exists_iff.mpr (e ▸ List.mem_map.mpr ⟨a, ha, rfl⟩))

theorem inv_despawnList (ns : List α) {w : World α} (h : Inv w) (hn : ns.Nodup) (hin : ∀ n ∈ ns, n ∈ w.names) :
    Inv (World.despawnList ns w).1 ∧ (World.despawnList ns w).2 = .ok ∧
    (World.despawnList ns w).1.entities = w.entities.filter (fun e => e.1 ∉ ns) := by
  induction ns generalizing w with
  | nil => exact ⟨h, rfl, by unfold World.despawnList; symm; rw [List.filter_eq_self]; simp⟩
  | cons n ns ih =>
    obtain ⟨h1, h2, _, h4⟩ := inv_despawn n h
    have hex : kindOf w n ≠ none := by
      rw [Ne, kindOf_none, exists_iff.mpr (hin n (by simp))]; simp
    have hr : (w.despawn n).2 = .ok := by have := h2.1; rwa [if_neg hex] at this
    simp only [List.nodup_cons] at hn
    have ih' := ih h1 hn.2 (by
      intro m hm
      unfold World.names
      rw [h4, map_filter_fst, List.mem_filter]
      refine ⟨hin m (by simp [hm]), ?_⟩
      simp only [ne_eq, decide_not, Bool.not_eq_eq_eq_not, Bool.not_true, decide_eq_false_iff_not]
      intro e; subst e; exact hn.1 hm)
    have hl : World.despawnList (n :: ns) w = World.despawnList ns (w.despawn n).1 := by
      rw [World.despawnList]
      have : w.despawn n = ((w.despawn n).1, .ok) := by rw [← hr]
      rw [this]
    rw [hl]
    refine ⟨ih'.1, ih'.2.1, ?_⟩
    rw [ih'.2.2, h4, List.filter_filter]
    apply List.filter_congr
    intro x _
    simp [Bool.and_comm]

theorem inv_despawnEntities {w : World α} (h : Inv w) :
    Inv w.despawnEntities.1 ∧ w.despawnEntities.2 = .ok ∧ w.despawnEntities.1.entities = [] := by
  obtain ⟨h1, h2, h3⟩ := inv_despawnList w.names h h.nodup (fun _ h => h)
  refine ⟨h1, h2, ?_⟩
  show (World.despawnList w.names w).1.entities = []
  rw [h3, List.filter_eq_nil_iff]
  intro a ha
  have : a.1 ∈ w.names := List.mem_map.mpr ⟨a, ha, rfl⟩
  simp [this]

theorem inv_frame {w : World α} (h : Inv w) : w.updateFrame = (w, .ok) := by
  have h1 : w.sim.updateStatus w.names = .ok := by
    unfold Sim.updateStatus
    rw [if_pos]
    intro n hn; exact h.status.mem_iff.mpr hn
  have h2 : w.sim.updateFrame = .ok := by
    unfold Sim.updateFrame
    rw [if_pos]
    intro n hn
    obtain ⟨⟨a, k⟩, hm, e⟩ := List.mem_map.mp (h.status.mem_iff.mp hn)
    simp only at e; subst e
    have := (h.mirror k).mem_iff.mpr (mem_namesOf.mpr hm)
    cases k <;> simp only [Sim.ofKind] at this <;> simp [this]
  unfold World.updateFrame
  simp only [h.networked, Bool.false_eq_true, false_and, if_false, World.ask, h.opened, h1, h2]

/-- Every ordinary request keeps the invariant and does what is specified. -/
theorem inv_exec (H : Hash α) (o : Op α) (ho : ordinary o = true) {w : World α} (h : Inv w) :
    Inv (exec H w o).1 ∧ specStep (kindOf w) o (kindOf (exec H w o).1, (exec H w o).2) ∧
    ((exec H w o).2 ≠ .ok → (exec H w o).1 = w) ∧ (exec H w o).2 ≠ .hangs ∧ (exec H w o).2 ≠ .undefined := by
  cases o with
  | spawn n k c =>
    obtain ⟨h1, h2, h3⟩ := inv_spawn H n k c h
    refine ⟨h1, h2, h3, ?_⟩
    show (w.spawn H n k c).2 ≠ _ ∧ (w.spawn H n k c).2 ≠ _
    by_cases f : c = true ∧ kindOf w n = none ∧ (k = .ego → ∀ m, kindOf w m ≠ some .ego)
    · rw [(h2.1 f).1]; simp
    · rw [(h2.2 f).1]; simp
  | despawn n =>
    obtain ⟨h1, h2, h3, _⟩ := inv_despawn n h
    refine ⟨h1, h2, h3, ?_⟩
    show (w.despawn n).2 ≠ _ ∧ (w.despawn n).2 ≠ _
    have := h2.1
    rw [this]; split <;> simp
  | despawnEntities =>
    obtain ⟨h1, h2, h3⟩ := inv_despawnEntities h
    refine ⟨h1, ⟨h2, ?_⟩, fun c => absurd h2 c, ?_⟩
    · funext m; unfold kindOf; show Option.map _ (List.find? _ w.despawnEntities.1.entities) = none; rw [h3]; rfl
    · show w.despawnEntities.2 ≠ _ ∧ w.despawnEntities.2 ≠ _
      rw [h2]; simp
  | updateFrame =>
    show Inv w.updateFrame.1 ∧ specStep _ _ (kindOf w.updateFrame.1, w.updateFrame.2) ∧ (_ → w.updateFrame.1 = w) ∧ w.updateFrame.2 ≠ _ ∧ w.updateFrame.2 ≠ _
    rw [inv_frame h]
    exact ⟨h, ⟨rfl, rfl⟩, fun _ => rfl, by simp, by simp⟩
  | reset n => cases ho
  | close => cases ho

theorem inv_run (H : Hash α) (os : List (Op α)) (ho : ∀ o ∈ os, ordinary o = true) {w : World α} (h : Inv w) :
    Inv (run H w os).1 ∧ Follows (kindOf w) os (run H w os).2 (kindOf (run H w os).1) := by
  induction os generalizing w with
  | nil => exact ⟨h, .nil _⟩
  | cons o os ih =>
    obtain ⟨h1, h2, _, h4, h5⟩ := inv_exec H o (ho o (by simp)) h
    obtain ⟨i1, i2⟩ := ih (fun o' h' => ho o' (by simp [h'])) h1
    have : run H w (o :: os) = ((run H (exec H w o).1 os).1, (exec H w o).2 :: (run H (exec H w o).1 os).2) := by
      rw [run, if_neg (by simp [h4, h5])]
    rw [this]
    exact ⟨i1, .cons _ _ _ _ _ _ _ h2 i2⟩

end Verif.Registry
