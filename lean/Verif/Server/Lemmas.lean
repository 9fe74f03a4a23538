import Verif.Server.Spec
import Mathlib.Data.List.Induction
/-
Lemmas about the handlers of the sensor simulator.
-/
namespace Verif.Server
variable {P S E : Type}

theorem snoc_split {α : Type} {l before after : List α} {r x : α} (h : l ++ [r] = before ++ x :: after) :
    (after = [] ∧ x = r ∧ before = l) ∨ ∃ a, after = a ++ [r] ∧ l = before ++ x :: a := by
  rcases List.eq_nil_or_concat after with rfl | ⟨a, y, rfl⟩
  · obtain ⟨h1, h2⟩ := List.append_inj' h rfl
    exact Or.inl ⟨rfl, by simpa using h2.symm, h1.symm⟩
  · rw [List.concat_eq_append, ← List.cons_append, ← List.append_assoc] at h
    obtain ⟨h1, h2⟩ := List.append_inj' h rfl
    simp only [List.cons.injEq, and_true] at h2
    exact Or.inr ⟨a, by rw [h2, List.concat_eq_append], h1⟩

theorem live_snoc {k : Kind} {l : List (Request P S)} {r : Request P S} {n : String} :
    Live k (l ++ [r]) n ↔ (∃ pose init, r = .spawn k n pose init) ∨ (Live k l n ∧ r ≠ .reset ∧ r ≠ .despawn n) := by
  constructor
  · rintro ⟨before, pose, init, after, h, ha⟩
    rcases snoc_split h with ⟨rfl, rfl, rfl⟩ | ⟨a, rfl, rfl⟩
    · exact Or.inl ⟨_, _, rfl⟩
    · exact Or.inr ⟨⟨_, _, _, _, rfl, fun x hx => ha x (by simp [hx])⟩, ha r (by simp)⟩
  · rintro (⟨pose, init, rfl⟩ | ⟨⟨before, pose, init, after, rfl, ha⟩, hr⟩)
    · exact ⟨_, _, _, [], rfl, by simp⟩
    · refine ⟨before, pose, init, after ++ [r], by simp, fun x hx => ?_⟩
      rcases List.mem_append.mp hx with hx | hx
      · exact ha x hx
      · rw [List.mem_singleton.mp hx]; exact hr

theorem not_live_nil {k : Kind} {n : String} : ¬ Live (P := P) (S := S) k [] n := by
  rintro ⟨before, pose, init, after, h, -⟩
  cases before <;> cases h

theorem overridden_snoc {l : List (Request P S)} {r : Request P S} :
    Overridden (l ++ [r]) ↔ (∃ started statuses, r = .update true started statuses ∧ ∃ name, name ∈ statuses.map (·.1) ∧ Live .ego l name) ∨
      (Overridden l ∧ r ≠ .mode .autonomous ∧ ∀ name pose init, r ≠ .spawn .ego name pose init) := by
  constructor
  · rintro ⟨before, started, statuses, after, h, hn, ha⟩
    rcases snoc_split h with ⟨rfl, rfl, rfl⟩ | ⟨a, rfl, rfl⟩
    · exact Or.inl ⟨_, _, rfl, hn⟩
    · exact Or.inr ⟨⟨_, _, _, _, rfl, hn, fun x hx => ha x (by simp [hx])⟩, ha r (by simp)⟩
  · rintro (⟨started, statuses, rfl, hn⟩ | ⟨⟨before, started, statuses, after, rfl, hn, ha⟩, hr⟩)
    · exact ⟨_, _, _, [], rfl, hn, by simp⟩
    · refine ⟨before, started, statuses, after ++ [r], by simp, hn, fun x hx => ?_⟩
      rcases List.mem_append.mp hx with hx | hx
      · exact ha x hx
      · rw [List.mem_singleton.mp hx]; exact hr

theorem fresh_snoc {l : List (Request P S)} {r : Request P S} (h : Fresh (l ++ [r])) :
    Fresh l ∧ ∀ k n pose init, r = .spawn k n pose init → ¬ Present l n := by
  constructor
  · intro before k n pose init after hl
    exact h before k n pose init (after ++ [r]) (by rw [hl]; simp)
  · intro k n pose init hr
    exact h l k n pose init [] (by rw [hr])

/-- With fresh names an entity is of one kind only. -/
theorem live_unique {l : List (Request P S)} (hf : Fresh l) : ∀ {k k' n}, Live k l n → Live k' l n → k = k' := by
  induction l using List.reverseRecOn with
  | nil => exact fun h => absurd h not_live_nil
  | append_singleton l r ih =>
    intro k k' n h h'
    obtain ⟨hf, hn⟩ := fresh_snoc hf
    rw [live_snoc] at h h'
    rcases h with ⟨pose, init, rfl⟩ | ⟨h, -⟩
    · rcases h' with ⟨pose', init', hr⟩ | ⟨h', -⟩
      · injection hr
      · exact absurd ⟨k', h'⟩ (hn _ _ _ _ rfl)
    · rcases h' with ⟨pose', init', hr⟩ | ⟨h', -⟩
      · exact absurd ⟨k, h⟩ (hn _ _ _ _ hr)
      · exact ih hf h h'

theorem run_snoc (api : EgoApi P S E) (s : Server S E) (l : List (Request P S)) (r : Request P S) :
    run api s (l ++ [r]) = (run api s l).bind fun s => handle api s r := by
  induction l generalizing s with
  | nil => simp [run]
  | cons a l ih =>
    simp only [List.cons_append, run, Option.bind_eq_bind]
    cases handle api s a with
    | none => rfl
    | some s' => exact ih s'

/-- The list of the entities of a kind. -/
def namesOf (s : Server S E) : Kind → List String
  | .ego => s.egos
  | .vehicle => s.vehicles
  | .pedestrian => s.pedestrians
  | .misc => s.miscs

theorem namesOf_insertStatus (s : Server S E) (n : String) (st : S) (k : Kind) : namesOf (insertStatus s n st) k = namesOf s k := by
  unfold insertStatus; split <;> cases k <;> rfl

theorem insertStatus_ego (s : Server S E) (n : String) (st : S) : (insertStatus s n st).ego = s.ego ∧ (insertStatus s n st).mode = s.mode ∧
    (insertStatus s n st).egos = s.egos := by
  unfold insertStatus; split <;> exact ⟨rfl, rfl, rfl⟩

theorem insertStatus_isSome (s : Server S E) (n m : String) (st : S) :
    ((insertStatus s n st).status m).isSome = true ↔ m = n ∨ (s.status m).isSome = true := by
  unfold insertStatus
  split
  · rename_i h
    exact ⟨Or.inr, fun h' => h'.elim (fun e => e ▸ h) id⟩
  · by_cases hm : m = n
    · simp [hm]
    · simp [hm]

theorem mem_removeFrom {l : List String} {n m : String} : m ∈ removeFrom l n ↔ m ∈ l ∧ m ≠ n := by
  simp [removeFrom]

theorem removeFrom_length {l : List String} {n : String} : l.length ≠ (removeFrom l n).length ↔ n ∈ l := by
  unfold removeFrom
  rw [ne_comm, ne_eq, List.length_filter_eq_length_iff]
  constructor
  · intro h
    apply Classical.byContradiction
    intro hn
    exact h fun m hm => by
      have : m ≠ n := fun e => hn (e ▸ hm)
      simpa using this
  · intro h hall
    simpa using hall n h

/-- What a spawning that does not throw does. -/
theorem spawn_spec {api : EgoApi P S E} {s s' : Server S E} {k : Kind} {n : String} {pose : P} {init : S}
    (h : spawn api s k n pose init = some s') :
    (∀ k' m, m ∈ namesOf s' k' ↔ m ∈ namesOf s k' ∨ (k' = k ∧ m = n)) ∧
    (∀ m, (s'.status m).isSome = true ↔ m = n ∨ (s.status m).isSome = true) ∧
    (k = .ego → s.egos = [] ∧ s'.egos = [n] ∧ s'.ego.isSome = true ∧ s'.mode = .autonomous) ∧
    (k ≠ .ego → s'.ego = s.ego ∧ s'.mode = s.mode ∧ s'.egos = s.egos) ∧
    ((s.status n) = none → s'.status n = some init) ∧ (∀ m, (s.status m).isSome = true → s'.status m = s.status m) := by
  have hst : ∀ t : Server S E, t.status = s.status → ((s.status n) = none → (insertStatus t n init).status n = some init) ∧
      (∀ m, (s.status m).isSome = true → (insertStatus t n init).status m = s.status m) := by
    intro t ht
    unfold insertStatus
    rw [ht]
    split
    · rename_i h'
      exact ⟨fun e => (by rw [e] at h'; cases h'), fun m _ => (by rw [ht])⟩
    · rename_i h'
      refine ⟨fun _ => by simp, fun m hm => ?_⟩
      have : m ≠ n := fun e => h' (e ▸ hm)
      simp [this]
  cases k with
  | ego =>
    simp only [spawn] at h
    split at h
    · cases h
    · rename_i he
      have he : s.egos = [] := by simpa using he
      simp only [Option.bind_eq_bind, Option.bind_eq_some_iff, Option.pure_def, Option.some.injEq] at h
      obtain ⟨e, -, rfl⟩ := h
      refine ⟨fun k' m => ?_, fun m => insertStatus_isSome _ _ _ _, fun _ => ⟨he, ?_, ?_, ?_⟩, fun h => absurd rfl h, hst _ rfl⟩
      · rw [namesOf_insertStatus]
        cases k' <;> simp [namesOf]
      · rw [(insertStatus_ego _ _ _).2.2]; simp [he]
      · rw [(insertStatus_ego _ _ _).1]; rfl
      · rw [(insertStatus_ego _ _ _).2.1]
  | _ =>
    simp only [spawn, Option.some.injEq] at h
    subst h
    refine ⟨fun k' m => ?_, fun m => insertStatus_isSome _ _ _ _, fun h => (by cases h), fun _ => insertStatus_ego _ _ _, hst _ rfl⟩
    rw [namesOf_insertStatus]
    cases k' <;> simp [namesOf]

/-- What despawning does, if an entity is of one kind only. -/
theorem despawn_spec (s : Server S E) (n : String) (hu : ∀ k k' m, m ∈ namesOf s k → m ∈ namesOf s k' → k = k') :
    (∀ k m, m ∈ namesOf (despawn s n).1 k ↔ m ∈ namesOf s k ∧ m ≠ n) ∧
    ((despawn s n).2 = true ↔ ∃ k, n ∈ namesOf s k) ∧
    (∀ m, m ≠ n → (despawn s n).1.status m = s.status m) ∧ ((∃ k, n ∈ namesOf s k) → (despawn s n).1.status n = none) ∧
    ((¬ ∃ k, n ∈ namesOf s k) → (despawn s n).1.status n = s.status n) := by
  have no : ∀ k k' m, m ∈ namesOf s k → k ≠ k' → m ∉ namesOf s k' := fun k k' m h hne h' => hne (hu k k' m h h')
  have same : ∀ k m, n ∉ namesOf s k → (m ∈ namesOf s k ↔ m ∈ namesOf s k ∧ m ≠ n) :=
    fun k m hn => ⟨fun h => ⟨h, fun e => hn (e ▸ h)⟩, fun h => h.1⟩
  unfold despawn
  simp only [removeFrom_length]
  by_cases h1 : n ∈ s.egos
  · have e : ∃ k, n ∈ namesOf s k := ⟨.ego, h1⟩
    simp only [h1, if_true]
    refine ⟨fun k m => ?_, iff_of_true trivial e, fun m hm => if_neg hm, fun _ => trivial, fun h => absurd e h⟩
    cases k with
    | ego => simp only [namesOf, mem_removeFrom]
    | vehicle => exact same .vehicle m (no .ego _ n h1 (by decide))
    | pedestrian => exact same .pedestrian m (no .ego _ n h1 (by decide))
    | misc => exact same .misc m (no .ego _ n h1 (by decide))
  · have hrem : removeFrom s.egos n = s.egos := by
      simp only [removeFrom, List.filter_eq_self, bne_iff_ne, ne_eq]
      exact fun m hm e => h1 (e ▸ hm)
    simp only [h1, if_false, hrem]
    by_cases h2 : n ∈ s.vehicles
    · have e : ∃ k, n ∈ namesOf s k := ⟨.vehicle, h2⟩
      simp only [h2, if_true]
      refine ⟨fun k m => ?_, iff_of_true trivial e, fun m hm => if_neg hm, fun _ => trivial, fun h => absurd e h⟩
      cases k with
      | ego => exact same .ego m h1
      | vehicle => simp only [namesOf, mem_removeFrom]
      | pedestrian => exact same .pedestrian m (no .vehicle _ n h2 (by decide))
      | misc => exact same .misc m (no .vehicle _ n h2 (by decide))
    · simp only [h2, if_false]
      by_cases h3 : n ∈ s.pedestrians
      · have e : ∃ k, n ∈ namesOf s k := ⟨.pedestrian, h3⟩
        simp only [h3, if_true]
        refine ⟨fun k m => ?_, iff_of_true trivial e, fun m hm => if_neg hm, fun _ => trivial, fun h => absurd e h⟩
        cases k with
        | ego => exact same .ego m h1
        | vehicle => exact same .vehicle m h2
        | pedestrian => simp only [namesOf, mem_removeFrom]
        | misc => exact same .misc m (no .pedestrian _ n h3 (by decide))
      · simp only [h3, if_false]
        by_cases h4 : n ∈ s.miscs
        · have e : ∃ k, n ∈ namesOf s k := ⟨.misc, h4⟩
          simp only [h4, if_true]
          refine ⟨fun k m => ?_, iff_of_true trivial e, fun m hm => if_neg hm, fun _ => trivial, fun h => absurd e h⟩
          cases k with
          | ego => exact same .ego m h1
          | vehicle => exact same .vehicle m h2
          | pedestrian => exact same .pedestrian m h3
          | misc => simp only [namesOf, mem_removeFrom]
        · have e : ¬ ∃ k, n ∈ namesOf s k := by
            rintro ⟨k, hk⟩
            cases k
            · exact h1 hk
            · exact h2 hk
            · exact h3 hk
            · exact h4 hk
          simp only [h4, if_false]
          refine ⟨fun k m => ?_, iff_of_false (by simp) e, fun m _ => rfl, fun h => absurd h e, fun _ => rfl⟩
          cases k with
          | ego => exact same .ego m h1
          | vehicle => exact same .vehicle m h2
          | pedestrian => exact same .pedestrian m h3
          | misc => exact same .misc m h4

/-- What despawning does to the ego, however many entities have the name. -/
theorem despawn_ego (s : Server S E) (n : String) :
    (∀ m, m ∈ (despawn s n).1.egos ↔ m ∈ s.egos ∧ m ≠ n) ∧ (despawn s n).1.mode = s.mode ∧ (despawn s n).1.egos.length ≤ s.egos.length ∧
    (n ∉ s.egos → (despawn s n).1.ego = s.ego) ∧ (n ∈ s.egos → (despawn s n).1.ego = none) := by
  have key : (despawn s n).1.egos = removeFrom s.egos n ∧ (despawn s n).1.mode = s.mode ∧
      (despawn s n).1.ego = if n ∈ s.egos then none else s.ego := by
    unfold despawn
    simp only [removeFrom_length]
    by_cases h1 : n ∈ s.egos
    · simp [h1]
    · simp only [h1, if_false]
      by_cases h2 : n ∈ s.vehicles
      · simp [h2]
      · simp only [h2, if_false]
        by_cases h3 : n ∈ s.pedestrians
        · simp [h3]
        · simp only [h3, if_false]
          by_cases h4 : n ∈ s.miscs <;> simp [h4]
  obtain ⟨k1, k2, k3⟩ := key
  rw [k1, k2, k3]
  exact ⟨fun m => mem_removeFrom, rfl, List.length_filter_le _ _, fun h => if_neg h, fun h => if_pos h⟩

/-- What an update of one status does. -/
theorem updateOne_spec {api : EgoApi P S E} {o st : Bool} {s s' : Server S E} {n : String} {x y : S}
    (h : updateOne api o st s n x = some (s', y)) :
    (s.status n).isSome = true ∧ (∀ k, namesOf s' k = namesOf s k) ∧ s'.egos = s.egos ∧
    (∀ m, s'.status m = if m = n then some y else s.status m) ∧
    (n ∉ s.egos → y = x ∧ s'.ego = s.ego ∧ s'.mode = s.mode) ∧
    (n ∈ s.egos → ∃ e e', s.ego = some e ∧ s'.ego = some e' ∧ y = api.getStatus e' ∧
      (o = true ∨ s.mode = .manual → api.overwrite e x st = some e' ∧ s'.mode = .manual) ∧
      (¬ (o = true ∨ s.mode = .manual) → api.update e st = some e' ∧ s'.mode = s.mode)) := by
  unfold updateOne at h
  split at h
  · rename_i hn
    cases he : s.ego with
    | none => rw [he] at h; cases h
    | some e =>
      rw [he] at h
      simp only [Option.bind_eq_bind, Option.bind_eq_some_iff, Option.pure_def] at h
      obtain ⟨e', h1, h2⟩ := h
      by_cases hm : o = true ∨ s.mode = .manual
      · have hm' : (o || s.mode == .manual) = true := by simpa using hm
        simp only [hm', if_true] at h1 h2
        split at h2
        · rename_i hs
          injection h2 with h2
          injection h2 with h2 h3
          subst h2 h3
          refine ⟨hs, fun k => by cases k <;> rfl, rfl, fun m => rfl, fun hc => absurd hn hc, fun _ => ⟨e, e', rfl, rfl, rfl, fun _ => ⟨h1, rfl⟩, fun hc => absurd hm hc⟩⟩
        · cases h2
      · have hm' : (o || s.mode == .manual) = false := by simpa using hm
        simp only [hm', Bool.false_eq_true, if_false] at h1 h2
        split at h2
        · rename_i hs
          injection h2 with h2
          injection h2 with h2 h3
          subst h2 h3
          refine ⟨hs, fun k => by cases k <;> rfl, rfl, fun m => rfl, fun hc => absurd hn hc, fun _ => ⟨e, e', rfl, rfl, rfl, fun hc => absurd hc hm, fun _ => ⟨h1, rfl⟩⟩⟩
        · cases h2
  · rename_i hn
    split at h
    · rename_i hs
      injection h with h
      injection h with h2 h3
      subst h2 h3
      exact ⟨hs, fun k => by cases k <;> rfl, rfl, fun m => rfl, fun _ => ⟨rfl, rfl, rfl⟩, fun hc => absurd hc hn⟩
    · cases h

theorem updateAll_cons {api : EgoApi P S E} {o st : Bool} {s s' : Server S E} {n : String} {x : S} {l r : List (String × S)}
    (h : updateAll api o st s ((n, x) :: l) = some (s', r)) :
    ∃ s1 y r', updateOne api o st s n x = some (s1, y) ∧ updateAll api o st s1 l = some (s', r') ∧ r = (n, y) :: r' := by
  simp only [updateAll, Option.bind_eq_bind, Option.bind_eq_some_iff, Option.pure_def, Option.some.injEq] at h
  obtain ⟨⟨s1, y⟩, h1, ⟨s2, r'⟩, h2, h3⟩ := h
  injection h3 with h3 h4
  subst h3 h4
  exact ⟨s1, y, r', h1, h2, rfl⟩

/-- What an update leaves alone. -/
theorem updateAll_kept {api : EgoApi P S E} {o st : Bool} : ∀ {l r : List (String × S)} {s s' : Server S E},
    updateAll api o st s l = some (s', r) →
    (∀ k, namesOf s' k = namesOf s k) ∧ s'.egos = s.egos ∧ (∀ m, (s'.status m).isSome = (s.status m).isSome) ∧ s'.ego.isSome = s.ego.isSome ∧
    (s'.mode = .manual ↔ s.mode = .manual ∨ (o = true ∧ ∃ n, n ∈ l.map (·.1) ∧ n ∈ s.egos)) := by
  intro l
  induction l with
  | nil =>
    intro r s s' h
    simp only [updateAll, Option.some.injEq, Prod.mk.injEq] at h
    obtain ⟨rfl, -⟩ := h
    exact ⟨fun _ => rfl, rfl, fun _ => rfl, rfl, by simp⟩
  | cons a l ih =>
    obtain ⟨n, x⟩ := a
    intro r s s' h
    obtain ⟨s1, y, r', h1, h2, -⟩ := updateAll_cons h
    obtain ⟨a1, a2, a3, a4, a5, a6⟩ := updateOne_spec h1
    obtain ⟨b1, b2, b3, b4, b5⟩ := ih h2
    refine ⟨fun k => (b1 k).trans (a2 k), b2.trans a3, fun m => ?_, ?_, ?_⟩
    · rw [b3, a4]
      by_cases hm : m = n
      · simp [hm, a1]
      · simp [hm]
    · rw [b4]
      by_cases hn : n ∈ s.egos
      · obtain ⟨e, e', q1, q2, -⟩ := a6 hn
        rw [q1, q2]; rfl
      · rw [(a5 hn).2.1]
    · rw [b5, a3]
      by_cases hn : n ∈ s.egos
      · obtain ⟨e, e', -, -, -, q1, q2⟩ := a6 hn
        by_cases hm : o = true ∨ s.mode = .manual
        · rw [(q1 hm).2]
          constructor
          · intro _
            rcases hm with hm | hm
            · exact Or.inr ⟨hm, n, by simp, hn⟩
            · exact Or.inl hm
          · exact fun _ => Or.inl rfl
        · rw [(q2 hm).2]
          have : o = false := by cases o with | true => exact absurd (Or.inl rfl) hm | false => rfl
          simp [this]
      · rw [(a5 hn).2.2]
        constructor
        · rintro (h | ⟨h, m, hm, hm'⟩)
          · exact Or.inl h
          · exact Or.inr ⟨h, m, by simp at hm ⊢; exact Or.inr hm, hm'⟩
        · rintro (h | ⟨h, m, hm, hm'⟩)
          · exact Or.inl h
          · simp only [List.map_cons, List.mem_cons] at hm
            rcases hm with rfl | hm
            · exact absurd hm' hn
            · exact Or.inr ⟨h, m, hm, hm'⟩

end Verif.Server
