import Verif.Server.ModeTheorems
/-
C106: the sensor simulator knows the entities that were spawned, and no others.
-/
namespace Verif.Server
variable {P S E : Type}

/-- The invariant about the lists and the statuses. -/
structure Known (l : List (Request P S)) (s : Server S E) : Prop where
  mem : ∀ k n, n ∈ namesOf s k ↔ Live k l n
  status : ∀ n, (s.status n).isSome = true ↔ Present l n

theorem known_run {api : EgoApi P S E} {l : List (Request P S)} : ∀ {s : Server S E}, Fresh l → run api {} l = some s → Known l s := by
  induction l using List.reverseRecOn with
  | nil =>
    intro s _ h
    simp only [run, Option.some.injEq] at h
    subst h
    exact ⟨fun k n => iff_of_false (by cases k <;> simp [namesOf]) not_live_nil, fun n => iff_of_false (by simp) fun ⟨k, hk⟩ => not_live_nil hk⟩
  | append_singleton l r ih =>
    intro s' hf h
    rw [run_snoc, Option.bind_eq_some_iff] at h
    obtain ⟨s, h1, h2⟩ := h
    have hfl := (fresh_snoc hf).1
    have I := ih hfl h1
    have pres : ∀ n, Present (l ++ [r]) n ↔ (∃ k pose init, r = .spawn k n pose init) ∨ (Present l n ∧ r ≠ .reset ∧ r ≠ .despawn n) := by
      intro n
      unfold Present
      simp only [live_snoc]
      constructor
      · rintro ⟨k, ⟨pose, init, h⟩ | ⟨h, h'⟩⟩
        · exact Or.inl ⟨k, pose, init, h⟩
        · exact Or.inr ⟨⟨k, h⟩, h'⟩
      · rintro (⟨k, pose, init, h⟩ | ⟨⟨k, h⟩, h'⟩)
        · exact ⟨k, Or.inl ⟨pose, init, h⟩⟩
        · exact ⟨k, Or.inr ⟨h, h'⟩⟩
    cases r with
    | reset =>
      simp only [handle, Option.some.injEq] at h2
      subst h2
      refine ⟨fun k n => ?_, fun n => ?_⟩
      · rw [live_snoc]; cases k <;> simp [reset, namesOf]
      · rw [pres]; simp [reset]
    | spawn k n pose init =>
      obtain ⟨a1, a2, -⟩ := spawn_spec h2
      refine ⟨fun k' m => ?_, fun m => ?_⟩
      · rw [live_snoc, a1, I.mem]
        constructor
        · rintro (h | ⟨rfl, rfl⟩)
          · exact Or.inr ⟨h, by simp, by simp⟩
          · exact Or.inl ⟨_, _, rfl⟩
        · rintro (⟨_, _, h⟩ | ⟨h, -⟩)
          · injection h with h1 h2; exact Or.inr ⟨h1.symm, h2.symm⟩
          · exact Or.inl h
      · rw [pres, a2, I.status]
        constructor
        · rintro (rfl | h)
          · exact Or.inl ⟨_, _, _, rfl⟩
          · exact Or.inr ⟨h, by simp, by simp⟩
        · rintro (⟨_, _, _, h⟩ | ⟨h, -⟩)
          · injection h with h1 h2; exact Or.inl h2.symm
          · exact Or.inr h
    | despawn n =>
      simp only [handle, Option.some.injEq] at h2
      obtain ⟨a1, -, a3, a4, a5⟩ := despawn_spec s n (fun k k' m h h' => live_unique hfl ((I.mem _ _).mp h) ((I.mem _ _).mp h'))
      rw [h2] at a1 a3 a4 a5
      refine ⟨fun k m => ?_, fun m => ?_⟩
      · rw [live_snoc, a1, I.mem]; simp [eq_comm]
      · rw [pres]
        by_cases hm : m = n
        · subst hm
          refine iff_of_false ?_ (by simp)
          by_cases hp : ∃ k, m ∈ namesOf s k
          · rw [a4 hp]; simp
          · rw [a5 hp, I.status]
            rintro ⟨k, hk⟩
            exact hp ⟨k, (I.mem k m).mpr hk⟩
        · rw [a3 m hm, I.status]
          simp [Ne.symm hm]
    | update o st statuses =>
      simp only [handle, Option.map_eq_some_iff] at h2
      obtain ⟨⟨s1, rs⟩, h3, rfl⟩ := h2
      obtain ⟨b1, -, b3, -⟩ := updateAll_kept h3
      refine ⟨fun k m => ?_, fun m => ?_⟩
      · rw [live_snoc]; simp only [b1]; rw [I.mem]; simp
      · rw [pres]; simp only [b3]; rw [I.status]; simp
    | mode m =>
      simp only [handle, Option.some.injEq] at h2
      subst h2
      have hk : (∀ k, namesOf (requestMode s m).1 k = namesOf s k) ∧ (requestMode s m).1.status = s.status := by
        unfold requestMode; split <;> exact ⟨fun k => by cases k <;> rfl, rfl⟩
      refine ⟨fun k n => ?_, fun n => ?_⟩
      · rw [live_snoc, hk.1, I.mem]; simp
      · rw [pres, hk.2, I.status]; simp

/-- C106: with fresh names, after any requests, exactly the spawned entities that were not despawned have a status, and each is found under the
kind it was spawned with. -/
theorem C106_known (api : EgoApi P S E) (l : List (Request P S)) (s : Server S E) (hf : Fresh l) (h : run api {} l = some s) :
    (∀ n, (s.status n).isSome = true ↔ Present l n) ∧ (∀ n k, getBoundingBox s n = some k ↔ Live k l n) := by
  have I := known_run hf h
  refine ⟨I.status, fun n k => ?_⟩
  have uniq : ∀ k k', n ∈ namesOf s k → n ∈ namesOf s k' → k = k' := fun k k' h h' => live_unique hf ((I.mem _ _).mp h) ((I.mem _ _).mp h')
  rw [← I.mem]
  unfold getBoundingBox
  constructor
  · intro h
    split at h
    · injection h with h; subst h; assumption
    · split at h
      · injection h with h; subst h; assumption
      · split at h
        · injection h with h; subst h; assumption
        · split at h
          · injection h with h; subst h; assumption
          · cases h
  · intro hk
    by_cases h1 : n ∈ s.egos
    · rw [if_pos h1, uniq k .ego hk h1]
    · by_cases h2 : n ∈ s.vehicles
      · rw [if_neg h1, if_pos h2, uniq k .vehicle hk h2]
      · by_cases h3 : n ∈ s.pedestrians
        · rw [if_neg h1, if_neg h2, if_pos h3, uniq k .pedestrian hk h3]
        · by_cases h4 : n ∈ s.miscs
          · rw [if_neg h1, if_neg h2, if_neg h3, if_pos h4, uniq k .misc hk h4]
          · cases k
            · exact absurd hk h1
            · exact absurd hk h2
            · exact absurd hk h3
            · exact absurd hk h4

theorem run_initialized {api : EgoApi P S E} {l : List (Request P S)} : ∀ {s : Server S E}, run api {} l = some s →
    (s.initialized = true ↔ .reset ∈ l) := by
  have upd : ∀ {o st : Bool} {l r : List (String × S)} {s s' : Server S E}, updateAll api o st s l = some (s', r) → s'.initialized = s.initialized := by
    intro o st l
    induction l with
    | nil => intro r s s' h; simp only [updateAll, Option.some.injEq, Prod.mk.injEq] at h; rw [h.1]
    | cons a l ih =>
      obtain ⟨n, x⟩ := a
      intro r s s' h
      obtain ⟨s1, y, r', h1, h2, -⟩ := updateAll_cons h
      rw [ih h2]
      unfold updateOne at h1
      split at h1
      · cases he : s.ego with
        | none => rw [he] at h1; cases h1
        | some e =>
          rw [he] at h1
          simp only [Option.bind_eq_bind, Option.bind_eq_some_iff, Option.pure_def] at h1
          obtain ⟨e', -, h3⟩ := h1
          split at h3 <;> split at h3 <;> simp only [Option.some.injEq, Prod.mk.injEq, reduceCtorEq] at h3
          all_goals obtain ⟨rfl, -⟩ := h3; rfl
      · split at h1
        · injection h1 with h3; injection h3 with h3 h4; subst h3; rfl
        · cases h1
  induction l using List.reverseRecOn with
  | nil => intro s h; simp only [run, Option.some.injEq] at h; subst h; simp
  | append_singleton l r ih =>
    intro s' h
    rw [run_snoc, Option.bind_eq_some_iff] at h
    obtain ⟨s, h1, h2⟩ := h
    have I := ih h1
    have hins : ∀ (t : Server S E) (n : String) (x : S), (insertStatus t n x).initialized = t.initialized := by
      intro t n x; unfold insertStatus; split <;> rfl
    cases r with
    | reset => simp only [handle, Option.some.injEq] at h2; subst h2; simp [reset]
    | spawn k n pose init =>
      have : s'.initialized = s.initialized := by
        cases k with
        | ego =>
          simp only [handle, spawn] at h2
          split at h2
          · cases h2
          · simp only [Option.bind_eq_bind, Option.bind_eq_some_iff, Option.pure_def, Option.some.injEq] at h2
            obtain ⟨e, -, rfl⟩ := h2
            rw [hins]
        | _ => simp only [handle, spawn, Option.some.injEq] at h2; subst h2; rw [hins]
      rw [this, I]; simp
    | despawn n =>
      simp only [handle, Option.some.injEq] at h2
      have : s'.initialized = s.initialized := by
        rw [← h2]; unfold despawn; simp only
        by_cases h1 : s.egos.length ≠ (removeFrom s.egos n).length
        · rw [if_pos h1, if_pos h1]; rfl
        · rw [if_neg h1, if_neg h1]
          by_cases h2 : s.vehicles.length ≠ (removeFrom s.vehicles n).length
          · rw [if_pos h2]; rfl
          · rw [if_neg h2]
            by_cases h3 : s.pedestrians.length ≠ (removeFrom s.pedestrians n).length
            · rw [if_pos h3]; rfl
            · rw [if_neg h3]
              by_cases h4 : s.miscs.length ≠ (removeFrom s.miscs n).length
              · rw [if_pos h4]; rfl
              · rw [if_neg h4]; rfl
      rw [this, I]; simp
    | update o st statuses =>
      simp only [handle, Option.map_eq_some_iff] at h2
      obtain ⟨⟨s1, rs⟩, h3, rfl⟩ := h2
      simp only [upd h3]; rw [I]; simp
    | mode m =>
      simp only [handle, Option.some.injEq] at h2
      subst h2
      have : (requestMode s m).1.initialized = s.initialized := by unfold requestMode; split <;> rfl
      rw [this, I]; simp

/-- C106: with fresh names a frame never throws, and succeeds exactly if the simulator has been initialized. -/
theorem C106_frame (api : EgoApi P S E) (l : List (Request P S)) (s : Server S E) (hf : Fresh l) (h : run api {} l = some s) :
    (.reset ∈ l → updateFrame s = some true) ∧ (.reset ∉ l → updateFrame s = some false) := by
  obtain ⟨h1, h2⟩ := C106_known api l s hf h
  have hi := run_initialized h
  unfold updateFrame
  constructor
  · intro hr
    rw [if_neg (by rw [hi.mpr hr]; simp), if_neg]
    rintro ⟨n, hn, hb⟩
    obtain ⟨k, hk⟩ := (h1 n).mp hn
    rw [(h2 n k).mpr hk] at hb
    cases hb
  · intro hr
    rw [if_pos]
    cases hc : s.initialized with
    | true => exact absurd (hi.mp hc) hr
    | false => rfl

/-- C106: with fresh names despawning succeeds exactly if there is an entity of that name. -/
theorem C106_despawn (api : EgoApi P S E) (l : List (Request P S)) (s : Server S E) (n : String) (hf : Fresh l) (h : run api {} l = some s) :
    (despawn s n).2 = true ↔ Present l n := by
  have I := known_run hf h
  rw [(despawn_spec s n (fun k k' m h h' => live_unique hf ((I.mem _ _).mp h) ((I.mem _ _).mp h'))).2.1]
  exact ⟨fun ⟨k, hk⟩ => ⟨k, (I.mem k n).mp hk⟩, fun ⟨k, hk⟩ => ⟨k, (I.mem k n).mpr hk⟩⟩

theorem updateOne_some {api : EgoApi P S E} {o st : Bool} {s : Server S E} {n : String} (x : S) (hs : (s.status n).isSome = true)
    (he : n ∈ s.egos → s.ego.isSome = true) (ho : ∀ e x b, (api.overwrite e x b).isSome = true) (hu : ∀ e b, (api.update e b).isSome = true) :
    ∃ s' y, updateOne api o st s n x = some (s', y) := by
  unfold updateOne
  split
  · rename_i hn
    obtain ⟨e, he⟩ := Option.isSome_iff_exists.mp (he hn)
    rw [he]
    obtain ⟨e1, h1⟩ := Option.isSome_iff_exists.mp (ho e x st)
    obtain ⟨e2, h2⟩ := Option.isSome_iff_exists.mp (hu e st)
    by_cases hm : (o || s.mode == .manual) = true
    · simp only [hm, if_true, h1, Option.bind_eq_bind, Option.bind_some, hs]
      exact ⟨_, _, rfl⟩
    · simp only [hm, Bool.false_eq_true, if_false, h2, Option.bind_eq_bind, Option.bind_some, hs, if_true]
      exact ⟨_, _, rfl⟩
  · exact ⟨_, _, rfl⟩

/-- C106: with fresh names an update that names only entities that there are does not throw (if the simulation of the ego does not), and answers
with exactly the requested names in their order. The statuses of entities other than the ego are taken over and answered as they are; entities
that are not named keep their status; the ego gets the status of its simulation. -/
theorem C106_update (api : EgoApi P S E) (l : List (Request P S)) (s : Server S E) (o started : Bool) (statuses : List (String × S)) (hf : Fresh l)
    (h : run api {} l = some s) (hp : ∀ x ∈ statuses, Present l x.1) (ho : ∀ e x b, (api.overwrite e x b).isSome = true)
    (hu : ∀ e b, (api.update e b).isSome = true) :
    ∃ s' r, updateAll api o started s statuses = some (s', r) ∧ r.map (·.1) = statuses.map (·.1) ∧
      (∀ (i : Nat) (n : String) (x : S), statuses[i]? = some (n, x) → ¬ Live .ego l n → r[i]? = some (n, x)) ∧
      (∀ n, n ∉ statuses.map (·.1) → s'.status n = s.status n) ∧
      (∀ a n x b, statuses = a ++ (n, x) :: b → n ∉ b.map (·.1) → ¬ Live .ego l n → s'.status n = some x) ∧
      (∀ n, Live .ego l n → n ∈ statuses.map (·.1) → ∃ e, s'.ego = some e ∧ s'.status n = some (api.getStatus e)) := by
  have I := known_run hf h
  have J := egoKnown_run h
  -- generalise over the state within the loop
  suffices G : ∀ (statuses : List (String × S)) (t : Server S E), t.egos = s.egos → (∀ m, (t.status m).isSome = (s.status m).isSome) →
      t.ego.isSome = s.ego.isSome → (∀ x ∈ statuses, Present l x.1) →
      ∃ s' r, updateAll api o started t statuses = some (s', r) ∧ r.map (·.1) = statuses.map (·.1) ∧
      (∀ (i : Nat) (n : String) (x : S), statuses[i]? = some (n, x) → ¬ Live .ego l n → r[i]? = some (n, x)) ∧
      (∀ n, n ∉ statuses.map (·.1) → s'.status n = t.status n) ∧
      (∀ a n x b, statuses = a ++ (n, x) :: b → n ∉ b.map (·.1) → ¬ Live .ego l n → s'.status n = some x) ∧
      (∀ n, Live .ego l n → n ∈ statuses.map (·.1) → ∃ e, s'.ego = some e ∧ s'.status n = some (api.getStatus e)) from
    G statuses s rfl (fun _ => rfl) rfl hp
  clear hp statuses
  intro statuses
  induction statuses with
  | nil =>
    intro t _ _ _ _
    refine ⟨t, [], rfl, rfl, by simp, fun _ _ => rfl, fun a n x b hc => ?_, fun n _ hn => by simp at hn⟩
    cases a <;> cases hc
  | cons c statuses ih =>
    obtain ⟨n, x⟩ := c
    intro t ht1 ht2 ht3 hp
    have hpn : (t.status n).isSome = true := by rw [ht2]; exact (I.status n).mpr (hp (n, x) (by simp))
    obtain ⟨t1, y, h1⟩ := updateOne_some (o := o) (st := started) x hpn (fun hn => by rw [ht3]; exact J.some n (ht1 ▸ hn)) ho hu
    obtain ⟨-, -, a3, a4, a5, a6⟩ := updateOne_spec h1
    have hego : n ∈ t.egos ↔ Live .ego l n := by rw [ht1]; exact J.mem n
    obtain ⟨s', r, h2, b1, b2, b3, b4, b5⟩ := ih t1 (a3.trans ht1) (fun m => by
        rw [a4, ← ht2]
        by_cases hm : m = n
        · rw [if_pos hm, hm, hpn]; rfl
        · rw [if_neg hm]) (by
        rw [← ht3]
        by_cases hn : n ∈ t.egos
        · obtain ⟨e, e', q1, q2, -⟩ := a6 hn
          rw [q1, q2]; rfl
        · rw [(a5 hn).2.1]) (fun z hz => hp z (by simp [hz]))
    refine ⟨s', (n, y) :: r, by simp [updateAll, h1, h2], by simp [b1], ?_, ?_, ?_, ?_⟩
    · intro i m z hi hl
      cases i with
      | zero =>
        simp only [List.getElem?_cons_zero, Option.some.injEq, Prod.mk.injEq] at hi ⊢
        obtain ⟨rfl, rfl⟩ := hi
        exact ⟨rfl, (a5 (fun hc => hl (hego.mp hc))).1⟩
      | succ i =>
        simp only [List.getElem?_cons_succ] at hi ⊢
        exact b2 i m z hi hl
    · intro m hm
      simp only [List.map_cons, List.mem_cons, not_or] at hm
      rw [b3 m hm.2, a4, if_neg hm.1]
    · intro a m z b hs hb hl
      cases a with
      | nil =>
        simp only [List.nil_append, List.cons.injEq, Prod.mk.injEq] at hs
        obtain ⟨⟨rfl, rfl⟩, rfl⟩ := hs
        rw [b3 _ hb, a4, if_pos rfl, (a5 (fun hc => hl (hego.mp hc))).1]
      | cons a0 a =>
        simp only [List.cons_append, List.cons.injEq] at hs
        exact b4 a m z b hs.2 hb hl
    · intro m hl hm
      by_cases hmr : m ∈ statuses.map (·.1)
      · exact b5 m hl hmr
      · simp only [List.map_cons, List.mem_cons] at hm
        have hmn : m = n := hm.resolve_right hmr
        subst hmn
        obtain ⟨e, e', -, q2, q3, -⟩ := a6 (hego.mpr hl)
        obtain ⟨c1, -⟩ := updateAll_other h2 (fun z hz => by
          rw [a3, ht1, J.mem] at hz
          rw [(C105_one api l s h).1 z m hz hl]
          exact hmr)
        refine ⟨e', c1.trans q2, ?_⟩
        rw [b3 m hmr, a4, if_pos rfl, q3]

/-- C106: an update that names an entity that there is not throws. -/
theorem C106_unknown (api : EgoApi P S E) (l : List (Request P S)) (s : Server S E) (o started : Bool) (statuses : List (String × S)) (hf : Fresh l)
    (h : run api {} l = some s) (n : String) (x : S) (hx : (n, x) ∈ statuses) (hn : ¬ Present l n) : updateAll api o started s statuses = none := by
  have I := known_run hf h
  have hs : ¬ (s.status n).isSome = true := fun hc => hn ((I.status n).mp hc)
  cases hr : updateAll api o started s statuses with
  | none => rfl
  | some p =>
    obtain ⟨s', r⟩ := p
    obtain ⟨a, b, rfl⟩ := List.append_of_mem hx
    obtain ⟨s1, r1, r2, h1, h2, -⟩ := updateAll_append hr
    obtain ⟨s2, y, r3, h3, -, -⟩ := updateAll_cons h2
    obtain ⟨q, -⟩ := updateOne_spec h3
    rw [(updateAll_kept h1).2.2.1] at q
    exact absurd q hs

/-- C106: with fresh names an entity has, right after it was spawned, the status made from the request, and the others keep theirs. -/
theorem C106_spawn (api : EgoApi P S E) (l : List (Request P S)) (s s' : Server S E) (k : Kind) (n : String) (pose : P) (init : S)
    (hf : Fresh (l ++ [.spawn k n pose init])) (h : run api {} l = some s) (hs : spawn api s k n pose init = some s') :
    s'.status n = some init ∧ ∀ m, Present l m → s'.status m = s.status m := by
  obtain ⟨hf, hn⟩ := fresh_snoc hf
  have I := known_run hf h
  obtain ⟨-, -, -, -, a5, a6⟩ := spawn_spec hs
  refine ⟨a5 ?_, fun m hm => a6 m ((I.status m).mpr hm)⟩
  cases hc : s.status n with
  | none => rfl
  | some x => exact absurd ((I.status n).mp (by rw [hc]; rfl)) (hn _ _ _ _ rfl)

/-- C106 fails for names that are not fresh: a vehicle and a pedestrian of one name are despawned by halves. The pedestrian is still there, but an
update of it throws. -/
theorem C106_same_name_violated : ∃ s, run counter {} [.spawn .vehicle "a" 0 1, .spawn .pedestrian "a" 0 2, .despawn "a"] = some s ∧
    getBoundingBox s "a" = some .pedestrian ∧ updateAll counter false true s [("a", 3)] = none := by
  exact ⟨_, rfl, by decide, rfl⟩

/-- C106 fails for names that are not fresh: an entity spawned with the name of another one starts with the status of that one. -/
theorem C106_stale_status_violated : ∃ s, run counter {} [.spawn .vehicle "a" 0 1, .spawn .vehicle "a" 0 2] = some s ∧ s.status "a" = some 1 := by
  exact ⟨_, rfl, rfl⟩

/-- A history with fresh names, one of them used twice. -/
example : Fresh (P := Nat) (S := Nat) [.reset, .spawn .vehicle "a" 0 1, .despawn "a", .spawn .ego "a" 0 2] := by
  intro before k name pose init after h
  match before, h with
  | [_], h =>
    simp only [List.cons_append, List.nil_append, List.cons.injEq, Request.spawn.injEq] at h
    obtain ⟨rfl, -⟩ := h
    rintro ⟨k', b, _, _, _, hb, -⟩; rcases b with _ | ⟨_, _ | ⟨_, _⟩⟩ <;> simp at hb
  | [_, _, _], h =>
    simp only [List.cons_append, List.nil_append, List.cons.injEq, Request.spawn.injEq] at h
    obtain ⟨rfl, rfl, rfl, ⟨rfl, rfl, rfl, rfl⟩, -⟩ := h
    rintro ⟨k', b, pose, init, a, hb, ha⟩
    rcases b with _ | ⟨_, _ | ⟨_, _ | ⟨_, _ | ⟨_, _⟩⟩⟩⟩ <;> simp at hb
    obtain ⟨-, -, rfl⟩ := hb
    simp at ha
  | [], h => simp at h
  | [_, _], h => simp at h
  | _ :: _ :: _ :: _ :: b, h => simp at h

end Verif.Server
