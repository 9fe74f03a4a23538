import Verif.Server.Lemmas
/-
C105: who moves the ego.
-/
namespace Verif.Server
variable {P S E : Type}

/-- The invariant about the ego. -/
structure EgoKnown (l : List (Request P S)) (s : Server S E) : Prop where
  mem : ∀ n, n ∈ s.egos ↔ Live .ego l n
  one : s.egos.length ≤ 1
  some : ∀ n, n ∈ s.egos → s.ego.isSome = true
  mode : s.ego.isSome = true → (s.mode = .manual ↔ Overridden l)

theorem egoKnown_run {api : EgoApi P S E} {l : List (Request P S)} : ∀ {s : Server S E}, run api {} l = some s → EgoKnown l s := by
  induction l using List.reverseRecOn with
  | nil =>
    intro s h
    simp only [run, Option.some.injEq] at h
    subst h
    exact ⟨fun n => iff_of_false (by simp) not_live_nil, by simp, fun n hn => by simp at hn, fun h => by simp at h⟩
  | append_singleton l r ih =>
    intro s' h
    rw [run_snoc, Option.bind_eq_some_iff] at h
    obtain ⟨s, h1, h2⟩ := h
    have I := ih h1
    cases r with
    | reset =>
      simp only [handle, Option.some.injEq] at h2
      subst h2
      refine ⟨fun n => ?_, by simp [reset], fun n hn => by simp [reset] at hn, fun he => ?_⟩
      · rw [live_snoc]; simp [reset]
      · rw [overridden_snoc]
        simp only [reset] at he ⊢
        rw [I.mode he]; simp
    | spawn k n pose init =>
      obtain ⟨a1, a2, a3, a4, -⟩ := spawn_spec h2
      by_cases hk : k = .ego
      · subst hk
        obtain ⟨b1, b2, b3, b4⟩ := a3 rfl
        refine ⟨fun m => ?_, by rw [b2]; simp, fun m _ => b3, fun _ => ?_⟩
        · rw [live_snoc, b2]
          have : ¬ Live .ego l m := by rw [← I.mem, b1]; simp
          simp [this, eq_comm]
        · rw [overridden_snoc, b4]
          simp
      · obtain ⟨b1, b2, b3⟩ := a4 hk
        refine ⟨fun m => ?_, by rw [b3]; exact I.one, fun m hm => ?_, fun he => ?_⟩
        · rw [live_snoc, b3, I.mem]
          simp [hk]
        · rw [b1]; rw [b3] at hm; exact I.some m hm
        · rw [b1] at he
          rw [overridden_snoc, b2, I.mode he]
          simp [hk]
    | despawn n =>
      simp only [handle, Option.some.injEq] at h2
      obtain ⟨a1, a2, a3, a4, a5⟩ := despawn_ego s n
      rw [h2] at a1 a2 a3 a4 a5
      refine ⟨fun m => ?_, Nat.le_trans a3 I.one, fun m hm => ?_, fun he => ?_⟩
      · rw [live_snoc, a1, I.mem]
        simp [eq_comm]
      · obtain ⟨hm1, hm2⟩ := (a1 m).mp hm
        have hn : n ∉ s.egos := by
          intro hn
          have := I.one
          match hs : s.egos, this, hm1, hn with
          | [a], _, h1, h2 => exact hm2 ((List.mem_singleton.mp h1).trans (List.mem_singleton.mp h2).symm)
        rw [a4 hn]; exact I.some m hm1
      · rw [overridden_snoc, a2]
        by_cases hn : n ∈ s.egos
        · rw [a5 hn] at he; cases he
        · rw [a4 hn] at he
          rw [I.mode he]; simp
    | update o st statuses =>
      simp only [handle, Option.map_eq_some_iff] at h2
      obtain ⟨⟨s1, rs⟩, h3, rfl⟩ := h2
      obtain ⟨-, b2, -, b4, b5⟩ := updateAll_kept h3
      refine ⟨fun m => ?_, by simp only [b2]; exact I.one, fun m hm => ?_, fun he => ?_⟩
      · rw [live_snoc, b2, I.mem]; simp
      · simp only [b2] at hm; simp only [b4]; exact I.some m hm
      · simp only [b4] at he
        rw [overridden_snoc, b5, I.mode he]
        constructor
        · rintro (h | ⟨ho, n, h1, h2⟩)
          · exact Or.inr ⟨h, by simp, by simp⟩
          · exact Or.inl ⟨_, _, by rw [ho], n, h1, (I.mem n).mp h2⟩
        · rintro (⟨_, _, h, n, h1, h2⟩ | ⟨h, -⟩)
          · injection h with h4 h5 h6
            subst h4 h5 h6
            exact Or.inr ⟨rfl, n, h1, (I.mem n).mpr h2⟩
          · exact Or.inl h
    | mode m =>
      simp only [handle, Option.some.injEq] at h2
      subst h2
      have hkeep : (requestMode s m).1.egos = s.egos ∧ (requestMode s m).1.ego = s.ego := by
        unfold requestMode; split <;> exact ⟨rfl, rfl⟩
      refine ⟨fun n => ?_, by rw [hkeep.1]; exact I.one, fun n hn => ?_, fun he => ?_⟩
      · rw [live_snoc, hkeep.1, I.mem]; simp
      · rw [hkeep.1] at hn; rw [hkeep.2]; exact I.some n hn
      · rw [hkeep.2] at he
        rw [overridden_snoc]
        obtain ⟨e, he'⟩ := Option.isSome_iff_exists.mp he
        cases m with
        | autonomous => simp [requestMode, he']
        | manual =>
          have : (requestMode s .manual).1.mode = s.mode := by simp [requestMode, he']
          rw [this, I.mode he]; simp

/-- C105: while there is an ego, its control mode is MANUAL exactly if it was overwritten on request since it was spawned and AUTONOMOUS has not
been requested since then. -/
theorem C105_mode (api : EgoApi P S E) (l : List (Request P S)) (s : Server S E) (name : String) (h : run api {} l = some s)
    (hl : Live .ego l name) : s.mode = .manual ↔ Overridden l := by
  have I := egoKnown_run h
  exact I.mode (I.some name ((I.mem name).mpr hl))

/-- An update does nothing to the ego if it does not name it. -/
theorem updateAll_other {api : EgoApi P S E} {o st : Bool} : ∀ {l r : List (String × S)} {s s' : Server S E},
    updateAll api o st s l = some (s', r) → (∀ n ∈ s.egos, n ∉ l.map (·.1)) → s'.ego = s.ego ∧ s'.mode = s.mode := by
  intro l
  induction l with
  | nil =>
    intro r s s' h _
    simp only [updateAll, Option.some.injEq, Prod.mk.injEq] at h
    rw [h.1]; exact ⟨rfl, rfl⟩
  | cons a l ih =>
    obtain ⟨n, x⟩ := a
    intro r s s' h hn
    obtain ⟨s1, y, r', h1, h2, -⟩ := updateAll_cons h
    obtain ⟨-, -, a3, -, a5, -⟩ := updateOne_spec h1
    have hn' : n ∉ s.egos := fun hc => hn n hc (by simp)
    obtain ⟨b1, b2⟩ := ih h2 (by rw [a3]; exact fun m hm hc => hn m hm (by simp at hc ⊢; exact Or.inr hc))
    obtain ⟨-, c1, c2⟩ := a5 hn'
    exact ⟨b1.trans c1, b2.trans c2⟩

theorem updateAll_append {api : EgoApi P S E} {o st : Bool} : ∀ {l1 l2 r : List (String × S)} {s s' : Server S E},
    updateAll api o st s (l1 ++ l2) = some (s', r) →
    ∃ s1 r1 r2, updateAll api o st s l1 = some (s1, r1) ∧ updateAll api o st s1 l2 = some (s', r2) ∧ r = r1 ++ r2 := by
  intro l1
  induction l1 with
  | nil => intro l2 r s s' h; exact ⟨s, [], r, rfl, h, rfl⟩
  | cons a l ih =>
    obtain ⟨n, x⟩ := a
    intro l2 r s s' h
    obtain ⟨s1, y, r', h1, h2, rfl⟩ := updateAll_cons h
    obtain ⟨s2, q1, q2, h3, h4, rfl⟩ := ih h2
    refine ⟨s2, (n, y) :: q1, q2, ?_, h4, rfl⟩
    simp [updateAll, h1, h3]

/-- C105: an update that names the ego once overwrites it with the given status if the request says so or the ego is overridden; otherwise it lets
the simulation of the ego drive it. The answer for the ego is the status of its simulation. -/
theorem C105_who (api : EgoApi P S E) (l : List (Request P S)) (s s' : Server S E) (name : String) (o started : Bool) (a b r : List (String × S))
    (x : S) (h : run api {} l = some s) (hl : Live .ego l name) (ha : name ∉ a.map (·.1)) (hb : name ∉ b.map (·.1))
    (hu : updateAll api o started s (a ++ (name, x) :: b) = some (s', r)) :
    ∃ e e', s.ego = some e ∧ s'.ego = some e' ∧ (name, api.getStatus e') ∈ r ∧
      (o = true ∨ Overridden l → api.overwrite e x started = some e') ∧ (¬ (o = true ∨ Overridden l) → api.update e started = some e') := by
  have I := egoKnown_run h
  have only : ∀ n ∈ s.egos, n = name := by
    intro n hn
    have hm := (I.mem name).mpr hl
    have := I.one
    match hs : s.egos, this, hn, hm with
    | [c], _, h1, h2 => exact (List.mem_singleton.mp h1).trans (List.mem_singleton.mp h2).symm
  obtain ⟨s1, r1, r2, h1, h2, rfl⟩ := updateAll_append hu
  obtain ⟨s2, y, r3, h3, h4, rfl⟩ := updateAll_cons h2
  obtain ⟨p1, p2⟩ := updateAll_other h1 (fun n hn => by rw [only n hn]; exact ha)
  have k1 := updateAll_kept h1
  obtain ⟨-, -, q3, -, -, q6⟩ := updateOne_spec h3
  obtain ⟨e, e', g1, g2, g3, g4, g5⟩ := q6 (by rw [k1.2.1]; exact (I.mem name).mpr hl)
  obtain ⟨t1, -⟩ := updateAll_other h4 (fun n hn => by rw [q3, k1.2.1] at hn; rw [only n hn]; exact hb)
  rw [p2, C105_mode api l s name h hl] at g4 g5
  exact ⟨e, e', p1 ▸ g1, t1.trans g2, by simp [g3], fun hc => (g4 hc).1, fun hc => (g5 hc).1⟩

/-- C105: a request for the MANUAL mode is refused and changes nothing; a request for AUTONOMOUS succeeds while there is an ego. -/
theorem C105_requests (api : EgoApi P S E) (l : List (Request P S)) (s : Server S E) (h : run api {} l = some s) :
    requestMode s .manual = (s, false) ∧ ∀ name, Live .ego l name → (requestMode s .autonomous).2 = true ∧ (requestMode s .autonomous).1.mode = .autonomous := by
  have I := egoKnown_run h
  refine ⟨by unfold requestMode; split <;> first | rfl | (rename_i hc; cases hc), fun name hl => ?_⟩
  obtain ⟨e, he⟩ := Option.isSome_iff_exists.mp (I.some name ((I.mem name).mpr hl))
  simp [requestMode, he]

/-- C105: there is never more than one ego, and spawning a second one throws. -/
theorem C105_one (api : EgoApi P S E) (l : List (Request P S)) (s : Server S E) (h : run api {} l = some s) :
    (∀ a b, Live .ego l a → Live .ego l b → a = b) ∧
    ∀ name, Live .ego l name → ∀ (n : String) (pose : P) (init : S), spawn api s .ego n pose init = none := by
  have I := egoKnown_run h
  constructor
  · intro a b ha hb
    have h1 := (I.mem a).mpr ha
    have h2 := (I.mem b).mpr hb
    have := I.one
    match hs : s.egos, this, h1, h2 with
    | [c], _, h1, h2 => exact (List.mem_singleton.mp h1).trans (List.mem_singleton.mp h2).symm
  · intro name hl n pose init
    have : s.egos.length ≠ 0 := by
      intro hc
      have := (I.mem name).mpr hl
      rw [List.eq_nil_of_length_eq_zero hc] at this
      simp at this
    simp [spawn, this]

/-- A simulation of the ego that counts: overwriting sets the number, an update adds one. -/
def counter : EgoApi Nat Nat Nat := ⟨some, fun _ x _ => some x, fun e _ => some (e + 1), id⟩

/-- An ego that is updated, overwritten, updated (and so overwritten again), handed over and updated. -/
example : ∃ s, run counter {} [.spawn .ego "ego" 5 0, .spawn .vehicle "car" 0 1, .update false true [("car", 2), ("ego", 9)], .update true true [("ego", 20)],
      .update false true [("ego", 30), ("car", 3)]] = some s ∧ s.ego = some 30 ∧ s.mode = .manual ∧
    ∃ s', run counter s [.mode .manual, .mode .autonomous, .update false true [("ego", 40)]] = some s' ∧ s'.ego = some 31 ∧ s'.mode = .autonomous := by
  exact ⟨_, rfl, rfl, rfl, _, rfl, rfl, rfl⟩

end Verif.Server
