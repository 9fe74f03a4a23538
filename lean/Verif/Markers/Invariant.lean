import Verif.Markers.Lemmas
import Mathlib.Data.List.Induction
/-
What holds of the component and its viewer after any messages.
-/
namespace Verif.Markers

variable {σ π ω ο : Type}

/-- What the viewer may have. -/
def Kind (h : List (Nat × List (Item σ π ω ο))) (k : String) (i : Int) (c : Content σ π ω ο) (e : Option Nat) : Prop :=
  (0 ≤ i ∧ i ≤ 5 ∧ ¬c.OfGoal ∧ c ≠ .blank) ∨ c = .blank ∨
    ∃ m ∈ h, ∃ x ∈ m.2, x.status.name = k ∧ e = some (m.1 + life) ∧
      ∃ p ∈ x.goals, c = .goal x.status p ∨ ∃ number, c = .goalLabel x.status p number

structure Inv (h : List (Nat × List (Item σ π ω ο))) (n : Node σ π ω ο) (d : Display (Content σ π ω ο)) : Prop where
  ids : ∀ e ∈ n.marks, ∀ i : Int, 0 ≤ i → i ≤ 5 → ∃ m ∈ e.2, m.ns = e.1 ∧ m.id = i
  six : ∀ k (i : Int), 0 ≤ i → i ≤ 5 → d k i ≠ none → k ∈ n.marks.map Prod.fst
  kinds : ∀ k i c e, d k i = some (c, e) → Kind h k i c e
  most : ∀ N, (∀ m ∈ h, ∀ x ∈ m.2, x.goals.length ≤ N) → n.mx ≤ N

theorem items_keys (n : Node σ π ω ο) (xs : List (Item σ π ω ο)) (k : String) :
    k ∈ (items n xs).1.marks.map Prod.fst ↔ k ∈ n.marks.map Prod.fst ∨ k ∈ xs.map Item.name := by
  induction xs generalizing n with
  | nil => simp [items]
  | cons x xs ih =>
    simp only [items]
    rw [ih]
    simp only [put, List.map_cons, List.mem_cons, List.mem_map, List.mem_filter, decide_not, Bool.not_eq_true', decide_eq_false_iff_not]
    constructor
    · rintro ((h | ⟨e, ⟨he, _⟩, hk⟩) | h)
      · exact Or.inr (Or.inl h)
      · exact Or.inl ⟨e, he, hk⟩
      · exact Or.inr (Or.inr h)
    · rintro (⟨e, he, hk⟩ | h | h)
      · by_cases hx : e.1 = x.name
        · exact Or.inl (Or.inl (by rw [← hk, hx]))
        · exact Or.inl (Or.inr ⟨e, ⟨he, hx⟩, hk⟩)
      · exact Or.inl (Or.inl h)
      · exact Or.inr h

theorem items_ids (n : Node σ π ω ο) (xs : List (Item σ π ω ο)) (hs : ∀ x ∈ xs, x.status.name = x.name)
    (h : ∀ e ∈ n.marks, ∀ i : Int, 0 ≤ i → i ≤ 5 → ∃ m ∈ e.2, m.ns = e.1 ∧ m.id = i) :
    ∀ e ∈ (items n xs).1.marks, ∀ i : Int, 0 ≤ i → i ≤ 5 → ∃ m ∈ e.2, m.ns = e.1 ∧ m.id = i := by
  induction xs generalizing n with
  | nil => exact h
  | cons x xs ih =>
    refine ih _ (fun y hy => hs y (List.mem_cons_of_mem _ hy)) ?_
    intro e he i h0 h5
    simp only [put, List.mem_cons, List.mem_filter] at he
    rcases he with rfl | ⟨he, _⟩
    · obtain ⟨m, hm, h1, h2⟩ := generate_ids n.mx x i h0 h5
      exact ⟨m, hm, by rw [h1, hs x List.mem_cons_self], h2⟩
    · exact h e he i h0 h5

theorem items_most (n : Node σ π ω ο) (xs : List (Item σ π ω ο)) (N : Nat) (hn : n.mx ≤ N)
    (h : ∀ x ∈ xs, x.goals.length ≤ N) : (items n xs).1.mx ≤ N := by
  induction xs generalizing n with
  | nil => exact hn
  | cons x xs ih =>
    refine ih _ ?_ (fun y hy => h y (List.mem_cons_of_mem _ hy))
    have := h x List.mem_cons_self
    simp only [nextMax]; split <;> omega

theorem Kind.mono {h : List (Nat × List (Item σ π ω ο))} {m k i c e} (hk : Kind h k i c e) : Kind (h ++ [m]) k i c e := by
  rcases hk with hk | hk | ⟨m', hm', rest⟩
  · exact Or.inl hk
  · exact Or.inr (Or.inl hk)
  · exact Or.inr (Or.inr ⟨m', List.mem_append_left _ hm', rest⟩)

theorem inv_step {h : List (Nat × List (Item σ π ω ο))} {n d} (hi : Inv h n d) (t : Nat) (msg : List (Item σ π ω ο)) (hp : Proper msg) :
    Inv (h ++ [(t, msg)]) (callback n msg).1 (receive t d (callback n msg).2) where
  ids := by
    refine items_ids _ msg hp.same ?_
    intro e he
    exact hi.ids e (List.mem_filter.1 he).1
  six := by
    intro k i h0 h5 hne
    refine (items_keys _ _ _).2 ?_
    by_cases hk : k ∈ msg.map (·.status.name)
    · right
      obtain ⟨x, hx, hxk⟩ := List.mem_map.1 hk
      exact List.mem_map.2 ⟨x, hx, by rw [← hxk, hp.same x hx]⟩
    · exfalso
      apply hne
      simp only [callback]
      rw [receive_append, receive_other]
      · apply receive_deleted
        · intro m hm
          simp only [List.mem_flatMap, deletions, List.mem_map] at hm
          obtain ⟨_, _, _, _, rfl⟩ := hm
          rfl
        · by_cases hd : d k i = none
          · exact Or.inl hd
          · right
            obtain ⟨e, he, hek⟩ := List.mem_map.1 (hi.six k i h0 h5 hd)
            obtain ⟨m, hm, h1, h2⟩ := hi.ids e he i h0 h5
            refine ⟨⟨m.ns, m.id, .delete⟩, ?_, by rw [h1, hek], h2⟩
            refine List.mem_flatMap.2 ⟨e, List.mem_filter.2 ⟨he, ?_⟩, List.mem_map.2 ⟨m, hm, rfl⟩⟩
            rw [hek]; simpa using hk
      · rintro m hm ⟨h1, _⟩
        obtain ⟨x, hx, h2⟩ := items_ns hm
        exact hk (List.mem_map.2 ⟨x, hx, by rw [← h2, ← h1]⟩)
  kinds := by
    intro k i c e hd
    rcases receive_cases t d _ k i c e hd with hd | ⟨m, hm, h1, h2, l, ha, he⟩
    · exact (hi.kinds k i c e hd).mono
    · simp only [callback, List.mem_append] at hm
      rcases hm with hm | hm
      · simp only [List.mem_flatMap, deletions, List.mem_map] at hm
        obtain ⟨_, _, _, _, rfl⟩ := hm
        cases ha
      · obtain ⟨x, hx, mx, hg⟩ := items_mem hm
        have hns := generate_ns hg
        rcases generate_add hg ha with hk | hk | ⟨hl, j, p, hpj, hc⟩
        · rw [h2] at hk; exact Or.inl hk
        · exact Or.inr (Or.inl hk.1)
        · refine Or.inr (Or.inr ⟨(t, msg), by simp, x, hx, by rw [← hns, h1], by rw [he, hl]; rfl, p, List.mem_of_getElem? hpj, ?_⟩)
          rcases hc with hc | hc
          · exact Or.inl hc
          · exact Or.inr ⟨_, hc⟩
  most := by
    intro N hN
    refine items_most _ msg N (hi.most N fun m hm => hN m (List.mem_append_left _ hm)) ?_
    exact hN (t, msg) (by simp)

theorem watch_append (h : List (Nat × List (Item σ π ω ο))) (t : Nat) (msg : List (Item σ π ω ο)) :
    watch (h ++ [(t, msg)]) = ((callback (watch h).1 msg).1, receive t (watch h).2 (callback (watch h).1 msg).2) := by
  simp [watch]

theorem inv_watch (h : List (Nat × List (Item σ π ω ο))) (hp : ∀ m ∈ h, Proper m.2) : Inv h (watch h).1 (watch h).2 := by
  induction h using List.reverseRecOn with
  | nil =>
    refine ⟨?_, ?_, ?_, ?_⟩
    · intro e he; simp [watch, Node.new] at he
    · intro k i _ _ hd; exact absurd rfl hd
    · intro k i c e hd; cases hd
    · intro N _; exact Nat.zero_le _
  | append_singleton h m ih =>
    obtain ⟨t, msg⟩ := m
    rw [watch_append]
    exact inv_step (ih fun m hm => hp m (List.mem_append_left _ hm)) t msg (hp (t, msg) (by simp))

/-- What the viewer has of an entity of the last message. -/
theorem display_last (h : List (Nat × List (Item σ π ω ο))) (t : Nat) (msg : List (Item σ π ω ο)) (hp : Proper msg)
    (x : Item σ π ω ο) (hx : x ∈ msg) :
    ∃ d mx, (∀ N, (∀ m ∈ h, Proper m.2) → (∀ m ∈ h ++ [(t, msg)], ∀ y ∈ m.2, y.goals.length ≤ N) → mx ≤ N) ∧
      ∀ i, display (h ++ [(t, msg)]) x.status.name i = receive t d (generate mx x) x.status.name i := by
  have hd : (msg.map (·.status.name)).Nodup := by
    rw [List.map_congr_left hp.same]; exact hp.distinct
  simp only [display, watch_append, callback]
  obtain ⟨mx, _, hle, hr⟩ := items_receive t
    (receive t (watch h).2 ((List.filter (fun e : String × List (Mark (Content σ π ω ο)) => decide (e.1 ∉ msg.map (fun y : Item σ π ω ο => y.status.name))) (watch h).1.marks).flatMap fun e => deletions e.2))
    ⟨List.filter (fun e : String × List (Mark (Content σ π ω ο)) => decide (e.1 ∈ msg.map (fun y : Item σ π ω ο => y.status.name))) (watch h).1.marks, (watch h).1.mx⟩ msg hd x hx
  have hr' : ∀ i, _ = _ := fun i => (congrFun (congrFun (receive_append t (watch h).2 _ _) x.status.name) i).trans (hr i)
  exact ⟨_, mx, fun N hh hN =>
    hle N ((inv_watch h hh).most N fun m hm => hN m (List.mem_append_left _ hm)) (hN (t, msg) (by simp)), hr'⟩

end Verif.Markers
