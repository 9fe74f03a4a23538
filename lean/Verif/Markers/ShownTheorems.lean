import Verif.Markers.Invariant
/-
Entities are shown as they were last told of, and those that are gone are not (C234-C236).
-/
namespace Verif.Markers

variable {σ π ω ο : Type}

/-- C234: after any messages, and until a tenth of a second after the last one, the viewer shows of each entity of
the last message its box, name, direction and action as the message has them, its path if it has one, the obstacle
if there is one on the path, and beside its goals and blank markers nothing else. -/
theorem C234_shown (h : List (Nat × List (Item σ π ω ο))) (t : Nat) (msg : List (Item σ π ω ο))
    (hh : ∀ m ∈ h, Proper m.2) (hp : Proper msg) (x : Item σ π ω ο) (hx : x ∈ msg) (u : Nat) (hu : u < t + tenth)
    (c : Content σ π ω ο) (hc : ¬c.OfGoal ∧ c ≠ .blank) :
    Shows (display (h ++ [(t, msg)])) x.name u c ↔ c ∈ marksOf x := by
  obtain ⟨d, mx, _, hr⟩ := display_last h t msg hp x hx
  obtain ⟨f0, f1, f2, f3, f4, f5⟩ := generate_fixed t d mx x
  rw [← hr] at f0 f1 f2 f3 f4 f5
  rw [← hp.same x hx]
  have hl : ∀ y, some (t + life) = some y → u < y := by
    intro y hy; cases hy; exact hu
  constructor
  · rintro ⟨i, e, he, _⟩
    have hinv := inv_watch (h ++ [(t, msg)]) (by
      intro m hm
      rcases List.mem_append.1 hm with hm | hm
      · exact hh m hm
      · rw [List.mem_singleton.1 hm]; exact hp)
    rcases hinv.kinds _ _ _ _ he with ⟨h0, h5, _⟩ | hb | ⟨_, _, _, _, _, _, _, _, hg⟩
    · have : i = 0 ∨ i = 1 ∨ i = 2 ∨ i = 3 ∨ i = 4 ∨ i = 5 := by omega
      rcases this with rfl | rfl | rfl | rfl | rfl | rfl
      · rw [f0] at he; cases he; simp [marksOf]
      · rw [f1] at he; cases he; simp [marksOf]
      · rw [f2] at he; cases he; simp [marksOf]
      · rw [f3] at he; cases he; simp [marksOf]
      · rw [f4] at he
        split at he
        · rename_i hw; cases he; simp [marksOf, hw]
        · cases he
      · rw [f5] at he
        split at he
        · rename_i hw; cases he; simp [marksOf, hw]
        · cases he
    · exact absurd hb hc.2
    · exfalso
      apply hc.1
      rcases hg with rfl | ⟨_, rfl⟩ <;> trivial
  · intro hm
    simp only [marksOf, List.mem_append, List.mem_cons, List.not_mem_nil, or_false] at hm
    rcases hm with (rfl | rfl | rfl | rfl) | hm
    · exact ⟨0, _, f0, hl⟩
    · exact ⟨1, _, f1, hl⟩
    · exact ⟨2, _, f2, hl⟩
    · exact ⟨3, _, f3, hl⟩
    · split at hm
      · rename_i hw
        rcases List.mem_cons.1 hm with rfl | hm
        · rw [if_pos hw] at f4
          exact ⟨4, _, f4, by simp⟩
        · split at hm
          · rename_i hf
            rw [List.mem_singleton.1 hm]
            rw [if_pos ⟨hw, hf⟩] at f5
            exact ⟨5, _, f5, by simp⟩
          · simp at hm
      · simp at hm

/-- An item to show cases with. -/
def sample (n : String) (goals : List Nat) (waypoints : List Nat) (found : Bool) : Item Nat Nat Nat Nat :=
  ⟨n, ⟨n, 7⟩, goals, waypoints, 9, found⟩

theorem sample_proper (n : String) (g w : List Nat) (f : Bool) : Proper [sample n g w f] :=
  ⟨by simp [sample], by simp⟩

theorem empty_proper : Proper ([] : List (Item Nat Nat Nat Nat)) := ⟨by simp, by simp⟩

/-- A case of C234: a path is shown, then, with an obstacle, another one in its place. -/
example : Shows (display ([(0, [sample "npc" [] [1, 2, 3] false])] ++ [(50, [sample "npc" [] [4, 5, 6] true])])) "npc" 60
      (.path ⟨"npc", 7⟩ [4, 5, 6]) ∧
    ¬Shows (display ([(0, [sample "npc" [] [1, 2, 3] false])] ++ [(50, [sample "npc" [] [4, 5, 6] true])])) "npc" 60
      (.path ⟨"npc", 7⟩ [1, 2, 3]) := by
  have key := C234_shown [(0, [sample "npc" [] [1, 2, 3] false])] 50 [sample "npc" [] [4, 5, 6] true]
    (fun m hm => by rw [List.mem_singleton.1 hm]; exact sample_proper ..) (sample_proper ..) _ (List.mem_singleton.2 rfl) 60 (by decide)
  exact ⟨(key _ ⟨by simp [Content.OfGoal], by simp⟩).2 (by simp [marksOf, sample]),
    fun h => absurd ((key _ ⟨by simp [Content.OfGoal], by simp⟩).1 h) (by simp [marksOf, sample])⟩

/-- C235: of an entity that is not in the last message, nothing is shown but its goals and blank markers, at any time. -/
theorem C235_gone_partial (h : List (Nat × List (Item σ π ω ο))) (t : Nat) (msg : List (Item σ π ω ο))
    (hh : ∀ m ∈ h, Proper m.2) (hp : Proper msg) (k : String) (hk : k ∉ msg.map Item.name) (u : Nat)
    (c : Content σ π ω ο) (hs : Shows (display (h ++ [(t, msg)])) k u c) : c.OfGoal ∨ c = .blank := by
  obtain ⟨i, e, he, _⟩ := hs
  have hi := inv_watch h hh
  have hi' := inv_step hi t msg hp
  simp only [display, watch_append] at he
  rcases hi'.kinds k i c e he with ⟨h0, h5, _⟩ | hb | ⟨_, _, _, _, _, _, _, _, hg⟩
  · exfalso
    -- a second message with the same names keeps no key that is not in it
    have hkeys := hi'.six k i h0 h5 (by rw [he]; simp)
    rcases (items_keys _ _ _).1 hkeys with hm | hm
    · obtain ⟨e', he', hk'⟩ := List.mem_map.1 hm
      have := (List.mem_filter.1 he').2
      rw [hk'] at this
      have := of_decide_eq_true this
      rw [List.map_congr_left hp.same] at this
      exact hk this
    · exact hk hm
  · exact Or.inr hb
  · left
    rcases hg with rfl | ⟨_, rfl⟩ <;> trivial

/-- C235, C236: a goal that is shown at some time was told of by a message less than a tenth of a second before. -/
theorem C236_fresh (h : List (Nat × List (Item σ π ω ο))) (hh : ∀ m ∈ h, Proper m.2) (k : String) (u : Nat)
    (c : Content σ π ω ο) (hs : Shows (display h) k u c) (hg : c.OfGoal) :
    ∃ m ∈ h, u < m.1 + tenth ∧ ∃ x ∈ m.2, x.name = k ∧ ∃ p ∈ x.goals, c = .goal x.status p ∨ ∃ number, c = .goalLabel x.status p number := by
  obtain ⟨i, e, he, hu⟩ := hs
  rcases (inv_watch h hh).kinds k i c e he with ⟨_, _, hn, _⟩ | hb | ⟨m, hm, x, hx, hk, hee, p, hp, hc⟩
  · exact absurd hg hn
  · rw [hb] at hg; exact absurd hg (by simp [Content.OfGoal])
  · exact ⟨m, hm, hu _ hee, x, hx, by rw [← (hh m hm).same x hx, hk], p, hp, hc⟩

/-- C235: of an entity that has not been told of for a tenth of a second nothing is shown but blank markers. -/
theorem C235_later_partial (h : List (Nat × List (Item σ π ω ο))) (t : Nat) (msg : List (Item σ π ω ο))
    (hh : ∀ m ∈ h, Proper m.2) (hp : Proper msg) (k : String) (u : Nat)
    (hk : ∀ m ∈ h ++ [(t, msg)], k ∈ m.2.map Item.name → m.1 + tenth ≤ u) (hl : k ∉ msg.map Item.name)
    (c : Content σ π ω ο) (hs : Shows (display (h ++ [(t, msg)])) k u c) : c = .blank := by
  rcases C235_gone_partial h t msg hh hp k hl u c hs with hg | hb
  · exfalso
    obtain ⟨m, hm, hu, x, hx, hxk, _⟩ := C236_fresh (h ++ [(t, msg)]) (by
      intro m hm
      rcases List.mem_append.1 hm with hm | hm
      · exact hh m hm
      · rw [List.mem_singleton.1 hm]; exact hp) k u c hs hg
    have := hk m hm (List.mem_map.2 ⟨x, hx, hxk⟩)
    omega
  · exact hb

/-- A case of C235: with a path that has no end of its own, removed. -/
example : (display [(0, [sample "npc" [1] [1, 2, 3] true])] "npc" 4).isSome = true ∧
    display ([(0, [sample "npc" [1] [1, 2, 3] true])] ++ [(50, [])]) "npc" 4 = none := ⟨rfl, rfl⟩

/-- Its hypotheses are met, and at once nothing at all is left. -/
example (u : Nat) (hu : tenth ≤ u) (c : Content Nat Nat Nat Nat)
    (hs : Shows (display ([(0, [sample "npc" [1] [1, 2, 3] true])] ++ [(50, [])])) "npc" u c) : c = .blank :=
  C235_later_partial _ _ _ (fun m hm => by rw [List.mem_singleton.1 hm]; exact sample_proper ..) empty_proper "npc" u
    (by
      intro m hm hk
      simp only [List.cons_append, List.nil_append, List.mem_cons, List.not_mem_nil, or_false] at hm
      rcases hm with rfl | rfl
      · simpa using hu
      · simp at hk) (by simp) c hs

/-- C235 does not hold of blank markers: an entity reaches its goals one after the other and is removed;
a marker of it stays for ever. -/
theorem C235_gone_violated :
    ∃ (h : List (Nat × List (Item Nat Nat Nat Nat))) (t : Nat) (msg : List (Item Nat Nat Nat Nat)),
      (∀ m ∈ h, Proper m.2) ∧ Proper msg ∧ "npc" ∉ msg.map Item.name ∧
        ∀ u, Shows (display (h ++ [(t, msg)])) "npc" u .blank := by
  refine ⟨[(0, [sample "npc" [1, 2] [] false]), (50, [sample "npc" [2] [] false]), (100, [sample "npc" [] [] false])], 150, [],
    ?_, empty_proper, by simp, fun u => ⟨100, none, ?_, by simp⟩⟩
  · intro m hm
    simp only [List.mem_cons, List.not_mem_nil, or_false] at hm
    rcases hm with rfl | rfl | rfl <;> exact sample_proper ..
  · rfl

/-- C236: if no entity has had more goals than this one, and these are not more than 90, all of them are shown, with their numbers. -/
theorem C236_goals_partial (h : List (Nat × List (Item σ π ω ο))) (t : Nat) (msg : List (Item σ π ω ο))
    (hh : ∀ m ∈ h, Proper m.2) (hp : Proper msg) (x : Item σ π ω ο) (hx : x ∈ msg)
    (hmost : ∀ m ∈ h ++ [(t, msg)], ∀ y ∈ m.2, y.goals.length ≤ x.goals.length) (h90 : x.goals.length ≤ 90)
    (u : Nat) (hu : u < t + tenth) (i : Nat) (p : π) (hpi : x.goals[i]? = some p) :
    Shows (display (h ++ [(t, msg)])) x.name u (.goal x.status p) ∧
      Shows (display (h ++ [(t, msg)])) x.name u (.goalLabel x.status p i) := by
  obtain ⟨d, mx, hmx, hr⟩ := display_last h t msg hp x hx
  have hmx := hmx x.goals.length hh hmost
  have hi : i < x.goals.length := by
    rcases Nat.lt_or_ge i x.goals.length with hi | hi
    · exact hi
    · rw [List.getElem?_eq_none hi] at hpi; cases hpi
  have hnm : nextMax mx x = x.goals.length := by
    simp only [nextMax]; split <;> omega
  have hl : ∀ y, some (t + life) = some y → u < y := by
    intro y hy; cases hy; exact hu
  -- the markers of goals, one after the other
  have key : ∀ (L : Nat) (D : Display (Content σ π ω ο)), i < L → L ≤ x.goals.length →
      receive t D ((List.range L).flatMap fun i =>
        match x.goals[i]? with
        | some p =>
          ([⟨x.status.name, 10 + ((x.goals.length - x.goals.length + i : Nat) : Int), .add (.goal x.status p) (some life)⟩,
           ⟨x.status.name, 100 + ((x.goals.length - x.goals.length + i : Nat) : Int), .add (.goalLabel x.status p ((x.goals.length - x.goals.length + i : Nat) : Int)) (some life)⟩] : List (Mark (Content σ π ω ο)))
        | none =>
          [⟨x.status.name, 10 + ((i : Int) - ((x.goals.length : Int) - x.goals.length)), .delete⟩,
           ⟨x.status.name, 100 + ((i : Int) - ((x.goals.length : Int) - x.goals.length)), .add .blank none⟩]) x.status.name (10 + i)
        = some (.goal x.status p, some (t + life)) ∧
      receive t D ((List.range L).flatMap fun i =>
        match x.goals[i]? with
        | some p =>
          ([⟨x.status.name, 10 + ((x.goals.length - x.goals.length + i : Nat) : Int), .add (.goal x.status p) (some life)⟩,
           ⟨x.status.name, 100 + ((x.goals.length - x.goals.length + i : Nat) : Int), .add (.goalLabel x.status p ((x.goals.length - x.goals.length + i : Nat) : Int)) (some life)⟩] : List (Mark (Content σ π ω ο)))
        | none =>
          [⟨x.status.name, 10 + ((i : Int) - ((x.goals.length : Int) - x.goals.length)), .delete⟩,
           ⟨x.status.name, 100 + ((i : Int) - ((x.goals.length : Int) - x.goals.length)), .add .blank none⟩]) x.status.name (100 + i)
        = some (.goalLabel x.status p i, some (t + life)) := by
    intro L
    induction L with
    | zero => intro D h0 _; omega
    | succ L ih =>
      intro D h1 h2
      rw [List.range_succ, List.flatMap_append, receive_append]
      obtain ⟨q, hq⟩ : ∃ q, x.goals[L]? = some q := ⟨x.goals[L], List.getElem?_eq_getElem (by omega)⟩
      simp only [List.flatMap_cons, List.flatMap_nil, List.append_nil, hq]
      by_cases hL : i = L
      · subst hL
        rw [hq] at hpi
        cases hpi
        constructor
        · simp [receive, apply]
        · simp [receive, apply]
      · obtain ⟨a, b⟩ := ih D (by omega) (by omega)
        constructor
        · rw [receive_other]
          · exact a
          · intro m hm
            simp only [List.mem_cons, List.not_mem_nil, or_false] at hm
            rcases hm with rfl | rfl <;> · simp; omega
        · rw [receive_other]
          · exact b
          · intro m hm
            simp only [List.mem_cons, List.not_mem_nil, or_false] at hm
            rcases hm with rfl | rfl <;> · simp; omega
  have hg : generate mx x = goalMarks x.goals.length x.status x.goals ++
      (bodyMarks x.status ++ pathMarks x.status x.waypoints x.obstacle x.found) := by
    simp only [generate, hnm]
    rw [if_pos (by omega), List.append_assoc]
  have hrest : ∀ m ∈ (bodyMarks x.status ++ pathMarks x.status x.waypoints x.obstacle x.found : List (Mark (Content σ π ω ο))),
      m.id ≤ 5 := by
    intro m hm
    simp only [bodyMarks, pathMarks, List.mem_append, List.mem_cons, List.not_mem_nil, or_false] at hm
    rcases hm with (rfl | rfl | rfl | rfl) | hm
    · simp
    · simp
    · simp
    · simp
    · split at hm
      · split at hm <;> · simp at hm; rcases hm with rfl | rfl <;> simp
      · simp at hm; rcases hm with rfl | rfl <;> simp
  have hfin : ∀ j : Int, 5 < j → display (h ++ [(t, msg)]) x.status.name j =
      receive t d (goalMarks x.goals.length x.status x.goals) x.status.name j := by
    intro j hj
    rw [hr, hg, receive_append, receive_other]
    rintro m hm ⟨_, hid⟩
    have := hrest m hm
    omega
  obtain ⟨a, b⟩ := key x.goals.length d hi (le_refl _)
  rw [← hp.same x hx]
  refine ⟨⟨10 + i, _, ?_, hl⟩, ⟨100 + i, _, ?_, hl⟩⟩
  · rw [hfin _ (by omega)]; exact a
  · rw [hfin _ (by omega)]; exact b

/-- A case of C236: two goals, after a message with one. -/
example : Shows (display ([(0, [sample "npc" [5] [] false])] ++ [(50, [sample "npc" [5, 6] [] false])])) "npc" 60 (.goal ⟨"npc", 7⟩ 6) ∧
    Shows (display ([(0, [sample "npc" [5] [] false])] ++ [(50, [sample "npc" [5, 6] [] false])])) "npc" 60 (.goalLabel ⟨"npc", 7⟩ 6 1) :=
  C236_goals_partial [(0, [sample "npc" [5] [] false])] 50 [sample "npc" [5, 6] [] false]
    (fun m hm => by rw [List.mem_singleton.1 hm]; exact sample_proper ..) (sample_proper ..) _ (List.mem_singleton.2 rfl)
    (by
      intro m hm y hy
      simp only [List.cons_append, List.nil_append, List.mem_cons, List.not_mem_nil, or_false] at hm
      rcases hm with rfl | rfl <;> · have := List.mem_singleton.1 hy; subst this; simp [sample])
    (by simp [sample]) 60 (by decide) 1 6 rfl

/-- C236 does not hold of an entity that has had more goals: when the first of three goals has been reached the next one is not shown. -/
theorem C236_next_goal_violated :
    ∃ (h : List (Nat × List (Item Nat Nat Nat Nat))) (t : Nat) (x : Item Nat Nat Nat Nat),
      (∀ m ∈ h, Proper m.2) ∧ Proper [x] ∧ x.goals = [2, 3] ∧
        ∀ u, ¬Shows (display (h ++ [(t, [x])])) x.name (t + u) (.goal x.status 2) := by
  refine ⟨[(0, [sample "npc" [1, 2, 3] [] false])], 100000000, sample "npc" [2, 3] [] false, ?_, sample_proper .., rfl, ?_⟩
  · intro m hm
    rw [List.mem_singleton.1 hm]; exact sample_proper ..
  · rintro u ⟨i, e, he, _⟩
    have hd : display ([(0, [sample "npc" [1, 2, 3] [] false])] ++ [(100000000, [sample "npc" [2, 3] [] false])]) =
        receive 100000000 (receive 0 (fun _ _ => none)
          (generate 0 (sample "npc" [1, 2, 3] [] false))) (generate 3 (sample "npc" [2, 3] [] false)) := rfl
    have h2 : generate 3 (sample "npc" [2, 3] [] false) =
        [⟨"npc", 11, .add (.goal ⟨"npc", 7⟩ 2) (some life)⟩, ⟨"npc", 101, .add (.goalLabel ⟨"npc", 7⟩ 2 1) (some life)⟩,
         ⟨"npc", 12, .add (.goal ⟨"npc", 7⟩ 3) (some life)⟩, ⟨"npc", 102, .add (.goalLabel ⟨"npc", 7⟩ 3 2) (some life)⟩,
         ⟨"npc", 11, .delete⟩, ⟨"npc", 101, .add .blank none⟩] ++ bodyMarks ⟨"npc", 7⟩ ++ pathMarks ⟨"npc", 7⟩ [] 9 false := rfl
    have h1 : generate 0 (sample "npc" [1, 2, 3] [] false) =
        [⟨"npc", 10, .add (.goal ⟨"npc", 7⟩ 1) (some life)⟩, ⟨"npc", 100, .add (.goalLabel ⟨"npc", 7⟩ 1 0) (some life)⟩,
         ⟨"npc", 11, .add (.goal ⟨"npc", 7⟩ 2) (some life)⟩, ⟨"npc", 101, .add (.goalLabel ⟨"npc", 7⟩ 2 1) (some life)⟩,
         ⟨"npc", 12, .add (.goal ⟨"npc", 7⟩ 3) (some life)⟩, ⟨"npc", 102, .add (.goalLabel ⟨"npc", 7⟩ 3 2) (some life)⟩]
          ++ bodyMarks ⟨"npc", 7⟩ ++ pathMarks ⟨"npc", 7⟩ [] 9 false := rfl
    have h11 : display ([(0, [sample "npc" [1, 2, 3] [] false])] ++ [(100000000, [sample "npc" [2, 3] [] false])]) "npc" 11 = none := rfl
    have hi : i = 11 := by
      rw [hd] at he
      rcases receive_cases _ _ _ _ _ _ _ he with he | ⟨m, hm, _, hid, l, ha, _⟩
      · rcases receive_cases _ _ _ _ _ _ _ he with he | ⟨m, hm, _, hid, l, ha, _⟩
        · cases he
        · rw [h1] at hm
          simp only [bodyMarks, pathMarks, List.length_nil, List.mem_append, List.mem_cons, List.not_mem_nil, or_false,
            show ¬(0 > 2) from by omega, if_false] at hm
          rcases hm with ((rfl | rfl | rfl | rfl | rfl | rfl) | rfl | rfl | rfl | rfl) | rfl | rfl <;>
            first | exact hid.symm | cases ha
      · rw [h2] at hm
        simp only [bodyMarks, pathMarks, List.length_nil, List.mem_append, List.mem_cons, List.not_mem_nil, or_false,
          show ¬(0 > 2) from by omega, if_false] at hm
        rcases hm with ((rfl | rfl | rfl | rfl | rfl | rfl) | rfl | rfl | rfl | rfl) | rfl | rfl <;>
          first | exact hid.symm | cases ha
    rw [hi] at he
    exact absurd (he.symm.trans h11) (by simp)

end Verif.Markers
