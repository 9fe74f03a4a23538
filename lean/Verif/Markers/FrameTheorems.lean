import Verif.Markers.ShownTheorems
import Mathlib.Algebra.Field.Rat
/-
What is shown of the frames of a simulation (C237), and the outline of boxes (C238).
-/
namespace Verif.Markers

variable {σ π ω ο : Type}

theorem publish_names (started : Bool) (o : ο) (ents : List (String × Ent σ π ω ο)) :
    (publish started o ents).map Item.name = ents.map Prod.fst := by
  simp [publish]

theorem publish_proper (started : Bool) (o : ο) (ents : List (String × Ent σ π ω ο)) (h : (ents.map Prod.fst).Nodup) :
    Proper (publish started o ents) where
  same := by
    intro x hx
    simp only [publish, List.mem_map] at hx
    obtain ⟨e, _, rfl⟩ := hx
    rfl
  distinct := by rw [publish_names]; exact h

theorem messages_proper (o : ο) (fs : List (Frame σ π ω ο)) (h : ∀ f ∈ fs, (f.ents.map Prod.fst).Nodup) :
    ∀ m ∈ messages o fs, Proper m.2 := by
  intro m hm
  simp only [messages, List.mem_map] at hm
  obtain ⟨f, hf, rfl⟩ := hm
  exact publish_proper _ _ _ (h f hf)

/-- C237: after any frames of a simulation, in which entities come, go and change, the boxes that are shown are those
of the entities of the last frame, as they are there. -/
theorem C237_boxes (o : ο) (fs : List (Frame σ π ω ο)) (f : Frame σ π ω ο)
    (h : ∀ g ∈ fs ++ [f], (g.ents.map Prod.fst).Nodup) (u : Nat) (hu : u < f.time + tenth) (k : String) (r : σ) :
    Shows (display (messages o (fs ++ [f]))) k u (.body ⟨k, r⟩) ↔ ∃ e, (k, e) ∈ f.ents ∧ e.rest = r := by
  have hh := messages_proper o fs fun g hg => h g (List.mem_append_left _ hg)
  have hp := publish_proper f.started o f.ents (h f (by simp))
  have hm : messages o (fs ++ [f]) = messages o fs ++ [(f.time, publish f.started o f.ents)] := by simp [messages]
  rw [hm]
  have hc : ¬(Content.body ⟨k, r⟩ : Content σ π ω ο).OfGoal ∧ (Content.body ⟨k, r⟩ : Content σ π ω ο) ≠ .blank :=
    ⟨by simp [Content.OfGoal], by simp⟩
  constructor
  · intro hs
    by_cases hk : k ∈ (publish f.started o f.ents).map Item.name
    · obtain ⟨x, hx, hxk⟩ := List.mem_map.1 hk
      rw [← hxk] at hs
      have := (C234_shown _ _ _ hh hp x hx u hu _ (by rw [hxk]; exact hc)).1 hs
      simp only [publish, List.mem_map] at hx
      obtain ⟨⟨n, e⟩, he, rfl⟩ := hx
      refine ⟨e, by rw [← hxk]; exact he, ?_⟩
      simp only [marksOf, List.mem_append, List.mem_cons, List.not_mem_nil, or_false] at this
      rcases this with h | h
      · simp at h; exact h.symm
      · exfalso
        split at h
        · split at h <;> simp at h
        · simp at h
    · rcases C235_gone_partial _ _ _ hh hp k hk u _ hs with hg | hb
      · exact absurd hg hc.1
      · exact absurd hb hc.2
  · rintro ⟨e, he, rfl⟩
    have hx : (⟨k, ⟨k, e.rest⟩, e.goals, if f.started then e.waypoints else [], (if f.started then e.obstacle else none).getD o,
        (if f.started then e.obstacle else none).isSome⟩ : Item σ π ω ο) ∈ publish f.started o f.ents :=
      List.mem_map.2 ⟨(k, e), he, rfl⟩
    exact (C234_shown _ _ _ hh hp _ hx u hu _ hc).2 (by simp [marksOf])

/-- C237: before entities are driven no path and no obstacle is shown; then the path of an entity that has more than
two waypoints, and on it the obstacle if the entity has one. -/
theorem C237_paths (o : ο) (fs : List (Frame σ π ω ο)) (f : Frame σ π ω ο)
    (h : ∀ g ∈ fs ++ [f], (g.ents.map Prod.fst).Nodup) (u : Nat) (hu : u < f.time + tenth) (k : String) (s : Status σ) (w : List ω) :
    (Shows (display (messages o (fs ++ [f]))) k u (.path s w) ↔
      f.started = true ∧ ∃ e, (k, e) ∈ f.ents ∧ s = ⟨k, e.rest⟩ ∧ w = e.waypoints ∧ 2 < w.length) ∧
    ∀ b, (Shows (display (messages o (fs ++ [f]))) k u (.obstacle s w b) ↔
      f.started = true ∧ ∃ e, (k, e) ∈ f.ents ∧ s = ⟨k, e.rest⟩ ∧ w = e.waypoints ∧ 2 < w.length ∧ e.obstacle = some b) := by
  have hh := messages_proper o fs fun g hg => h g (List.mem_append_left _ hg)
  have hp := publish_proper f.started o f.ents (h f (by simp))
  have hm : messages o (fs ++ [f]) = messages o fs ++ [(f.time, publish f.started o f.ents)] := by simp [messages]
  rw [hm]
  -- by the item of the entity
  have key : ∀ c : Content σ π ω ο, ¬c.OfGoal → c ≠ .blank →
      (Shows (display (messages o fs ++ [(f.time, publish f.started o f.ents)])) k u c ↔
        ∃ e, (k, e) ∈ f.ents ∧ c ∈ marksOf (⟨k, ⟨k, e.rest⟩, e.goals, if f.started then e.waypoints else [],
          (if f.started then e.obstacle else none).getD o, (if f.started then e.obstacle else none).isSome⟩ : Item σ π ω ο)) := by
    intro c hg hb
    constructor
    · intro hs
      by_cases hk : k ∈ (publish f.started o f.ents).map Item.name
      · obtain ⟨x, hx, hxk⟩ := List.mem_map.1 hk
        have hx' := hx
        simp only [publish, List.mem_map] at hx
        obtain ⟨⟨n, e⟩, he, rfl⟩ := hx
        cases hxk
        exact ⟨e, he, (C234_shown _ _ _ hh hp _ hx' u hu c ⟨hg, hb⟩).1 hs⟩
      · rcases C235_gone_partial _ _ _ hh hp k hk u _ hs with h | h
        · exact absurd h hg
        · exact absurd h hb
    · rintro ⟨e, he, hc⟩
      exact (C234_shown _ _ _ hh hp _ (List.mem_map.2 ⟨(k, e), he, rfl⟩) u hu c ⟨hg, hb⟩).2 hc
  refine ⟨?_, fun b => ?_⟩
  · rw [key _ (by simp [Content.OfGoal]) (by simp)]
    cases f.started
    · simp [marksOf]
    · simp only [marksOf, if_true, true_and]
      constructor
      · rintro ⟨e, he, hc⟩
        refine ⟨e, he, ?_⟩
        by_cases hw : e.waypoints.length > 2
        · rw [if_pos hw] at hc
          by_cases hf : e.obstacle.isSome = true
          · rw [if_pos hf] at hc; simp at hc; exact ⟨hc.1, hc.2, by rw [hc.2]; exact hw⟩
          · rw [if_neg hf] at hc; simp at hc; exact ⟨hc.1, hc.2, by rw [hc.2]; exact hw⟩
        · rw [if_neg hw] at hc; simp at hc
      · rintro ⟨e, he, rfl, rfl, hw⟩
        exact ⟨e, he, by rw [if_pos hw]; simp⟩
  · rw [key _ (by simp [Content.OfGoal]) (by simp)]
    cases f.started
    · simp [marksOf]
    · simp only [marksOf, if_true, true_and]
      constructor
      · rintro ⟨e, he, hc⟩
        refine ⟨e, he, ?_⟩
        by_cases hw : e.waypoints.length > 2
        · rw [if_pos hw] at hc
          cases ho : e.obstacle with
          | none => rw [ho] at hc; simp at hc
          | some b' =>
            rw [ho] at hc; simp at hc
            exact ⟨hc.1, hc.2.1, by rw [hc.2.1]; exact hw, by rw [hc.2.2]⟩
        · rw [if_neg hw] at hc; simp at hc
      · rintro ⟨e, he, rfl, rfl, hw, ho⟩
        exact ⟨e, he, by rw [if_pos hw, ho]; simp⟩

/-- A case of C237: an entity that has a path and an obstacle, before and after it is driven. -/
example : let e : Ent Nat Nat Nat Nat := ⟨7, [], [1, 2, 3], some 4⟩
    ¬Shows (display (messages 0 ([] ++ [⟨0, false, [("npc", e)]⟩]))) "npc" 10 (.path ⟨"npc", 7⟩ [1, 2, 3]) ∧
    Shows (display (messages 0 ([⟨0, false, [("npc", e)]⟩] ++ [⟨50, true, [("npc", e)]⟩]))) "npc" 60 (.obstacle ⟨"npc", 7⟩ [1, 2, 3] 4) := by
  refine ⟨fun h => ?_, ?_⟩
  · exact absurd ((C237_paths 0 [] ⟨0, false, [("npc", _)]⟩ (by simp) 10 (by decide) "npc" _ _).1.1 h).1 (by simp)
  · exact ((C237_paths 0 [⟨0, false, [("npc", _)]⟩] ⟨50, true, [("npc", _)]⟩ (by simp) 60 (by decide) "npc" _ _).2 4).2
      ⟨rfl, _, List.mem_singleton.2 rfl, rfl, rfl, by decide, rfl⟩

/-- C238: the lines drawn of a box are its edges: they join the corners that differ in one direction, and each is drawn once. -/
theorem C238_edges {K P : Type} [Field K] (place : K → K → K → P) (b : Box K) (s : P × P) :
    (s ∈ outline (corner place b) ∨ (s.2, s.1) ∈ outline (corner place b)) ↔
      ∃ c d : Bool × Bool × Bool, Neighbours c d ∧
        s.1 = place (if c.1 then b.cx + b.dx / 2 else b.cx - b.dx / 2) (if c.2.1 then b.cy + b.dy / 2 else b.cy - b.dy / 2)
          (if c.2.2 then b.cz + b.dz / 2 else b.cz - b.dz / 2) ∧
        s.2 = place (if d.1 then b.cx + b.dx / 2 else b.cx - b.dx / 2) (if d.2.1 then b.cy + b.dy / 2 else b.cy - b.dy / 2)
          (if d.2.2 then b.cz + b.dz / 2 else b.cz - b.dz / 2) := by
  have hc : ∀ x y z : Bool, place (if x then b.cx + b.dx / 2 else b.cx - b.dx / 2) (if y then b.cy + b.dy / 2 else b.cy - b.dy / 2)
      (if z then b.cz + b.dz / 2 else b.cz - b.dz / 2) = corner place b x y z := by
    intro x y z; simp only [corner, side, mul_one_div]
  obtain ⟨s1, s2⟩ := s
  simp only [hc]
  generalize corner place b = p
  constructor
  · simp only [outline, List.mem_cons, List.not_mem_nil, or_false, Prod.mk.injEq]
    intro h
    rcases h with (⟨h1, h2⟩ | ⟨h1, h2⟩ | ⟨h1, h2⟩ | ⟨h1, h2⟩ | ⟨h1, h2⟩ | ⟨h1, h2⟩ | ⟨h1, h2⟩ | ⟨h1, h2⟩ | ⟨h1, h2⟩ | ⟨h1, h2⟩ | ⟨h1, h2⟩ | ⟨h1, h2⟩) |
      (⟨h1, h2⟩ | ⟨h1, h2⟩ | ⟨h1, h2⟩ | ⟨h1, h2⟩ | ⟨h1, h2⟩ | ⟨h1, h2⟩ | ⟨h1, h2⟩ | ⟨h1, h2⟩ | ⟨h1, h2⟩ | ⟨h1, h2⟩ | ⟨h1, h2⟩ | ⟨h1, h2⟩)
    exacts [⟨(true, true, true), (false, true, true), by simp [Neighbours], h1, h2⟩,
      ⟨(false, true, true), (false, false, true), by simp [Neighbours], h1, h2⟩,
      ⟨(false, false, true), (true, false, true), by simp [Neighbours], h1, h2⟩,
      ⟨(true, false, true), (true, true, true), by simp [Neighbours], h1, h2⟩,
      ⟨(true, true, true), (true, true, false), by simp [Neighbours], h1, h2⟩,
      ⟨(false, true, true), (false, true, false), by simp [Neighbours], h1, h2⟩,
      ⟨(false, false, true), (false, false, false), by simp [Neighbours], h1, h2⟩,
      ⟨(true, false, true), (true, false, false), by simp [Neighbours], h1, h2⟩,
      ⟨(true, true, false), (false, true, false), by simp [Neighbours], h1, h2⟩,
      ⟨(false, true, false), (false, false, false), by simp [Neighbours], h1, h2⟩,
      ⟨(false, false, false), (true, false, false), by simp [Neighbours], h1, h2⟩,
      ⟨(true, false, false), (true, true, false), by simp [Neighbours], h1, h2⟩,
      ⟨(false, true, true), (true, true, true), by simp [Neighbours], h2, h1⟩,
      ⟨(false, false, true), (false, true, true), by simp [Neighbours], h2, h1⟩,
      ⟨(true, false, true), (false, false, true), by simp [Neighbours], h2, h1⟩,
      ⟨(true, true, true), (true, false, true), by simp [Neighbours], h2, h1⟩,
      ⟨(true, true, false), (true, true, true), by simp [Neighbours], h2, h1⟩,
      ⟨(false, true, false), (false, true, true), by simp [Neighbours], h2, h1⟩,
      ⟨(false, false, false), (false, false, true), by simp [Neighbours], h2, h1⟩,
      ⟨(true, false, false), (true, false, true), by simp [Neighbours], h2, h1⟩,
      ⟨(false, true, false), (true, true, false), by simp [Neighbours], h2, h1⟩,
      ⟨(false, false, false), (false, true, false), by simp [Neighbours], h2, h1⟩,
      ⟨(true, false, false), (false, false, false), by simp [Neighbours], h2, h1⟩,
      ⟨(true, true, false), (true, false, false), by simp [Neighbours], h2, h1⟩]
  · rintro ⟨⟨x, y, z⟩, ⟨x', y', z'⟩, hn, h1, h2⟩
    simp only at h1 h2
    subst h1 h2
    cases x <;> cases y <;> cases z <;> cases x' <;> cases y' <;> cases z' <;> simp [Neighbours] at hn <;> simp [outline]

/-- C238: a box of which no side is 0 is drawn by twelve different lines, no two of which are the same one backwards. -/
theorem C238_once {P : Type} (p : Bool → Bool → Bool → P)
    (h : ∀ x y z x' y' z', p x y z = p x' y' z' → x = x' ∧ y = y' ∧ z = z') :
    (outline p).length = 12 ∧ (outline p).Nodup ∧ ∀ s ∈ outline p, (s.2, s.1) ∉ outline p := by
  have hi : ∀ x y z x' y' z', (p x y z = p x' y' z') ↔ (x = x' ∧ y = y' ∧ z = z') :=
    fun x y z x' y' z' => ⟨h x y z x' y' z', by rintro ⟨rfl, rfl, rfl⟩; rfl⟩
  refine ⟨rfl, ?_, ?_⟩
  · simp [outline, hi]
  · simp [outline, hi]

/-- A case of C238. -/
example : (outline (corner (fun x y z => (x, y, z)) (⟨1, 0, 1/2, 4, 2, 1⟩ : Box Rat))).head? = some ((3, 1, 1), (-1, 1, 1)) := by
  decide +kernel

end Verif.Markers
