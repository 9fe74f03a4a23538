import Verif.Markers.Spec
/-
Lemmas about viewers and published markers.
-/
namespace Verif.Markers

variable {σ π ω ο κ : Type}

theorem receive_append (t : Nat) (d : Display κ) (a b : List (Mark κ)) :
    receive t d (a ++ b) = receive t (receive t d a) b := by simp [receive]

theorem receive_other (t : Nat) (d : Display κ) (ms : List (Mark κ)) (n : String) (i : Int)
    (h : ∀ m ∈ ms, ¬(n = m.ns ∧ i = m.id)) : receive t d ms n i = d n i := by
  induction ms generalizing d with
  | nil => rfl
  | cons m ms ih =>
    show receive t (apply t d m) ms n i = d n i
    rw [ih _ (fun m' hm => h m' (List.mem_cons_of_mem _ hm))]
    simp only [apply]
    rw [if_neg (h m List.mem_cons_self)]

/-- What is there afterwards was there or was added. -/
theorem receive_cases (t : Nat) (d : Display κ) (ms : List (Mark κ)) (n : String) (i : Int) (c : κ) (e : Option Nat)
    (h : receive t d ms n i = some (c, e)) :
    d n i = some (c, e) ∨ ∃ m ∈ ms, m.ns = n ∧ m.id = i ∧ ∃ l, m.act = .add c l ∧ e = l.map (t + ·) := by
  induction ms generalizing d with
  | nil => exact Or.inl h
  | cons m ms ih =>
    rcases ih (apply t d m) h with h1 | ⟨m', hm', h2⟩
    · simp only [apply] at h1
      split at h1
      · rename_i hk
        refine Or.inr ⟨m, List.mem_cons_self, hk.1.symm, hk.2.symm, ?_⟩
        split at h1
        · rename_i c' l hl
          simp only [Option.some.injEq, Prod.mk.injEq] at h1
          exact ⟨l, by rw [hl, h1.1], h1.2.symm⟩
        · exact absurd h1 (by simp)
      · exact Or.inl h1
    · exact Or.inr ⟨m', List.mem_cons_of_mem _ hm', h2⟩

/-- Deletions only delete. -/
theorem receive_deleted (t : Nat) (d : Display κ) (ms : List (Mark κ)) (n : String) (i : Int)
    (hd : ∀ m ∈ ms, m.act = .delete) (h : d n i = none ∨ ∃ m ∈ ms, m.ns = n ∧ m.id = i) :
    receive t d ms n i = none := by
  induction ms generalizing d with
  | nil =>
    rcases h with h | ⟨m, hm, _⟩
    · exact h
    · simp at hm
  | cons m ms ih =>
    refine ih (apply t d m) (fun m' hm => hd m' (List.mem_cons_of_mem _ hm)) ?_
    by_cases hk : n = m.ns ∧ i = m.id
    · left; simp only [apply, if_pos hk, hd m List.mem_cons_self]
    · rcases h with h | ⟨m', hm', h1, h2⟩
      · left; simp only [apply, if_neg hk]; exact h
      · rcases List.mem_cons.1 hm' with rfl | hm'
        · exact absurd ⟨h1.symm, h2.symm⟩ hk
        · exact Or.inr ⟨m', hm', h1, h2⟩

theorem goalMarks_ns {mx : Nat} {s : Status σ} {g : List π} {m : Mark (Content σ π ω ο)} (h : m ∈ goalMarks mx s g) :
    m.ns = s.name := by
  simp only [goalMarks, List.mem_flatMap] at h
  obtain ⟨i, _, h⟩ := h
  split at h <;> · simp at h; rcases h with h | h <;> rw [h]

theorem generate_ns {mx : Nat} {x : Item σ π ω ο} {m : Mark (Content σ π ω ο)} (h : m ∈ generate mx x) :
    m.ns = x.status.name := by
  simp only [generate, List.mem_append] at h
  rcases h with (h | h) | h
  · split at h
    · exact goalMarks_ns h
    · simp [noGoalMarks] at h; rcases h with h | h <;> rw [h]
  · simp [bodyMarks] at h; rcases h with h | h | h | h <;> rw [h]
  · unfold pathMarks at h
    split at h
    · split at h <;> · simp at h; rcases h with h | h <;> rw [h]
    · simp at h; rcases h with h | h <;> rw [h]

/-- What the markers about goals add. -/
theorem goalMarks_add {mx : Nat} {s : Status σ} {g : List π} {m : Mark (Content σ π ω ο)} {c l}
    (h : m ∈ goalMarks mx s g) (ha : m.act = .add c l) :
    (c = .blank ∧ l = none) ∨
      (l = some life ∧ ∃ i p, g[i]? = some p ∧ i < mx ∧ (c = .goal s p ∨ c = .goalLabel s p ((mx - g.length + i : Nat) : Int))) := by
  simp only [goalMarks, List.mem_flatMap, List.mem_range] at h
  obtain ⟨i, hi, h⟩ := h
  split at h
  · rename_i p hp
    simp at h
    rcases h with h | h
    · rw [h] at ha
      simp only [Act.add.injEq] at ha
      exact Or.inr ⟨ha.2.symm, i, p, hp, hi, Or.inl ha.1.symm⟩
    · rw [h] at ha
      simp only [Act.add.injEq] at ha
      refine Or.inr ⟨ha.2.symm, i, p, hp, hi, Or.inr ?_⟩
      rw [← ha.1]; push_cast; rfl
  · simp at h
    rcases h with h | h
    · rw [h] at ha; cases ha
    · rw [h] at ha
      simp only [Act.add.injEq] at ha
      exact Or.inl ⟨ha.1.symm, ha.2.symm⟩

/-- The last six ids are settled by what comes last. -/
theorem generate_fixed (t : Nat) (d : Display (Content σ π ω ο)) (mx : Nat) (x : Item σ π ω ο) :
    receive t d (generate mx x) x.status.name 0 = some (.body x.status, some (t + life)) ∧
    receive t d (generate mx x) x.status.name 1 = some (.label x.status, some (t + life)) ∧
    receive t d (generate mx x) x.status.name 2 = some (.heading x.status, some (t + life)) ∧
    receive t d (generate mx x) x.status.name 3 = some (.action x.status, some (t + life)) ∧
    receive t d (generate mx x) x.status.name 4 =
      (if x.waypoints.length > 2 then some (.path x.status x.waypoints, none) else none) ∧
    receive t d (generate mx x) x.status.name 5 =
      (if x.waypoints.length > 2 ∧ x.found = true then some (.obstacle x.status x.waypoints x.obstacle, none) else none) := by
  unfold generate
  rw [receive_append, receive_append]
  by_cases hw : x.waypoints.length > 2 <;> cases hf : x.found <;>
    simp [receive, bodyMarks, pathMarks, hw, apply]

/-- Outside of the six ids there are goals and blank markers only. -/
theorem generate_add {mx : Nat} {x : Item σ π ω ο} {m : Mark (Content σ π ω ο)} {c l}
    (h : m ∈ generate mx x) (ha : m.act = .add c l) :
    (0 ≤ m.id ∧ m.id ≤ 5 ∧ ¬c.OfGoal ∧ c ≠ .blank) ∨ (c = .blank ∧ l = none) ∨
      (l = some life ∧ ∃ i p, x.goals[i]? = some p ∧
        (c = .goal x.status p ∨ c = .goalLabel x.status p ((nextMax mx x - x.goals.length + i : Nat) : Int))) := by
  simp only [generate, List.mem_append] at h
  rcases h with (h | h) | h
  · split at h
    · rcases goalMarks_add h ha with h | ⟨h, i, p, hp, _, hc⟩
      · exact Or.inr (Or.inl h)
      · exact Or.inr (Or.inr ⟨h, i, p, hp, hc⟩)
    · simp [noGoalMarks] at h; rcases h with h | h <;> · rw [h] at ha; cases ha
  · left
    simp [bodyMarks] at h; rcases h with h | h | h | h <;> · rw [h] at ha ⊢; cases ha; simp [Content.OfGoal]
  · left
    unfold pathMarks at h
    split at h
    · split at h <;> · simp at h; rcases h with h | h <;> · rw [h] at ha ⊢; cases ha <;> simp [Content.OfGoal]
    · simp at h; rcases h with h | h <;> · rw [h] at ha; cases ha

/-- Every one of the six ids is among the markers of an entity. -/
theorem generate_ids (mx : Nat) (x : Item σ π ω ο) (i : Int) (h0 : 0 ≤ i) (h5 : i ≤ 5) :
    ∃ m ∈ generate mx x, m.ns = x.status.name ∧ m.id = i := by
  have : i = 0 ∨ i = 1 ∨ i = 2 ∨ i = 3 ∨ i = 4 ∨ i = 5 := by omega
  simp only [generate, List.mem_append]
  by_cases hw : x.waypoints.length > 2 <;> cases hf : x.found <;>
    rcases this with rfl | rfl | rfl | rfl | rfl | rfl <;>
    simp [bodyMarks, pathMarks, hw, or_and_right, exists_or]

theorem items_ns {n : Node σ π ω ο} {xs : List (Item σ π ω ο)} {m : Mark (Content σ π ω ο)} (h : m ∈ (items n xs).2) :
    ∃ x ∈ xs, m.ns = x.status.name := by
  induction xs generalizing n with
  | nil => simp [items] at h
  | cons x xs ih =>
    simp only [items, List.mem_append] at h
    rcases h with h | h
    · exact ⟨x, List.mem_cons_self, generate_ns h⟩
    · obtain ⟨y, hy, h⟩ := ih h
      exact ⟨y, List.mem_cons_of_mem _ hy, h⟩

/-- Every marker of the items was made of one of them. -/
theorem items_mem {n : Node σ π ω ο} {xs : List (Item σ π ω ο)} {m : Mark (Content σ π ω ο)} (h : m ∈ (items n xs).2) :
    ∃ x ∈ xs, ∃ mx, m ∈ generate mx x := by
  induction xs generalizing n with
  | nil => simp [items] at h
  | cons x xs ih =>
    simp only [items, List.mem_append] at h
    rcases h with h | h
    · exact ⟨x, List.mem_cons_self, _, h⟩
    · obtain ⟨y, hy, h⟩ := ih h
      exact ⟨y, List.mem_cons_of_mem _ hy, h⟩

/-- What the viewer has of an entity of the message is settled by its own markers. -/
theorem items_receive (t : Nat) (d : Display (Content σ π ω ο)) (n : Node σ π ω ο) (xs : List (Item σ π ω ο))
    (hd : (xs.map (·.status.name)).Nodup) (x : Item σ π ω ο) (hx : x ∈ xs) :
    ∃ mx ≥ n.mx, (∀ N, n.mx ≤ N → (∀ y ∈ xs, y.goals.length ≤ N) → mx ≤ N) ∧ ∀ i, receive t d (items n xs).2 x.status.name i = receive t d (generate mx x) x.status.name i := by
  induction xs generalizing n d with
  | nil => simp at hx
  | cons y xs ih =>
    simp only [List.map_cons, List.nodup_cons] at hd
    simp only [items]
    rcases List.mem_cons.1 hx with rfl | hx'
    · refine ⟨n.mx, le_refl _, fun N hN _ => hN, fun i => ?_⟩
      rw [receive_append]
      apply receive_other
      rintro m hm ⟨h, _⟩
      obtain ⟨z, hz, h'⟩ := items_ns hm
      exact hd.1 (List.mem_map.2 ⟨z, hz, by rw [← h', ← h]⟩)
    · obtain ⟨mx, hge, hle, h⟩ := ih (receive t d (generate n.mx y)) ⟨put n.marks y.name (generate n.mx y), nextMax n.mx y⟩ hd.2 hx'
      refine ⟨mx, le_trans (by simp only [nextMax]; split <;> omega) hge, ?_, fun i => ?_⟩
      · intro N hN hy
        refine hle N ?_ (fun z hz => hy z (List.mem_cons_of_mem _ hz))
        have := hy y List.mem_cons_self
        simp only [nextMax]; split <;> omega
      · rw [receive_append, h i]
        -- the markers of the entity do not depend on what others put
        have key : ∀ (ms : List (Mark (Content σ π ω ο))) (d d' : Display (Content σ π ω ο)) (k : String),
            (∀ i, d k i = d' k i) → ∀ i, receive t d ms k i = receive t d' ms k i := by
          intro ms
          induction ms with
          | nil => intro d d' k h i; exact h i
          | cons m ms ih2 =>
            intro d d' k h i
            refine ih2 _ _ k (fun j => ?_) i
            simp only [apply]
            split
            · rfl
            · exact h j
        refine key _ _ _ _ (fun j => ?_) i
        apply receive_other
        rintro m hm ⟨h1, _⟩
        have := generate_ns hm
        exact hd.1 (List.mem_map.2 ⟨x, hx', by rw [← this, ← h1]⟩)

end Verif.Markers
