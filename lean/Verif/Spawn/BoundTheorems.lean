import Verif.Spawn.Spec
/-
C253: the distance to the bounds of lanes.
-/
namespace Verif.Spawn

set_option linter.unusedSectionVars false

variable {K P : Type} [LinearOrder K]

theorem toBound_none (w : Sides K P) (side : Id → Option (List P)) (id : Id) (h : w.outline ≠ []) : toBound w side id = none ↔ Broken side id := by
  unfold toBound Broken
  cases e : side id with
  | none => simp
  | some b =>
    cases b with
    | nil => simp
    | cons => simp [h]

theorem toBound_some (w : Sides K P) (side : Id → Option (List P)) (id : Id) (d : K) (k : toBound w side id = some d) :
    ∃ b, side id = some b ∧ d = w.distance b w.outline := by
  unfold toBound at k
  split at k
  · cases k
  · next b e =>
    split at k
    · cases k
    · split at k
      · cases k
      · exact ⟨b, e, (Option.some.inj k).symm⟩

theorem least_some (w : Sides K P) (side : Id → Option (List P)) (ids : List Id) (m r : K) (h : leastBound w side ids m = some r) :
    (r = m ∨ ∃ id ∈ ids, ∃ b, side id = some b ∧ r = w.distance b w.outline) ∧ r ≤ m ∧
    ∀ id ∈ ids, ∀ b, side id = some b → r ≤ w.distance b w.outline := by
  induction ids generalizing m with
  | nil => simp [leastBound] at h; subst h; simp
  | cons a ids ih =>
    unfold leastBound at h
    split at h
    · cases h
    · next d k =>
      obtain ⟨b, e, eq⟩ := toBound_some w side a d k
      obtain ⟨p, q, s⟩ := ih _ h
      have qd : r ≤ d := by
        by_cases x : d < m
        · rw [if_pos x] at q; exact q
        · rw [if_neg x] at q; exact le_trans q (not_lt.mp x)
      have qm : r ≤ m := by
        by_cases x : d < m
        · rw [if_pos x] at q; exact le_trans q (le_of_lt x)
        · rw [if_neg x] at q; exact q
      refine ⟨?_, qm, ?_⟩
      · rcases p with p | ⟨i, hi, c, hc, rc⟩
        · by_cases x : d < m
          · rw [if_pos x] at p
            exact Or.inr ⟨a, List.mem_cons_self, b, e, by rw [p, eq]⟩
          · rw [if_neg x] at p; exact Or.inl p
        · exact Or.inr ⟨i, List.mem_cons_of_mem _ hi, c, hc, rc⟩
      · intro i hi c hc
        rcases List.mem_cons.mp hi with x | x
        · subst x
          rw [e] at hc
          cases hc
          rw [← eq]; exact qd
        · exact s i x c hc

theorem least_none (w : Sides K P) (side : Id → Option (List P)) (ids : List Id) (m : K) (h : w.outline ≠ []) :
    leastBound w side ids m = none ↔ ∃ id ∈ ids, Broken side id := by
  induction ids generalizing m with
  | nil => simp [leastBound]
  | cons a ids ih =>
    unfold leastBound
    cases k : toBound w side a with
    | none => simp [(toBound_none w side a h).mp k]
    | some d =>
      have : ¬ Broken side a := fun x => by rw [(toBound_none w side a h).mpr x] at k; cases k
      simp [ih, this]

theorem side_eq (w : Sides K P) (side : Id → Option (List P)) (ids : List Id) (hne : ids ≠ []) (r : K)
    (big : ∀ id ∈ ids, ∀ b, side id = some b → w.distance b w.outline ≤ w.largest) (hok : ∀ id ∈ ids, ¬ Broken side id)
    (h : leastBound w side ids w.largest = some r) : Nearest w [side] ids r := by
  obtain ⟨p, q, s⟩ := least_some w side ids _ r h
  constructor
  · rcases p with p | ⟨i, hi, b, hb, e⟩
    · cases ids with
      | nil => exact absurd rfl hne
      | cons a ids =>
        cases e : side a with
        | none => exact absurd (Or.inl e) (hok a List.mem_cons_self)
        | some b =>
          refine ⟨a, List.mem_cons_self, side, by simp, b, e, le_antisymm (s a List.mem_cons_self b e) ?_⟩
          rw [p]; exact big a List.mem_cons_self b e
    · exact ⟨i, hi, side, by simp, b, hb, e⟩
  · intro i hi t ht b hb
    rw [List.mem_singleton] at ht
    subst ht
    exact s i hi b hb

/-- C253: the distance of an entity to the left or right bound of some lanelets is the least of those to the bounds of each of them; that to
their bounds is the least of those to both sides. -/
theorem C253_least (w : Sides K P) (ids : List Id)
    (big : ∀ id ∈ ids, ∀ b, w.left id = some b ∨ w.right id = some b → w.distance b w.outline ≤ w.largest) :
    (∀ d, toLeft w ids = some d → Nearest w [w.left] ids d) ∧ (∀ d, toRight w ids = some d → Nearest w [w.right] ids d) ∧
    (∀ d, toLaneBound w ids = some d → Nearest w [w.left, w.right] ids d) := by
  have one : ∀ side : Id → Option (List P), (∀ id ∈ ids, ∀ b, side id = some b → w.distance b w.outline ≤ w.largest) →
      ∀ d, (if ids.isEmpty then none else leastBound w side ids w.largest) = some d → Nearest w [side] ids d := by
    intro side bg d h
    cases ids with
    | nil => simp at h
    | cons a l =>
      simp only [List.isEmpty_cons, Bool.false_eq_true, if_false] at h
      have ho : w.outline ≠ [] := by
        intro x
        unfold leastBound toBound at h
        rw [x] at h
        cases k : side a with
        | none => simp [k] at h
        | some b => cases b <;> simp [k] at h
      refine side_eq w side _ (by simp) d bg ?_ h
      intro i hi x
      have := (least_none w side (a :: l) w.largest ho).mpr ⟨i, hi, x⟩
      rw [h] at this; cases this
  have hl := one w.left (fun i hi b hb => big i hi b (Or.inl hb))
  have hr := one w.right (fun i hi b hb => big i hi b (Or.inr hb))
  refine ⟨hl, hr, ?_⟩
  intro d h
  unfold toLaneBound at h
  cases x : toLeft w ids with
  | none => rw [x] at h; cases h
  | some l =>
    cases y : toRight w ids with
    | none => rw [x, y] at h; cases h
    | some r =>
      rw [x, y] at h
      simp only [Option.bind_some, Option.map_some, Option.some.injEq] at h
      obtain ⟨⟨i, hi, s, hs, b, hb, e⟩, ml⟩ := hl l x
      obtain ⟨⟨j, hj, t, ht, c, hc, f⟩, mr⟩ := hr r y
      rw [List.mem_singleton] at hs ht
      subst hs ht h
      constructor
      · rcases le_total l r with z | z
        · exact ⟨i, hi, w.left, by simp, b, hb, by rw [min_eq_left z, e]⟩
        · exact ⟨j, hj, w.right, by simp, c, hc, by rw [min_eq_right z, f]⟩
      · intro k hk u hu v hv
        simp only [List.mem_cons, List.not_mem_nil, or_false] at hu
        rcases hu with hu | hu <;> subst hu
        · exact le_trans (min_le_left _ _) (ml k hk w.left (by simp) v hv)
        · exact le_trans (min_le_right _ _) (mr k hk w.right (by simp) v hv)

/-- C253: these distances are errors exactly if there are no lanelets, or one of them is not in the map or has no bound on the side in
question. -/
theorem C253_error (w : Sides K P) (ids : List Id) (h : w.outline ≠ []) :
    (toLeft w ids = none ↔ ids = [] ∨ ∃ id ∈ ids, Broken w.left id) ∧ (toRight w ids = none ↔ ids = [] ∨ ∃ id ∈ ids, Broken w.right id) ∧
    (toLaneBound w ids = none ↔ ids = [] ∨ ∃ id ∈ ids, Broken w.left id ∨ Broken w.right id) := by
  have hl : toLeft w ids = none ↔ ids = [] ∨ ∃ id ∈ ids, Broken w.left id := by
    unfold toLeft
    cases ids with
    | nil => simp
    | cons a l => simp only [List.isEmpty_cons, Bool.false_eq_true, if_false, least_none w w.left _ _ h]; simp
  have hr : toRight w ids = none ↔ ids = [] ∨ ∃ id ∈ ids, Broken w.right id := by
    unfold toRight
    cases ids with
    | nil => simp
    | cons a l => simp only [List.isEmpty_cons, Bool.false_eq_true, if_false, least_none w w.right _ _ h]; simp
  refine ⟨hl, hr, ?_⟩
  have : toLaneBound w ids = none ↔ toLeft w ids = none ∨ toRight w ids = none := by
    unfold toLaneBound
    cases toLeft w ids <;> cases toRight w ids <;> simp
  rw [this, hl, hr]
  constructor
  · rintro ((x | ⟨i, hi, x⟩) | (x | ⟨i, hi, x⟩))
    · exact Or.inl x
    · exact Or.inr ⟨i, hi, Or.inl x⟩
    · exact Or.inl x
    · exact Or.inr ⟨i, hi, Or.inr x⟩
  · rintro (x | ⟨i, hi, x | x⟩)
    · exact Or.inl (Or.inl x)
    · exact Or.inl (Or.inr ⟨i, hi, x⟩)
    · exact Or.inr (Or.inr ⟨i, hi, x⟩)

/-- Lanelets 1 and 2 on a line, on which distances are differences. -/
def exSides : Sides Nat Nat :=
  ⟨fun i => if i = 1 then some [10] else if i = 2 then some [13] else none, fun i => if i = 1 then some [16] else if i = 2 then some [19] else none, [15],
    fun a b => (a.headD 0 - b.headD 0) + (b.headD 0 - a.headD 0), 1000⟩

example : toLeft exSides [1, 2] = some 2 ∧ toRight exSides [2, 1] = some 1 ∧ toLaneBound exSides [1, 2] = some 1 ∧ toLeft exSides [3] = none ∧
    exSides.outline ≠ [] := by decide +kernel

example : ∀ id ∈ [1, 2], ∀ b, exSides.left id = some b ∨ exSides.right id = some b → exSides.distance b exSides.outline ≤ exSides.largest := by
  intro id hid b hb
  simp only [List.mem_cons, List.not_mem_nil, or_false] at hid
  rcases hid with rfl | rfl <;> rcases hb with hb | hb <;> (simp [exSides] at hb; subst hb; decide)

end Verif.Spawn
