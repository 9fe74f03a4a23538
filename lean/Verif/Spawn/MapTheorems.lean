import Verif.Spawn.Spec
/-
C252: stop lines, crosswalks and rights of way along a route.
-/
namespace Verif.Spawn

theorem get_some {m : List Lane} {id : Id} {l : Lane} (h : get m id = some l) : Is m id l :=
  ⟨List.mem_of_find?_eq_some h, by simpa using List.find?_some h⟩

theorem get_none {m : List Lane} {id : Id} : get m id = none ↔ ¬ ∃ l, Is m id l := by
  simp [get, Is, List.find?_eq_none]

/-- In a map ids are unique. -/
theorem get_is {m : List Lane} (u : (m.map (·.id)).Nodup) {id : Id} {l : Lane} (h : Is m id l) : get m id = some l := by
  induction m with
  | nil => cases h.1
  | cons a m ih =>
    unfold get
    rw [List.find?_cons]
    rw [List.map_cons, List.nodup_cons] at u
    obtain ⟨h1, h2⟩ := h
    rcases List.mem_cons.mp h1 with e | e
    · subst e; simp [h2]
    · have : ¬ a.id = id := by
        intro x
        exact u.1 (List.mem_map.mpr ⟨l, e, by rw [h2, x]⟩)
      simp only [this, decide_false]
      exact ih u.2 ⟨e, h2⟩

theorem fold_lines (l : List Sign) (r : List Id) :
    l.foldl (fun r s => if s.type = "stop_sign" then r ++ s.lines else r) r = r ++ (l.filter (·.type = "stop_sign")).flatMap (·.lines) := by
  induction l generalizing r with
  | nil => simp
  | cons s l ih =>
    rw [List.foldl_cons, ih]
    by_cases h : s.type = "stop_sign"
    · simp [h]
    · simp [h]

theorem signs_some (m : List Lane) (ids : List Id) (l : List Sign) (h : signsOnPath m ids = some l) :
    ∃ ls, List.Forall₂ (Is m) ids ls ∧ l = ls.flatMap (·.signs) := by
  induction ids generalizing l with
  | nil => simp [signsOnPath] at h; exact ⟨[], .nil, by simp [← h]⟩
  | cons id ids ih =>
    unfold signsOnPath at h
    split at h
    · cases h
    · next a ha =>
      cases k : signsOnPath m ids with
      | none => rw [k] at h; cases h
      | some r =>
        rw [k] at h
        obtain ⟨ls, f, e⟩ := ih r k
        simp only [Option.map_some, Option.some.injEq] at h
        exact ⟨a :: ls, .cons (get_some ha) f, by simp [← h, e]⟩

theorem signs_none (m : List Lane) (ids : List Id) : signsOnPath m ids = none ↔ ∃ id ∈ ids, ¬ ∃ l, Is m id l := by
  induction ids with
  | nil => simp [signsOnPath]
  | cons id ids ih =>
    unfold signsOnPath
    cases h : get m id with
    | none =>
      have hn : ∀ x, ¬ Is m id x := fun x hx => get_none.mp h ⟨x, hx⟩
      simp
      exact Or.inl hn
    | some a =>
      have : ∃ l, Is m id l := ⟨a, get_some h⟩
      simp only [Option.map_eq_none_iff, ih, List.mem_cons]
      constructor
      · rintro ⟨i, hi, x⟩; exact ⟨i, Or.inr hi, x⟩
      · rintro ⟨i, hi | hi, x⟩
        · subst hi; exact absurd this x
        · exact ⟨i, hi, x⟩

/-- C252: the stop lines along a route are the lines of the stop signs of its lanelets, in the order of the route, and no others. A lanelet
that is not in the map is an error, and nothing else is. -/
theorem C252_path (m : List Lane) (ids : List Id) :
    (∀ r, stopLineIdsOnPath m ids = some r → ∃ ls, List.Forall₂ (Is m) ids ls ∧
      r = ((ls.flatMap (·.signs)).filter (·.type = "stop_sign")).flatMap (·.lines)) ∧
    (stopLineIdsOnPath m ids = none ↔ ∃ id ∈ ids, ¬ ∃ l, Is m id l) := by
  constructor
  · intro r h
    unfold stopLineIdsOnPath at h
    cases k : signsOnPath m ids with
    | none => rw [k] at h; cases h
    | some l =>
      rw [k] at h
      obtain ⟨ls, f, e⟩ := signs_some m ids l k
      simp only [Option.map_some, Option.some.injEq, fold_lines, List.nil_append] at h
      exact ⟨ls, f, by rw [← h, e]⟩
  · unfold stopLineIdsOnPath
    rw [Option.map_eq_none_iff, signs_none]

/-- C252: the stop lines of a map are those of all its lanelets: a line is one of them exactly if it is a line of a stop sign of a lanelet. -/
theorem C252_all (m : List Lane) (u : (m.map (·.id)).Nodup) :
    ∃ r, stopLineIds m = some r ∧ ∀ i, i ∈ r ↔ ∃ l ∈ m, ∃ s ∈ l.signs, s.type = "stop_sign" ∧ i ∈ s.lines := by
  have e : stopLineIds m = stopLineIdsOnPath m (m.map (·.id)) := rfl
  cases h : stopLineIdsOnPath m (m.map (·.id)) with
  | none =>
    obtain ⟨id, hid, x⟩ := (C252_path m _).2.mp h
    obtain ⟨l, hl, k⟩ := List.mem_map.mp hid
    exact absurd ⟨l, hl, k⟩ x
  | some r =>
    refine ⟨r, by rw [e, h], ?_⟩
    obtain ⟨ls, f, er⟩ := (C252_path m _).1 r h
    have : ls = m := by
      have : ∀ (n : List Lane) (ls : List Lane), (∀ x ∈ n, x ∈ m) → List.Forall₂ (Is m) (n.map (·.id)) ls → ls = n := by
        intro n
        induction n with
        | nil => intro ls _ f; cases f; rfl
        | cons a n ih =>
          intro ls hm f
          cases f with
          | cons p q =>
            rw [ih _ (fun x hx => hm x (List.mem_cons_of_mem _ hx)) q]
            have p1 := get_is u p
            have p2 := get_is u (⟨hm a List.mem_cons_self, rfl⟩ : Is m a.id a)
            rw [p1] at p2
            rw [Option.some.inj p2]
      exact this m ls (fun _ h => h) f
    subst this
    intro i
    rw [er]
    simp only [List.mem_flatMap, List.mem_filter, decide_eq_true_eq]
    constructor
    · rintro ⟨s, ⟨⟨l, hl, hs⟩, t⟩, hi⟩; exact ⟨l, hl, s, hs, t, hi⟩
    · rintro ⟨l, hl, s, hs, t, hi⟩; exact ⟨s, ⟨⟨l, hl, hs⟩, t⟩, hi⟩

theorem mapM_get (m : List Lane) (ids : List Id) :
    (∀ ls, ids.mapM (get m) = some ls → List.Forall₂ (Is m) ids ls) ∧ (ids.mapM (get m) = none ↔ ∃ id ∈ ids, ¬ ∃ l, Is m id l) := by
  induction ids with
  | nil => simp
  | cons id ids ih =>
    rw [List.mapM_cons]
    cases h : get m id with
    | none =>
      have hn : ∀ x, ¬ Is m id x := fun x hx => get_none.mp h ⟨x, hx⟩
      simp
      exact Or.inl hn
    | some a =>
      have ha : ∃ l, Is m id l := ⟨a, get_some h⟩
      cases k : ids.mapM (get m) with
      | none =>
        obtain ⟨i, hi, x⟩ := ih.2.mp k
        simp only [Option.bind_eq_bind, Option.bind_some, Option.bind_none, reduceCtorEq, false_implies, implies_true, true_and, true_iff]
        exact ⟨i, List.mem_cons_of_mem _ hi, x⟩
      | some ls =>
        constructor
        · intro r e
          simp at e
          subst e
          exact .cons (get_some h) (ih.1 ls k)
        · simp only [Option.bind_eq_bind, Option.bind_some]
          constructor
          · intro x; cases x
          · rintro ⟨i, hi, x⟩
            rcases List.mem_cons.mp hi with q | q
            · subst q; exact absurd ha x
            · have := ih.2.mpr ⟨i, q, x⟩
              rw [k] at this; cases this

/-- C252: of some lanelets those of a kind are found, in their order; an unknown lanelet is an error. -/
theorem C252_filter (m : List Lane) (ids : List Id) (kind : String) :
    (∀ r, filterIds m ids kind = some r → ∃ ls, List.Forall₂ (Is m) ids ls ∧ r = (ls.filter (·.subtype = some kind)).map (·.id)) ∧
    (filterIds m ids kind = none ↔ ∃ id ∈ ids, ¬ ∃ l, Is m id l) := by
  constructor
  · intro r h
    unfold filterIds at h
    cases k : ids.mapM (get m) with
    | none => rw [k] at h; cases h
    | some ls =>
      rw [k] at h
      simp only [Option.map_some, Option.some.injEq] at h
      exact ⟨ls, (mapM_get m ids).1 ls k, h.symm⟩
  · unfold filterIds
    rw [Option.map_eq_none_iff]
    exact (mapM_get m ids).2

theorem fold_rights (id : Id) (w : List (List Id)) (r : List Id) :
    w.foldl (fun r w => w.foldl (fun r i => if i ≠ id then r ++ [i] else r) r) r = r ++ w.flatten.filter (· ≠ id) := by
  have inner : ∀ (w r : List Id), w.foldl (fun r i => if i ≠ id then r ++ [i] else r) r = r ++ w.filter (· ≠ id) := by
    intro w
    induction w with
    | nil => simp
    | cons i w ih =>
      intro r
      rw [List.foldl_cons, ih]
      by_cases h : i = id <;> simp [h]
  induction w generalizing r with
  | nil => simp
  | cons a w ih =>
    rw [List.foldl_cons, ih, inner]
    simp

/-- C252: a lanelet has to give way to the lanelets of its rights of way other than itself. -/
theorem C252_right (m : List Lane) (u : (m.map (·.id)).Nodup) (id : Id) :
    (∀ l, Is m id l → ∃ r, rightOfWay m id = some r ∧ ∀ i, i ∈ r ↔ i ≠ id ∧ ∃ w ∈ l.rights, i ∈ w) ∧
    ((¬ ∃ l, Is m id l) → rightOfWay m id = none) := by
  constructor
  · intro l h
    refine ⟨l.rights.flatten.filter (· ≠ id), ?_, ?_⟩
    · unfold rightOfWay
      rw [get_is u h, Option.map_some, fold_rights, List.nil_append]
    · intro i
      simp only [List.mem_filter, List.mem_flatten, decide_eq_true_eq]
      exact and_comm
  · intro h
    unfold rightOfWay
    rw [get_none.mpr h]; rfl

/-- C252: asked about several lanelets the answer has each of them once, with the lanelets it has to give way to. -/
theorem C252_rights (m : List Lane) (ids : List Id) (r : List (Id × List Id)) (h : rightsOfWay m ids [] = some r) :
    (r.map (·.1)).Nodup ∧ (∀ id, id ∈ r.map (·.1) ↔ id ∈ ids) ∧ ∀ p ∈ r, rightOfWay m p.1 = some p.2 := by
  have key : ∀ (ids : List Id) (a r : List (Id × List Id)), rightsOfWay m ids a = some r → (a.map (·.1)).Nodup → (∀ p ∈ a, rightOfWay m p.1 = some p.2) →
      (r.map (·.1)).Nodup ∧ (∀ id, id ∈ r.map (·.1) ↔ id ∈ a.map (·.1) ∨ id ∈ ids) ∧ ∀ p ∈ r, rightOfWay m p.1 = some p.2 := by
    intro ids
    induction ids with
    | nil =>
      intro a r h n v
      simp only [rightsOfWay, Option.some.injEq] at h
      subst h
      exact ⟨n, by simp, v⟩
    | cons id ids ih =>
      intro a r h n v
      unfold rightsOfWay at h
      split at h
      · cases h
      · next w hw =>
        by_cases e : a.any (·.1 = id) = true
        · rw [if_pos e] at h
          obtain ⟨p, q, s⟩ := ih a r h n v
          refine ⟨p, fun i => ?_, s⟩
          rw [q]
          simp only [List.any_eq_true, decide_eq_true_eq] at e
          obtain ⟨x, hx, ex⟩ := e
          constructor
          · rintro (y | y)
            · exact Or.inl y
            · exact Or.inr (List.mem_cons_of_mem _ y)
          · rintro (y | y)
            · exact Or.inl y
            · rcases List.mem_cons.mp y with z | z
              · subst z; exact Or.inl (List.mem_map.mpr ⟨x, hx, ex⟩)
              · exact Or.inr z
        · rw [if_neg e] at h
          have nm : id ∉ a.map (·.1) := by
            intro z
            obtain ⟨x, hx, ex⟩ := List.mem_map.mp z
            exact e (List.any_eq_true.mpr ⟨x, hx, by simpa using ex⟩)
          obtain ⟨p, q, s⟩ := ih _ r h
            (by
              rw [List.map_append, List.map_cons, List.map_nil, List.nodup_append]
              refine ⟨n, by simp, ?_⟩
              intro x hx y hy
              rw [List.mem_singleton] at hy
              subst hy
              intro z; subst z; exact nm hx)
            (by
              intro x hx
              rcases List.mem_append.mp hx with y | y
              · exact v x y
              · rw [List.mem_singleton] at y; subst y; exact hw)
          refine ⟨p, fun i => ?_, s⟩
          rw [q]
          simp only [List.map_append, List.map_cons, List.map_nil, List.mem_append, List.mem_cons, List.not_mem_nil, or_false]
          exact or_assoc
  obtain ⟨p, q, s⟩ := key ids [] r h (by simp) (by simp)
  exact ⟨p, fun id => by simpa using q id, s⟩

/-- C252: what is in conflict with a route is what is in conflict with one of its lanelets, in the order of the route. -/
theorem C252_conflicts (m : List Lane) (conflicts : Id → List Id) (ids : List Id) :
    (∀ r, conflicting m conflicts ids [] = some r → r = ids.flatMap conflicts) ∧
    (conflicting m conflicts ids [] = none ↔ ∃ id ∈ ids, ¬ ∃ l, Is m id l) := by
  have fa : ∀ (l r : List Id), l.foldl (fun r i => r ++ [i]) r = r ++ l := by
    intro l
    induction l with
    | nil => simp
    | cons a l ih => intro r; rw [List.foldl_cons, ih]; simp
  have key : ∀ (ids a : List Id), (∀ r, conflicting m conflicts ids a = some r → r = a ++ ids.flatMap conflicts) ∧
      (conflicting m conflicts ids a = none ↔ ∃ id ∈ ids, ¬ ∃ l, Is m id l) := by
    intro ids
    induction ids with
    | nil => intro a; simp [conflicting]
    | cons id ids ih =>
      intro a
      unfold conflicting
      cases h : get m id with
      | none =>
        have hn : ∀ x, ¬ Is m id x := fun x hx => get_none.mp h ⟨x, hx⟩
        simp
        exact Or.inl hn
      | some l =>
        have hl := get_some h
        dsimp only
        rw [fa, hl.2]
        constructor
        · intro r k
          rw [(ih _).1 r k]; simp
        · rw [(ih _).2]
          constructor
          · rintro ⟨i, hi, x⟩; exact ⟨i, List.mem_cons_of_mem _ hi, x⟩
          · rintro ⟨i, hi, x⟩
            rcases List.mem_cons.mp hi with q | q
            · subst q; exact absurd ⟨l, hl⟩ x
            · exact ⟨i, q, x⟩
  have := key ids []
  simpa using this

/-- C252: another entity is in conflict with a route exactly if it is on a crosswalk or a lane in conflict with one of its lanelets. -/
theorem C252_any (m : List Lane) (crosswalks lanes : Id → List Id) (route others : List Id) :
    (∀ r, anyConflicting m crosswalks lanes route others = some r →
      (r = true ↔ ∃ o ∈ others, ∃ id ∈ route, o ∈ crosswalks id ∨ o ∈ lanes id)) ∧
    (anyConflicting m crosswalks lanes route others = none ↔ ∃ id ∈ route, ¬ ∃ l, Is m id l) := by
  obtain ⟨c1, c2⟩ := C252_conflicts m crosswalks route
  obtain ⟨l1, l2⟩ := C252_conflicts m lanes route
  unfold anyConflicting
  cases hc : conflicting m crosswalks route [] with
  | none => exact ⟨by simp, by simpa using c2.mp hc⟩
  | some c =>
    cases hl : conflicting m lanes route [] with
    | none => exact ⟨by simp, by simpa using l2.mp hl⟩
    | some l =>
      have h1 := c1 c hc
      have h2 := l1 l hl
      constructor
      · intro r hr
        simp only [Option.bind_some, Option.map_some, Option.some.injEq] at hr
        subst hr
        rw [List.any_eq_true]
        refine exists_congr fun o => and_congr_right fun _ => ?_
        have e : (if c.count o ≥ 1 then true else decide (l.count o ≥ 1)) = true ↔ o ∈ c ∨ o ∈ l := by
          split
          · rename_i h; simp [List.count_pos_iff.mp h]
          · rename_i h
            have : o ∉ c := fun x => h (List.count_pos_iff.mpr x)
            simp only [this, false_or, decide_eq_true_eq]
            exact List.count_pos_iff
        rw [e, h1, h2]
        simp only [List.mem_flatMap]
        constructor
        · rintro (⟨i, hi, x⟩ | ⟨i, hi, x⟩)
          · exact ⟨i, hi, Or.inl x⟩
          · exact ⟨i, hi, Or.inr x⟩
        · rintro ⟨i, hi, x | x⟩
          · exact Or.inl ⟨i, hi, x⟩
          · exact Or.inr ⟨i, hi, x⟩
      · rw [hc] at c2
        simp only [Option.bind_some, Option.map_some, reduceCtorEq, false_iff]
        exact fun x => by cases c2.mpr x

def exMap : List Lane :=
  [⟨1, some "road", [⟨"stop_sign", [100]⟩, ⟨"other", [101]⟩], [[1, 2], [3]]⟩, ⟨2, some "road", [⟨"stop_sign", [102, 103]⟩], []⟩, ⟨3, some "crosswalk", [], []⟩, ⟨4, none, [], []⟩]

example : (exMap.map (·.id)).Nodup ∧ stopLineIdsOnPath exMap [2, 1] = some [102, 103, 100] ∧ stopLineIdsOnPath exMap [9] = none ∧
    stopLineIds exMap = some [100, 102, 103] ∧ filterIds exMap [4, 3, 1] "crosswalk" = some [3] ∧ rightOfWay exMap 1 = some [2, 3] ∧
    rightsOfWay exMap [1, 2, 1] [] = some [(1, [2, 3]), (2, [])] ∧ conflicting exMap (fun i => [i + 10]) [1, 3] [] = some [11, 13] ∧
    anyConflicting exMap (fun i => [i + 10]) (fun i => [i + 20]) [1, 3] [5, 23] = some true ∧
    anyConflicting exMap (fun i => [i + 10]) (fun i => [i + 20]) [1, 3] [1, 22] = some false := by
  decide +kernel

end Verif.Spawn
