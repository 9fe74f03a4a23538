import Verif.Signal.Steps
/-
The predictions published on a phase change.
-/
namespace Verif.Signal
open Light
set_option linter.unusedSectionVars false

variable {T : Type} [Time T] {m : RoadMap} {prog : List (Decl T)}

/-- What a table says for an id. -/
def get (c : List (Id × List Text)) (id : Id) : List Text := ((c.find? (·.1 = id)).map (·.2)).getD []

theorem get_nil (id : Id) : get [] id = [] := rfl

theorem get_cons (j : Id) (l : List Text) (c : List (Id × List Text)) (id : Id) :
    get ((j, l) :: c) id = if j = id then l else get c id := by
  simp only [get, List.find?_cons]
  by_cases h : j = id <;> simp [h]

theorem get_insertState (i : Id) (s : Text) (c : List (Id × List Text)) (id : Id) :
    get (insertState i s c) id = if i = id then get c id ++ [s] else get c id := by
  induction c with
  | nil => simp only [insertState, get_cons, get_nil]; split <;> simp
  | cons x c ih =>
    obtain ⟨j, l⟩ := x
    simp only [insertState]
    by_cases h : j = i
    · subst h
      simp only [if_true, get_cons]
      split <;> simp
    · simp only [h, if_false, get_cons, ih]
      by_cases h2 : j = id
      · have : ¬ i = id := fun hc => h (h2.trans hc.symm)
        simp [h2, this]
      · simp [h2]

theorem get_overwrite (i : Id) (l : List Text) (c : List (Id × List Text)) (id : Id) :
    get (overwrite i l c) id = if i = id then l else get c id := by
  induction c with
  | nil => simp only [overwrite, get_cons, get_nil]
  | cons x c ih =>
    obtain ⟨j, k⟩ := x
    simp only [overwrite]
    by_cases h : j = i
    · subst h
      simp only [if_true, get_cons]
      split <;> simp
    · simp only [h, if_false, get_cons, ih]
      by_cases h2 : j = id
      · have : ¬ i = id := fun hc => h (h2.trans hc.symm)
        simp [h2, this]
      · simp [h2]

/-- One entry per id, none of them empty. -/
def WF : List (Id × List Text) → Prop
  | [] => True
  | (i, l) :: c => l ≠ [] ∧ (∀ k, (i, k) ∉ c) ∧ WF c

theorem WF.mem {c : List (Id × List Text)} (h : WF c) (i : Id) (l : List Text) :
    (i, l) ∈ c ↔ l = get c i ∧ l ≠ [] := by
  induction c with
  | nil => simp [get_nil]
  | cons x c ih =>
    obtain ⟨j, k⟩ := x
    obtain ⟨h1, h2, h3⟩ := h
    rw [get_cons, List.mem_cons, Prod.mk.injEq, ih h3]
    by_cases e : j = i
    · subst e
      simp only [true_and, if_true]
      constructor
      · rintro (rfl | ⟨h4, h5⟩)
        · exact ⟨rfl, h1⟩
        · exact absurd ((ih h3).2 ⟨h4, h5⟩) (h2 l)
      · rintro ⟨rfl, -⟩; exact Or.inl rfl
    · have : ¬ i = j := fun hc => e hc.symm
      simp [e, this]

theorem mem_insertState {i : Id} {s : Text} {c : List (Id × List Text)} {j : Id} {k : List Text}
    (hj : j ≠ i) : (j, k) ∈ insertState i s c ↔ (j, k) ∈ c := by
  induction c with
  | nil => simp [insertState, hj]
  | cons x c ih =>
    obtain ⟨a, l⟩ := x
    simp only [insertState]
    by_cases h : a = i
    · subst h; simp [hj]
    · simp [h, ih]

theorem mem_overwrite {i : Id} {s : List Text} {c : List (Id × List Text)} {j : Id} {k : List Text}
    (hj : j ≠ i) : (j, k) ∈ overwrite i s c ↔ (j, k) ∈ c := by
  induction c with
  | nil => simp [overwrite, hj]
  | cons x c ih =>
    obtain ⟨a, l⟩ := x
    simp only [overwrite]
    by_cases h : a = i
    · subst h; simp [hj]
    · simp [h, ih]

theorem WF.insertState {c : List (Id × List Text)} (h : WF c) (i : Id) (s : Text) :
    WF (insertState i s c) := by
  induction c with
  | nil => exact ⟨by simp, by simp, trivial⟩
  | cons x c ih =>
    obtain ⟨j, k⟩ := x
    obtain ⟨h1, h2, h3⟩ := h
    simp only [Signal.insertState]
    by_cases e : j = i
    · simp only [e, if_true]; exact ⟨by simp, e ▸ h2, h3⟩
    · simp only [e, if_false]
      exact ⟨h1, fun k => by rw [mem_insertState e]; exact h2 k, ih h3⟩

theorem WF.overwrite {c : List (Id × List Text)} (h : WF c) (i : Id) {l : List Text} (hl : l ≠ []) :
    WF (overwrite i l c) := by
  induction c with
  | nil => exact ⟨hl, by simp, trivial⟩
  | cons x c ih =>
    obtain ⟨j, k⟩ := x
    obtain ⟨h1, h2, h3⟩ := h
    simp only [Signal.overwrite]
    by_cases e : j = i
    · simp only [e, if_true]; exact ⟨hl, e ▸ h2, h3⟩
    · simp only [e, if_false]
      exact ⟨h1, fun k => by rw [mem_overwrite e]; exact h2 k, ih h3⟩

theorem foldl_insertState (ss : List SignalState) {c : List (Id × List Text)} (h : WF c) :
    WF (ss.foldl (fun acc s => insertState s.id s.state acc) c) ∧
    ∀ id, get (ss.foldl (fun acc s => insertState s.id s.state acc) c) id =
      get c id ++ (ss.filter (·.id = id)).map (·.state) := by
  induction ss generalizing c with
  | nil => exact ⟨h, by simp⟩
  | cons s ss ih =>
    obtain ⟨h1, h2⟩ := ih (h.insertState s.id s.state)
    refine ⟨h1, fun id => ?_⟩
    rw [List.foldl_cons, h2, get_insertState]
    by_cases e : s.id = id <;> simp [e]

theorem foldl_overwrite {xs : List (Id × List Text)} (hxs : WF xs) {c : List (Id × List Text)} (h : WF c) :
    WF (xs.foldl (fun c x => overwrite x.1 x.2 c) c) ∧
    ∀ id, get (xs.foldl (fun c x => overwrite x.1 x.2 c) c) id =
      if get xs id ≠ [] then get xs id else get c id := by
  induction xs generalizing c with
  | nil => exact ⟨h, fun id => by simp [get_nil]⟩
  | cons x xs ih =>
    obtain ⟨j, k⟩ := x
    obtain ⟨h1, h2, h3⟩ := hxs
    obtain ⟨h4, h5⟩ := ih h3 (h.overwrite j h1)
    refine ⟨h4, fun id => ?_⟩
    rw [List.foldl_cons, h5, get_overwrite, get_cons]
    by_cases e : j = id
    · subst e
      have : get xs j = [] := by
        by_cases hn : get xs j = []
        · exact hn
        · exact absurd ((h3.mem j _).2 ⟨rfl, hn⟩) (h2 _)
      simp [this, h1]
    · simp [e]

theorem collectStates_ok (enabled : Id → Bool) (p : Phase T) :
    WF (collectStates enabled p) ∧ ∀ id, get (collectStates enabled p) id = declared enabled p id := by
  obtain ⟨h1, h2⟩ := foldl_insertState (p.states.filter (·.channel = .v2i) ++ p.states.filter fun s =>
    s.channel = .conventional && !((p.states.filter (·.channel = .v2i)).any fun v => v.id = s.id) && enabled s.id)
    (c := []) trivial
  refine ⟨h1, fun id => ?_⟩
  refine (h2 id).trans ?_
  rw [get_nil, List.nil_append, List.filter_append, List.filter_filter, List.filter_filter]
  have e1 : p.states.filter (fun a => decide (a.id = id) && decide (a.channel = .v2i)) =
      p.states.filter fun s => decide (s.channel = .v2i ∧ s.id = id) := by
    congr 1; funext s; simp [Bool.and_comm]
  rw [e1]
  simp only [declared]
  by_cases hv : (p.states.filter fun s => decide (s.channel = .v2i ∧ s.id = id)) = []
  · rw [if_neg (by simpa using hv), hv, List.nil_append]
    have hno : ∀ s ∈ p.states, s.channel = .v2i → s.id ≠ id := by
      intro s hs h1 h2
      have : s ∈ p.states.filter fun s => decide (s.channel = .v2i ∧ s.id = id) := by simp [hs, h1, h2]
      rw [hv] at this; cases this
    have hany : (p.states.filter (·.channel = .v2i)).any (fun v => decide (v.id = id)) = false := by
      rw [List.any_eq_false]
      intro s hs
      simp only [List.mem_filter, decide_eq_true_eq] at hs ⊢
      exact hno s hs.1 hs.2
    have e2 : p.states.filter (fun a => decide (a.id = id) && (decide (a.channel = .conventional) &&
        !((p.states.filter (·.channel = .v2i)).any fun v => v.id = a.id) && enabled a.id)) =
        p.states.filter fun s => decide (s.channel = .conventional ∧ s.id = id) && enabled id := by
      congr 1; funext s
      by_cases h : s.id = id
      · rw [h]; simp [hany]
      · simp [h]
    rw [e2]
    cases enabled id <;> simp
  · rw [if_pos hv]
    have e2 : p.states.filter (fun a => decide (a.id = id) && (decide (a.channel = .conventional) &&
        !((p.states.filter (·.channel = .v2i)).any fun v => v.id = a.id) && enabled a.id)) = [] := by
      rw [List.filter_eq_nil_iff]
      intro s hs hc
      simp only [Bool.and_eq_true, decide_eq_true_eq, Bool.not_eq_true'] at hc
      obtain ⟨rfl, ⟨-, hc⟩, -⟩ := hc
      obtain ⟨v, hv⟩ := List.exists_mem_of_ne_nil _ hv
      simp only [List.mem_filter, decide_eq_true_eq] at hv
      rw [List.any_eq_false] at hc
      exact hc v (by simp [hv.1, hv.2.1]) (by simp [hv.2.2])
    rw [e2, List.append_nil]

theorem cycleTime_ok (phases : List (Phase T)) : ∀ c, cycleTime phases = some c →
    CycleTime (phases.map (·.duration)) c := by
  have rev : ∀ l : List (Phase T), ∀ c, cycleTime l.reverse = some c →
      CycleTime (l.reverse.map (·.duration)) c := by
    intro l
    induction l with
    | nil => intro c h; simp only [cycleTime, List.reverse_nil, List.foldlM_nil, pure, Option.some.injEq] at h; subst h; exact .nil
    | cons p l ih =>
      intro c h
      rw [List.reverse_cons] at h ⊢
      unfold cycleTime at h ih
      rw [List.foldlM_append] at h
      obtain ⟨c0, h0, h1⟩ := Option.bind_eq_some_iff.1 h
      rw [List.map_append]
      refine .snoc (ih c0 h0) ?_
      simp only [List.foldlM_cons, List.foldlM_nil] at h1
      obtain ⟨c1, h2, h3⟩ := Option.bind_eq_some_iff.1 h1
      cases h3
      exact h2
  intro c h
  have := rev phases.reverse c (by rwa [List.reverse_reverse])
  rwa [List.reverse_reverse] at this

theorem predictLoop_spec {phases : List (Phase T)} (hn : phases ≠ []) {enabled : Id → Bool} {dur : Nat → T}
    (hdur : ∀ q ph, phases[q]? = some ph → dur q = ph.duration) {p : Nat} {t : T}
    (left c : Nat) (hc : c + left = 6) {cur : List (Id × List Text)} (hw : WF cur)
    (hcur : ∀ id, get cur id = inEffect enabled phases p c id) {r : List (Id × Text × T)}
    (h : predictLoop phases enabled left (some (after phases.length p c)) (startOf phases.length dur p t c) cur = some r) :
    ∃ k, k ≤ left ∧ (k < left → Ends phases dur p t (c + k)) ∧
      ∀ id s u, (id, s, u) ∈ r ↔ ∃ j, c ≤ j ∧ j < c + k ∧ u = startOf phases.length dur p t j ∧
        s ∈ inEffect enabled phases p (j + 1) id := by
  have hlen : 0 < phases.length := List.length_pos_iff.2 hn
  induction left generalizing c cur r with
  | zero =>
    simp only [predictLoop, Option.some.injEq] at h
    subst h
    refine ⟨0, Nat.le_refl _, fun hc => absurd hc (Nat.lt_irrefl _), fun id s u => ?_⟩
    simp only [List.not_mem_nil, Nat.add_zero, false_iff]
    rintro ⟨j, h1, h2, -⟩; omega
  | succ left ih =>
    have hnx : circularNext phases.length (some (after phases.length p c)) =
        some (after phases.length p (c + 1)) := by
      rw [circularNext_eq (q := after phases.length p c) (Nat.mod_lt _ hlen)]
      simp [after, Nat.mod_add_mod, Nat.add_assoc]
    have hq : after phases.length p (c + 1) < phases.length := Nat.mod_lt _ hlen
    have hp : phases[after phases.length p (c + 1)]? = some phases[after phases.length p (c + 1)] :=
      List.getElem?_eq_getElem hq
    generalize hph : phases[after phases.length p (c + 1)] = ph at hp
    have hd := hdur _ _ hp
    simp only [predictLoop, hnx, Option.bind_some, hp] at h
    have stop : ∀ r : List (Id × Text × T), some [] = some r → Ends phases dur p t c →
        ∃ k, k ≤ left + 1 ∧ (k < left + 1 → Ends phases dur p t (c + k)) ∧
        ∀ id s u, (id, s, u) ∈ r ↔ ∃ j, c ≤ j ∧ j < c + k ∧ u = startOf phases.length dur p t j ∧
          s ∈ inEffect enabled phases p (j + 1) id := by
      rintro r he hE
      cases he
      refine ⟨0, by omega, fun _ => hE, fun id s u => ?_⟩
      simp only [List.not_mem_nil, Nat.add_zero, false_iff]
      rintro ⟨j, h1, h2, -⟩; omega
    split at h
    · rename_i hinf
      rw [Bool.or_eq_true] at hinf
      refine stop r h ?_
      rcases hinf with hinf | hinf
      · exact Or.inl hinf
      · exact Or.inr (Or.inl (by rw [hd]; exact hinf))
    · obtain ⟨w1, w2⟩ := collectStates_ok enabled ph
      obtain ⟨w3, w4⟩ := foldl_overwrite w1 hw
      have hcur' : ∀ id, get ((collectStates enabled ph).foldl (fun c x => overwrite x.1 x.2 c) cur) id =
          inEffect enabled phases p (c + 1) id := by
        intro id
        rw [w4, w2, hcur]
        simp only [inEffect, hp]
      have go : ∀ r, ((predictLoop phases enabled left (some (after phases.length p (c + 1)))
            (Time.add (startOf phases.length dur p t c) ph.duration)
            ((collectStates enabled ph).foldl (fun c x => overwrite x.1 x.2 c) cur)).map fun rest =>
          (((collectStates enabled ph).foldl (fun c x => overwrite x.1 x.2 c) cur).flatMap fun x =>
            x.2.map fun s => (x.1, s, startOf phases.length dur p t c)) ++ rest) = some r →
          ∃ k, k ≤ left + 1 ∧ (k < left + 1 → Ends phases dur p t (c + k)) ∧
          ∀ id s u, (id, s, u) ∈ r ↔ ∃ j, c ≤ j ∧ j < c + k ∧ u = startOf phases.length dur p t j ∧
            s ∈ inEffect enabled phases p (j + 1) id := by
        intro r hr
        rw [Option.map_eq_some_iff] at hr
        obtain ⟨rest, h1, rfl⟩ := hr
        rw [← hd] at h1
        obtain ⟨k, hk1, hk2, hk3⟩ := ih (c + 1) (by omega) w3 hcur' h1
        refine ⟨k + 1, by omega, fun hlt => ?_, fun id s u => ?_⟩
        · have := hk2 (by omega); rw [show c + (k + 1) = c + 1 + k by omega]; exact this
        · rw [List.mem_append, hk3]
          have hb : (id, s, u) ∈ (((collectStates enabled ph).foldl (fun c x => overwrite x.1 x.2 c) cur).flatMap fun x =>
              x.2.map fun s => (x.1, s, startOf phases.length dur p t c)) ↔
              u = startOf phases.length dur p t c ∧ s ∈ inEffect enabled phases p (c + 1) id := by
            rw [List.mem_flatMap]
            constructor
            · rintro ⟨⟨i, l⟩, hm, hs⟩
              rw [w3.mem, hcur'] at hm
              simp only [List.mem_map, Prod.mk.injEq] at hs
              obtain ⟨s', hs', rfl, rfl, rfl⟩ := hs
              exact ⟨rfl, hm.1 ▸ hs'⟩
            · rintro ⟨rfl, hs⟩
              refine ⟨(id, inEffect enabled phases p (c + 1) id), ?_, List.mem_map.2 ⟨s, hs, rfl⟩⟩
              rw [w3.mem, hcur']
              exact ⟨rfl, List.ne_nil_of_mem hs⟩
          rw [hb]
          constructor
          · rintro (⟨h1, h2⟩ | ⟨j, h1, h2, h3, h4⟩)
            · exact ⟨c, Nat.le_refl _, by omega, h1, h2⟩
            · exact ⟨j, by omega, by omega, h3, h4⟩
          · rintro ⟨j, h1, h2, h3, h4⟩
            by_cases e : j = c
            · subst e; exact Or.inl ⟨h3, h4⟩
            · exact Or.inr ⟨j, by omega, by omega, h3, h4⟩
      split at h
      · rename_i h6
        have hc0 : c = 0 := by omega
        subst hc0
        cases hcy : cycleTime phases with
        | none => rw [hcy] at h; cases h
        | some cy =>
          rw [hcy] at h
          dsimp only at h
          split at h
          · rename_i hlt
            exact stop r h (Or.inr (Or.inr ⟨rfl, cy, cycleTime_ok phases cy hcy, hlt⟩))
          · exact go r h
      · exact go r h

end Verif.Signal
