import Verif.Lanelet.Lemmas
/-
C60: canonical poses. C61: moving along the road. C62: lanelets ahead and behind. C63: alternative poses.
-/
namespace Verif.Lanelet

/-! ### C60 -/

/-- C60. A canonical pose lies on its lanelet and is the same place; a pose which lies on its lanelet is left as it is.
If there is none, the road ends before the place. -/
theorem C60_canonical (r : Road) (p : Pose) :
    (∀ q, canonicalize r p = some (.pose q) → Same r p q ∧ OnLanelet r q ∧ (OnLanelet r p → q = p)) ∧
    (∀ i, canonicalize r p = some (.endOfRoad i) → ∃ s, Same r p ⟨i, s⟩ ∧ OffRoad r ⟨i, s⟩) := by
  unfold canonicalize
  cases hb : backward r p with
  | none => exact ⟨fun q h => by simp at h, fun i h => by simp at h⟩
  | some x =>
    obtain ⟨h1, h2⟩ := backward_spec r p x hb
    cases x with
    | endOfRoad j =>
      obtain ⟨s, a, b, c⟩ := h2 j rfl
      refine ⟨fun q h => by simp at h, fun i h => ?_⟩
      simp only [Option.some.injEq, Canonical.endOfRoad.injEq] at h
      subst h
      exact ⟨s, a, .inl ⟨b, c⟩⟩
    | pose m =>
      obtain ⟨a, b, c, _⟩ := h1 m rfl
      refine ⟨fun q h => ?_, fun i h => ?_⟩
      · obtain ⟨a', b', c'⟩ := (forward_spec r m _ h b).1 q rfl
        refine ⟨a.trans a', b', fun ho => ?_⟩
        obtain rfl := c ho.1
        exact c' ho.2
      · obtain ⟨s, a', b', c'⟩ := (forward_spec r m _ h b).2 i rfl
        exact ⟨s, a.trans a', .inr ⟨b', c'⟩⟩

/-- C60: the computation ends on every road whose lanelets have positive lengths. -/
theorem C60_terminates (r : Road) (hr : Positive r) (p : Pose) : ∃ x, canonicalize r p = some x := by
  unfold canonicalize
  obtain ⟨x, hx⟩ := backward_ends hr p
  rw [hx]
  cases x with
  | pose q => exact forward_ends hr q
  | endOfRoad i => exact ⟨_, rfl⟩

/-- C60: canonicalizing twice is the same as once. -/
theorem C60_idempotent (r : Road) (hr : Positive r) (p q : Pose) (h : canonicalize r p = some (.pose q)) :
    canonicalize r q = some (.pose q) := by
  have hq := ((C60_canonical r p).1 q h).2.1
  obtain ⟨x, hx⟩ := C60_terminates r hr q
  cases x with
  | pose q' => rw [hx, ((C60_canonical r q).1 q' hx).2.2 hq]
  | endOfRoad i =>
    exfalso
    unfold canonicalize at hx
    rw [backward.eq_def, if_neg (not_lt.mpr hq.1)] at hx
    simp only at hx
    rw [forward.eq_def, if_neg (not_lt.mpr hq.2)] at hx
    cases hx

/-- C60 with a route: if no lanelet has two successors in the route, the canonical pose is the same place, on a lanelet of
the route. Missing: other routes, see below. -/
theorem C60_route_partial (r : Road) (route : List Id) (hu : Unambiguous r route) (p q : Pose)
    (h : canonicalizeRoute r route p = some (.pose q)) :
    Same r p q ∧ OnLanelet r q ∧ (OnLanelet r p → q = p) ∧ (0 ≤ p.s → q.id = p.id ∨ q.id ∈ route) := by
  unfold canonicalizeRoute at h
  split at h
  · next hs =>
    obtain ⟨a, b, c⟩ := (C60_canonical r p).1 q h
    exact ⟨a, b, c, fun h0 => absurd hs (not_lt.mpr h0)⟩
  · next hs =>
    obtain ⟨a, b, c, d⟩ := (forwardRoute_spec r route hu p _ h (not_lt.mp hs)).1 q rfl
    exact ⟨a, b, fun ho => c ho.2, fun _ => d⟩

/-- A ring road 0 → 1 → 0 with a branch 0 → 2; every lanelet is ten metres long. -/
def branch : Road where
  length _ := 10
  next i := if i = 0 then [1, 2] else if i = 1 then [0] else []
  prev i := if i = 0 then [1] else if i = 1 ∨ i = 2 then [0] else []
  straight i := i = 1

example : Positive branch := ⟨10, by decide +kernel, fun _ => le_refl _⟩
example : Unambiguous branch [0, 2] := by
  intro id
  by_cases h0 : id = 0
  · subst h0; decide
  · by_cases h1 : id = 1
    · subst h1; decide
    · simp [branch, h0, h1]

theorem branch_canonical : canonicalize branch ⟨0, 25⟩ = some (.pose ⟨0, 5⟩) := by
  unfold canonicalize
  rw [backward.eq_def, if_neg (by decide +kernel)]
  simp only
  rw [forward.eq_def, if_pos (by decide +kernel)]
  simp only [branch, if_true]
  rw [forward.eq_def, if_pos (by decide +kernel)]
  simp only [if_true, if_neg (show ¬ (1 : Nat) = 0 by decide)]
  rw [forward.eq_def, if_neg (by decide +kernel)]
  decide +kernel

/-- C60 is false for a route that uses two successors of the same lanelet: a pose one metre beyond the fork is moved
to nine metres before the beginning of the second branch. -/
theorem C60_route_violated : canonicalizeRoute branch [0, 1, 0, 2] ⟨0, 11⟩ = some (.pose ⟨2, -9⟩) := by
  unfold canonicalizeRoute
  rw [if_neg (by decide +kernel), forwardRoute.eq_def, if_pos (by decide +kernel)]
  have e : intoRoute branch [0, 1, 0, 2] (branch.next 0) (false, ⟨0, 11⟩) = (true, ⟨2, -9⟩) := by decide +kernel
  simp only [e]
  rw [forwardRoute.eq_def, if_neg (by decide +kernel)]

/-! ### C61 -/

/-- C61. Moving along the road by a distance leads to the place that far from the pose, on its lanelet; the exception is
thrown only if the road ends before. -/
theorem C61_along (r : Road) (hr : ∀ i, 0 ≤ r.length i) (p : Pose) (d : Rat) :
    (∀ q, along r p d = some (.pose q) → Same r ⟨p.id, p.s + d⟩ q ∧ 0 ≤ q.s ∧ q.s < r.length q.id) ∧
    (along r p d = some .error → ∃ i s, Same r ⟨p.id, p.s + d⟩ ⟨i, s⟩ ∧
      ((s < 0 ∧ r.prev i = []) ∨ (r.length i ≤ s ∧ r.next i = []))) := by
  unfold along
  split
  · next h0 =>
    refine ⟨fun q h => (alongForward_spec r _ _ h h0).1 q rfl, fun h => ?_⟩
    obtain ⟨i, s, a, b⟩ := (alongForward_spec r _ _ h h0).2 rfl
    exact ⟨i, s, a, .inr b⟩
  · next h0 =>
    have hlt : p.s + d < r.length p.id := lt_of_lt_of_le (not_le.mp h0) (hr p.id)
    refine ⟨fun q h => (alongBackward_spec r _ _ h hlt).1 q rfl, fun h => ?_⟩
    obtain ⟨i, s, a, b⟩ := (alongBackward_spec r _ _ h hlt).2 rfl
    exact ⟨i, s, a, .inl b⟩

theorem C61_terminates (r : Road) (hr : Positive r) (p : Pose) (d : Rat) : ∃ x, along r p d = some x := by
  unfold along
  split
  · exact alongForward_ends hr _
  · exact alongBackward_ends hr _

/-- C61: movement along a route always ends on a lanelet, at the place reached or at the end of the road, if no
lanelet has two successors in the route. Missing: other routes. -/
theorem C61_route_partial (r : Road) (hr : Positive r) (route : List Id) (hu : Unambiguous r route) (p : Pose) (d : Rat) :
    ∃ q, alongRoute r route p d = some q ∧ OnLanelet r q ∧
      (Same r ⟨p.id, p.s + d⟩ q ∨
       ∃ s, Same r ⟨p.id, p.s + d⟩ ⟨q.id, s⟩ ∧ ((s < 0 ∧ q.s = 0 ∧ r.prev q.id = []) ∨
         (r.length q.id < s ∧ q.s = r.length q.id ∧ ∀ j ∈ r.next q.id, 0 ≤ p.s + d → j ∉ route))) := by
  have hnn : ∀ i, 0 ≤ r.length i := by
    obtain ⟨e, he, hl⟩ := hr
    exact fun i => he.le.trans (hl i)
  unfold alongRoute canonicalizeRoute
  by_cases h0 : p.s + d < 0
  · rw [if_pos h0]
    obtain ⟨x, hx⟩ := C60_terminates r hr ⟨p.id, p.s + d⟩
    rw [hx]
    cases x with
    | pose q =>
      obtain ⟨a, b, _⟩ := (C60_canonical r _).1 q hx
      exact ⟨q, rfl, b, .inl a⟩
    | endOfRoad i =>
      simp only [if_pos h0.le]
      refine ⟨_, rfl, ⟨le_refl _, hnn i⟩, .inr ?_⟩
      unfold canonicalize at hx
      obtain ⟨y, hy⟩ := backward_ends hr ⟨p.id, p.s + d⟩
      rw [hy] at hx
      cases y with
      | endOfRoad j =>
        simp only [Option.some.injEq, Canonical.endOfRoad.injEq] at hx
        subst hx
        obtain ⟨s, a, b, c⟩ := (backward_spec r _ _ hy).2 j rfl
        exact ⟨s, a, .inl ⟨b, rfl, c⟩⟩
      | pose m =>
        exfalso
        obtain ⟨_, b, _, c⟩ := (backward_spec r _ _ hy).1 m rfl
        simp only at hx
        rw [forward.eq_def, if_neg (not_lt.mpr (c h0).le)] at hx
        cases hx
  · rw [if_neg h0]
    have h0' := not_lt.mp h0
    obtain ⟨x, hx⟩ := forwardRoute_ends hr route ⟨p.id, p.s + d⟩
    rw [hx]
    obtain ⟨h1, h2⟩ := forwardRoute_spec r route hu _ _ hx h0'
    cases x with
    | pose q =>
      obtain ⟨a, b, _⟩ := h1 q rfl
      exact ⟨q, rfl, b, .inl a⟩
    | endOfRoad i =>
      obtain ⟨s, a, b, c, _⟩ := h2 i rfl
      have hpos : 0 < p.s + d := by
        rcases h0'.lt_or_eq with h | h
        · exact h
        · exfalso
          rw [forwardRoute.eq_def, if_neg (by simp only; rw [← h]; exact not_lt.mpr (hnn p.id))] at hx
          cases hx
      simp only [if_neg (not_le.mpr hpos)]
      exact ⟨_, rfl, ⟨hnn i, le_refl _⟩, .inr ⟨s, a, .inr ⟨b, rfl, fun j hj _ => c j hj⟩⟩⟩

example : ∃ x, along branch ⟨0, 5⟩ 20 = some x := C61_terminates branch ⟨10, by decide +kernel, fun _ => le_refl _⟩ _ _

/-! ### C62 -/

/-- C62. The lanelets ahead begin with the given one, each is a successor of the one before, a straight one if there is any, and together (without the
first) they cover the distance, with none in excess, unless the road ends. -/
theorem C62_following (r : Road) (id : Id) (d : Rat) (self : Bool) (l : List Id) (h : following r id d self = some l) :
    ∃ t, l = (if self then [id] else []) ++ t ∧ Linked (fun i => preferred r (r.next i)) (id :: t) ∧
      (d ≤ total r t ∨ r.next ((id :: t).getLast?.getD id) = []) ∧ (∀ t' i, t = t' ++ [i] → total r t' < d) :=
  followLoop_spec r d id id 0 _ l h [] _ (by simp) rfl rfl trivial (by simp)

/-- C62. The lanelets behind, likewise. -/
theorem C62_previous (r : Road) (id : Id) (d : Rat) (l : List Id) (h : previous r id d = some l) :
    ∃ t, l = id :: t ∧ Linked (fun i => preferred r (r.prev i)) (id :: t) ∧
      (d ≤ total r t ∨ r.prev ((id :: t).getLast?.getD id) = []) ∧ (∀ t' i, t = t' ++ [i] → total r t' < d) :=
  previousLoop_spec r d id id 0 _ l h [] rfl rfl rfl trivial (by simp)

theorem C62_terminates (r : Road) (hr : Positive r) (id : Id) (d : Rat) (self : Bool) :
    (∃ l, following r id d self = some l) ∧ (∃ l, previous r id d = some l) :=
  ⟨followLoop_ends hr _ _ _ _, previousLoop_ends hr _ _ _ _⟩

/-- C62. Following a route: the lanelets begin with the given one and are those that come after it in the route; beyond
the end of the route the road is followed until the horizon is covered or the road ends; without the last of them the horizon
is not exceeded. -/
theorem C62_route (r : Road) (id : Id) (route : List Id) (horizon : Rat) (h0 : 0 ≤ horizon) (l : List Id) (self : Bool) (hne : route ≠ [])
    (h : followingRoute r id route horizon self = some (.list l)) :
    ∃ a b t, route = a ++ id :: b ∧ id ∉ a ∧ l = (if self then [id] else []) ++ t ∧ Linked r.next (id :: t) ∧
      (t <+: b ∨ b <+: t) ∧ (horizon ≤ total r t ∨ r.next ((id :: t).getLast?.getD id) = []) ∧
      (∀ t' i, t = t' ++ [i] → total r t' ≤ horizon) := by
  unfold followingRoute at h
  cases hl : route.getLast? with
  | none => exact absurd (by simpa using hl) hne
  | some last =>
    rw [hl] at h
    simp only at h
    rcases routeLoop_false r id horizon self route with ⟨_, h2⟩ | ⟨a, b, h1, h2, h3⟩
    · rw [h2] at h; simp at h
    · rw [h3] at h
      cases hx : routeLoop r id horizon self b true 0 (if self then [id] else []) with
      | none => rw [hx] at h; simp at h
      | some y =>
        obtain ⟨t', acc'⟩ := y
        rw [hx] at h
        simp only at h
        obtain ⟨m, e1, e2, e3, e4, e5, e6⟩ := routeLoop_true r id horizon self _ rfl b [] t' acc' (by simpa [total] using hx) trivial
          (by simpa [total] using h0)
        simp only [List.nil_append] at e1 e2 e3 e6
        split at h
        · cases h
        · split at h
          · next hle =>
            have hm : m = b := by
              rcases e5 with e5 | e5
              · exact absurd hle (not_le.mpr e5)
              · exact e5
            subst hm
            cases hf : following r last (horizon - t') false with
            | none => rw [hf] at h; cases h
            | some n =>
              rw [hf] at h
              simp only [Option.map_some, Option.some.injEq, Lanelets.list.injEq] at h
              obtain ⟨t, f1, f2, f3, f4⟩ := C62_following r last _ false n hf
              simp only [Bool.false_eq_true, if_false, List.nil_append] at f1
              subst f1
              have hlast : ∃ k, id :: m = k ++ [last] := by
                rw [h1] at hl
                rcases List.eq_nil_or_concat' (id :: m) with e | ⟨k, z, e⟩
                · cases e
                · rw [e, ← List.append_assoc, List.getLast?_concat] at hl
                  exact ⟨k, by rw [e, Option.some.inj hl]⟩
              obtain ⟨k, hk⟩ := hlast
              have hg : ((id :: (m ++ n)).getLast?.getD id) = ((last :: n).getLast?.getD last) := by
                rw [← List.cons_append, hk]
                cases n with
                | nil => simp
                | cons z n =>
                  rcases List.eq_nil_or_concat' (z :: n) with e | ⟨u, w, e⟩
                  · cases e
                  · rw [e]
                    rw [← List.append_assoc, List.getLast?_concat, ← List.cons_append, List.getLast?_concat]
                    rfl
              refine ⟨a, m, m ++ n, h1, h2, by rw [← h, e1]; simp, ?_, .inr (by simp), ?_, ?_⟩
              · rw [← List.cons_append, hk]
                exact Linked.append (hk ▸ e2) (f2.mono (fun i j hj => preferred_sub hj))
              · rcases f3 with f3 | f3
                · left; rw [total_append, ← e3]; linarith
                · right; rw [hg]; exact f3
              · intro u i hu
                rcases List.eq_nil_or_concat' n with e | ⟨v, w, e⟩
                · subst e
                  rw [List.append_nil] at hu
                  exact e6 u i hu
                · rw [e, ← List.append_assoc] at hu
                  have hu' := (List.append_inj' hu rfl).1
                  have := f4 v w e
                  rw [← hu', total_append, ← e3]
                  linarith
          · next hle =>
            simp only [Option.some.injEq, Lanelets.list.injEq] at h
            exact ⟨a, b, m, h1, h2, by rw [← h, e1], e2, .inl e4, .inl (by rw [← e3]; exact (not_le.mp hle).le), e6⟩

/-- C62: following a route fails only if the lanelet is not in the route or the rest of the route is not connected (or
nothing comes after the lanelet and it is itself left out). -/
theorem C62_route_error (r : Road) (id : Id) (route : List Id) (horizon : Rat) (self : Bool) (a b : List Id)
    (hroute : route = a ++ id :: b) (ha : id ∉ a) (hlink : Linked r.next (id :: b)) (hb : self = true ∨ b ≠ []) (h0 : 0 ≤ horizon) :
    followingRoute r id route horizon self ≠ some .error := by
  intro h
  unfold followingRoute at h
  cases hl : route.getLast? with
  | none => rw [hl] at h; simp at h
  | some last =>
    rw [hl] at h
    simp only at h
    rcases routeLoop_false r id horizon self route with ⟨h1, _⟩ | ⟨a', b', h1, h2, h3⟩
    · exact h1 (by rw [hroute]; simp)
    · have hab : a' = a ∧ b' = b := by
        have : a' ++ id :: b' = a ++ id :: b := by rw [← h1, hroute]
        clear h h1 hroute hl hlink hb h3
        induction a' generalizing a with
        | nil =>
          cases a with
          | nil => simpa using this
          | cons x a => simp only [List.nil_append, List.cons_append, List.cons.injEq] at this; exact absurd (by simp [this.1]) ha
        | cons y a' ih =>
          cases a with
          | nil => simp only [List.nil_append, List.cons_append, List.cons.injEq] at this; exact absurd (by simp [this.1]) h2
          | cons x a =>
            simp only [List.cons_append, List.cons.injEq] at this
            obtain ⟨p1, p2⟩ := ih a (fun h => ha (by simp [h])) (fun h => h2 (by simp [h])) this.2
            exact ⟨by rw [this.1, p1], p2⟩
      obtain ⟨rfl, rfl⟩ := hab
      rw [h3] at h
      cases hx : routeLoop r id horizon self b' true 0 (if self then [id] else []) with
      | none =>
        exact routeLoop_true_none r id horizon self _ rfl b' [] (by simpa [total] using hx) trivial (by simpa using hlink)
      | some y =>
        obtain ⟨t', acc'⟩ := y
        rw [hx] at h
        simp only at h
        obtain ⟨m, e1, e2, e3, e4, e5⟩ := routeLoop_true r id horizon self _ rfl b' [] t' acc' (by simpa [total] using hx) trivial
          (by simpa [total] using h0)
        simp only [List.nil_append] at e1 e3
        split at h
        · next he =>
          have he : acc' = [] := by simpa using he
          rw [he] at e1
          have e1 := e1.symm
          rw [List.append_eq_nil_iff] at e1
          obtain ⟨q1, q2⟩ := e1
          rcases hb with hb | hb
          · rw [hb] at q1; simp at q1
          · rcases e5 with e5 | e5
            · rw [e3, q2] at e5; simp only [total] at e5; linarith
            · exact hb (by rw [← e5, q2])
        · split at h
          · cases hf : following r last (horizon - t') false with
            | none => rw [hf] at h; cases h
            | some n => rw [hf] at h; simp at h
          · simp at h

example : followingRoute branch 0 [1, 0, 2] 5 true = some (.list [0, 2]) := by
  unfold followingRoute
  decide +kernel

/-! ### C63 -/

theorem forward_in_alternatives (r : Road) (p : Pose) (q : Pose) (h : forward r p = some (.pose q)) (h0 : 0 ≤ p.s) (L : List Pose)
    (hL : alternatives r p = some L) : q ∈ L := by
  refine forward.partial_correctness r (fun p x => ∀ q, x = .pose q → 0 ≤ p.s → ∀ L, alternatives r p = some L → q ∈ L) ?_
    p _ h q rfl h0 L hL
  clear h hL h0
  intro f ih p x h q hq h0 L hL
  rw [alternatives.eq_def, if_neg (not_lt.mpr h0)] at hL
  split at h
  · next hs =>
    rw [if_pos hs] at hL
    split at h
    · obtain rfl := Option.some.inj h
      cases hq
    · next i l hp =>
      obtain ⟨_, _, h3⟩ := collect_mem (fun i => alternatives r ⟨i, p.s - r.length p.id⟩) (gather fun i => ⟨i, p.s - r.length p.id⟩) _ _ _ hL
      obtain ⟨x', hx', hx''⟩ := h3 i (by rw [hp]; simp)
      have := ih _ _ h q hq (by simp only; linarith) x' hx'
      refine hx'' q ?_
      unfold gather
      cases x' with
      | nil => cases this
      | cons y x' => exact this
  · next hs =>
    rw [if_neg hs] at hL
    obtain rfl := Option.some.inj h
    cases hq
    obtain rfl := Option.some.inj hL
    simp

/-- C63. Every alternative of a pose is the same place, on its lanelet or at a place where the road has ended; the canonical pose is
one of them; a pose on its lanelet is its only alternative. Missing: that all alternatives lie on the road, see below. -/
theorem C63_alternatives_partial (r : Road) (p : Pose) (L : List Pose) (h : alternatives r p = some L) :
    (∀ q ∈ L, Same r p q ∧ (OnLanelet r q ∨ OffRoad r q)) ∧ (OnLanelet r p → L = [p]) ∧
    (∀ q, canonicalize r p = some (.pose q) → q ∈ L) := by
  refine ⟨(alternatives_spec r p L h).1, (alternatives_spec r p L h).2.1, fun q hq => ?_⟩
  unfold canonicalize at hq
  cases hb : backward r p with
  | none => rw [hb] at hq; simp at hq
  | some x =>
    rw [hb] at hq
    refine backward.partial_correctness r (fun p x => ∀ L, alternatives r p = some L → ∀ m, x = .pose m → forward r m = some (.pose q) → q ∈ L) ?_
      p x hb L h ?_ ?_ ?_
    · clear h hb hq
      intro f ih p x h L hL m hm hf
      split at h
      · next hs =>
        rw [alternatives.eq_def, if_pos hs] at hL
        split at h
        · obtain rfl := Option.some.inj h
          cases hm
        · next i l hp =>
          obtain ⟨_, _, h3⟩ := collect_mem (fun i => alternatives r ⟨i, p.s + r.length i⟩) (gather fun i => ⟨i, p.s + r.length i⟩) _ _ _ hL
          obtain ⟨x', hx', hx''⟩ := h3 i (by rw [hp]; simp)
          have := ih _ _ h x' hx' m hm hf
          refine hx'' q ?_
          unfold gather
          cases x' with
          | nil => cases this
          | cons y x' => exact this
      · next hs =>
        obtain rfl := Option.some.inj h
        cases hm
        exact forward_in_alternatives r p q hf (not_lt.mp hs) L hL
    · cases x with
      | pose m => exact m
      | endOfRoad i => exact p
    · cases x with
      | pose m => rfl
      | endOfRoad i => simp at hq
    · cases x with
      | pose m => exact hq
      | endOfRoad i => simp at hq

/-- Specification: the poses met on the way from a pose to the road, along every branch. -/
inductive Onward (r : Road) : Pose → Pose → Prop
  | refl (p : Pose) : Onward r p p
  | back {id s i q} : s < 0 → i ∈ r.prev id → Onward r ⟨i, s + r.length i⟩ q → Onward r ⟨id, s⟩ q
  | ahead {id s i q} : 0 ≤ s → r.length id < s → i ∈ r.next id → Onward r ⟨i, s - r.length id⟩ q → Onward r ⟨id, s⟩ q

example : Onward branch ⟨0, 25⟩ ⟨0, 5⟩ ∧ OnLanelet branch ⟨0, 5⟩ := by
  refine ⟨.ahead (i := 1) (by decide +kernel) (by decide +kernel) (by decide) ?_, by decide +kernel, by decide +kernel⟩
  rw [show (25 : Rat) - branch.length 0 = 15 by decide +kernel]
  refine .ahead (i := 0) (by decide +kernel) (by decide +kernel) (by decide) ?_
  rw [show (15 : Rat) - branch.length 1 = 5 by decide +kernel]
  exact .refl _

/-- C63. No branch is left out: every pose on the road to which some branch leads is among the alternatives. -/
theorem C63_complete (r : Road) (p q : Pose) (h : Onward r p q) (hq : OnLanelet r q) : ∀ L, alternatives r p = some L → q ∈ L := by
  induction h with
  | refl p =>
    intro L hL
    rw [alternatives.eq_def, if_neg (not_lt.mpr hq.1), if_neg (not_lt.mpr hq.2)] at hL
    obtain rfl := Option.some.inj hL
    simp
  | @back id s i q hs hi _ ih =>
    intro L hL
    rw [alternatives.eq_def, if_pos hs] at hL
    obtain ⟨_, _, h3⟩ := collect_mem (fun i => alternatives r ⟨i, s + r.length i⟩) (gather fun i => ⟨i, s + r.length i⟩) _ _ _ hL
    obtain ⟨x', hx', hx''⟩ := h3 i hi
    have := ih hq x' hx'
    refine hx'' q ?_
    unfold gather
    cases x' with
    | nil => cases this
    | cons y x' => exact this
  | @ahead id s i q h0 hs hi _ ih =>
    intro L hL
    rw [alternatives.eq_def, if_neg (not_lt.mpr h0), if_pos hs] at hL
    obtain ⟨_, _, h3⟩ := collect_mem (fun i => alternatives r ⟨i, s - r.length id⟩) (gather fun i => ⟨i, s - r.length id⟩) _ _ _ hL
    obtain ⟨x', hx', hx''⟩ := h3 i hi
    have := ih hq x' hx'
    refine hx'' q ?_
    unfold gather
    cases x' with
    | nil => cases this
    | cons y x' => exact this

theorem C63_terminates (r : Road) (hr : Positive r) (p : Pose) : ∃ L, alternatives r p = some L := alternatives_ends hr p

/-- C63 is false at the end of a road: of the two alternatives of a pose beyond a fork, the one on the branch which
ends lies five metres beyond its end. -/
theorem C63_violated : alternatives branch ⟨0, 25⟩ = some [⟨0, 5⟩, ⟨2, 15⟩] ∧ ¬ OnLanelet branch ⟨2, 15⟩ := by
  refine ⟨?_, fun h => absurd h.2 (by decide +kernel)⟩
  have e0 : alternatives branch ⟨0, 5⟩ = some [⟨0, 5⟩] := by
    rw [alternatives.eq_def, if_neg (by decide +kernel), if_neg (by decide +kernel)]
  have e1 : alternatives branch ⟨1, 15⟩ = some [⟨0, 5⟩] := by
    rw [alternatives.eq_def, if_neg (by decide +kernel), if_pos (by decide +kernel)]
    have h : branch.next 1 = [0] := by decide
    have h' : ((15 : Rat) - branch.length 1) = 5 := by decide +kernel
    simp only [h, h', List.foldlM_cons, List.foldlM_nil, e0]
    rfl
  have e2 : alternatives branch ⟨2, 15⟩ = some [] := by
    rw [alternatives.eq_def, if_neg (by decide +kernel), if_pos (by decide +kernel)]
    have h : branch.next 2 = [] := by decide
    simp only [h, List.foldlM_nil]
    rfl
  rw [alternatives.eq_def, if_neg (by decide +kernel), if_pos (by decide +kernel)]
  have h : branch.next 0 = [1, 2] := by decide
  have h' : ((25 : Rat) - branch.length 0) = 15 := by decide +kernel
  simp only [h, h', List.foldlM_cons, List.foldlM_nil, e1, e2]
  rfl

end Verif.Lanelet
