import Verif.Routing.Spec

namespace Verif.Routing

open Verif.Literal (Value attributeBoolean)

theorem word (t : String) : (∃ b, attributeBoolean t.toList = some b ∧ Meant t b) ∨
    (attributeBoolean t.toList = none ∧ t ≠ "true" ∧ t ≠ "false") := by
  by_cases h1 : t = "true"
  · subst h1
    exact Or.inl ⟨true, by decide +kernel, .true⟩
  · by_cases h2 : t = "false"
    · subst h2
      exact Or.inl ⟨false, by decide +kernel, .false⟩
    · refine Or.inr ⟨?_, h1, h2⟩
      unfold attributeBoolean
      split
      · rename_i b h
        exfalso
        unfold Literal.boolalpha at h
        split at h
        · rename_i s hs
          injection h with h
          injection h with _ h
          subst h
          exact h1 (String.toList_inj.1 hs)
        · rename_i s hs
          injection h with h
          injection h with _ h
          subst h
          exact h2 (String.toList_inj.1 hs)
        · cases h
      · rfl

theorem getBoolean_some {c : Controller} {name t : String} {b : Bool} (h : c.properties.lookup name = some t)
    (hm : Meant t b) : c.getBoolean name = some b := by
  unfold Controller.getBoolean
  rw [h]
  cases hm <;> decide +kernel

theorem getBoolean_none {c : Controller} {name t : String} (h : c.properties.lookup name = some t)
    (h0 : t ≠ "") (h1 : t ≠ "true") (h2 : t ≠ "false") : c.getBoolean name = none := by
  unfold Controller.getBoolean
  rw [h]
  simp only
  rw [if_pos h0]
  rcases word t with ⟨b, _, hm⟩ | ⟨hn, _, _⟩
  · cases hm
    · exact absurd rfl h1
    · exact absurd rfl h2
    · exact absurd rfl h0
  · exact hn

theorem isAutoware_of {c : Controller}
    (h : c.properties.lookup "isEgo" = some "true" ∨ c.name = "Autoware" ∧
        (c.properties.lookup "isEgo" = none ∨ c.properties.lookup "isEgo" = some "" ∨
          c.properties.lookup "isEgo" = some "false")) : c.isAutoware = some true := by
  unfold Controller.isAutoware
  rcases h with h | ⟨hn, h | h | h⟩
  · rw [getBoolean_some h .true]
    rfl
  · have : c.getBoolean "isEgo" = some false := by
      unfold Controller.getBoolean
      rw [h]
    rw [this, hn]
    rfl
  · rw [getBoolean_some h .empty, hn]
    rfl
  · rw [getBoolean_some h .false, hn]
    rfl

theorem isAutoware_not {c : Controller} (hr : ∀ t, c.properties.lookup "isEgo" = some t → t = "" ∨ t = "true" ∨ t = "false")
    (h : ¬ (c.properties.lookup "isEgo" = some "true" ∨ c.name = "Autoware" ∧
        (c.properties.lookup "isEgo" = none ∨ c.properties.lookup "isEgo" = some "" ∨
          c.properties.lookup "isEgo" = some "false"))) : c.isAutoware = some false := by
  unfold Controller.isAutoware
  rw [not_or] at h
  have hg : c.getBoolean "isEgo" = some false ∧ c.name ≠ "Autoware" := by
    cases hl : c.properties.lookup "isEgo" with
    | none =>
      refine ⟨by unfold Controller.getBoolean; rw [hl], fun hn => h.2 ⟨hn, Or.inl hl⟩⟩
    | some t =>
      rcases hr t hl with rfl | rfl | rfl
      · exact ⟨getBoolean_some hl .empty, fun hn => h.2 ⟨hn, Or.inr (Or.inl hl)⟩⟩
      · exact absurd hl h.1
      · exact ⟨getBoolean_some hl .false, fun hn => h.2 ⟨hn, Or.inr (Or.inr hl)⟩⟩
  rw [hg.1]
  simp [hg.2]

theorem isBoolean_eq {R : Type} : (isBoolean : Value R → Bool) = truthValue := by
  funext v
  cases v <;> rfl

/-! ### C204: the options of a request -/

/-- **C204.** If Autoware drives the entity and its controller has the property, the goal may be modified if and
only if the property says so, whatever parameters there are; an empty text says no. -/
theorem C204_property {R : Type} (s : Scope.Store (Value R)) (frame : Nat) (o : Object) {t : String} {b : Bool}
    (ha : DrivenByAutoware o) (hp : HasProperty o "allowGoalModification" t) (hm : Meant t b) :
    ∃ opt, options s frame o = some opt ∧ opt.allow_goal_modification = b := by
  obtain ⟨c, hc, ha⟩ := ha
  obtain ⟨c', hc', hp⟩ := hp
  rw [hc] at hc'
  injection hc' with hc'
  subst hc'
  have hf : fromProperty o "allowGoalModification" = some (some b) := by
    unfold fromProperty
    rw [hc]
    simp only
    rw [isAutoware_of ha]
    simp only
    rw [hp, getBoolean_some hp hm]
    rfl
  exact ⟨_, by unfold options; rw [hf]; rfl, rfl⟩

/-- **C204.** If Autoware does not drive it, or its controller does not have the property, the parameter
decides, and if it is not declared the goal may not be modified. -/
theorem C204_parameter {R : Type} (s : Scope.Store (Value R)) (frame : Nat) (o : Object) (hr : Readable o)
    (h : ¬ DrivenByAutoware o ∨ ∀ t, ¬ HasProperty o "allowGoalModification" t) :
    ∃ opt, options s frame o = some opt ∧
      (∀ b, Declared s frame "RoutingAction__allow_goal_modification" b → opt.allow_goal_modification = b) ∧
      (Undeclared s frame "RoutingAction__allow_goal_modification" → opt.allow_goal_modification = false) := by
  have hf : fromProperty o "allowGoalModification" = some none := by
    unfold fromProperty
    cases hc : o.controller with
    | none => rfl
    | some c =>
      simp only
      have hr' : ∀ t, c.properties.lookup "isEgo" = some t → t = "" ∨ t = "true" ∨ t = "false" :=
        fun t ht => hr t ⟨c, hc, ht⟩
      by_cases ha : (c.properties.lookup "isEgo" = some "true" ∨ c.name = "Autoware" ∧
        (c.properties.lookup "isEgo" = none ∨ c.properties.lookup "isEgo" = some "" ∨
          c.properties.lookup "isEgo" = some "false"))
      · rw [isAutoware_of ha]
        simp only
        rcases h with h | h
        · exact absurd ⟨c, hc, ha⟩ h
        · have : c.properties.lookup "allowGoalModification" = none := by
            cases hl : c.properties.lookup "allowGoalModification" with
            | none => rfl
            | some t => exact absurd ⟨c, hc, hl⟩ (h t)
          rw [this]
          rfl
      · rw [isAutoware_not hr' ha]
  refine ⟨_, by unfold options; rw [hf]; rfl, ?_, ?_⟩
  · intro b hb
    unfold Declared at hb
    simp only [Option.getD_none]
    unfold fromParameter
    rw [isBoolean_eq]
    rw [hb]
  · intro hu
    unfold Undeclared at hu
    simp only [Option.getD_none]
    unfold fromParameter
    rw [isBoolean_eq]
    rw [hu]

/-- **C204.** Routes are by lanes if and only if the other parameter says so, for every entity. -/
theorem C204_lanes {R : Type} (s : Scope.Store (Value R)) (frame : Nat) (o : Object) (opt : Options)
    (h : options s frame o = some opt) :
    (∀ b, Declared s frame "RoutingAction__use_lane_ids_for_routing" b → opt.use_lane_ids_for_routing = b) ∧
      (Undeclared s frame "RoutingAction__use_lane_ids_for_routing" → opt.use_lane_ids_for_routing = false) := by
  obtain ⟨p, _, rfl⟩ := Option.map_eq_some_iff.1 h
  constructor
  · intro b hb
    unfold Declared at hb
    simp only
    unfold fromParameter
    rw [isBoolean_eq]
    rw [hb]
  · intro hu
    unfold Undeclared at hu
    simp only
    unfold fromParameter
    rw [isBoolean_eq]
    rw [hu]

/-- **C204.** A property that Autoware's controller has but that is no truth value is an error. -/
theorem C204_error {R : Type} (s : Scope.Store (Value R)) (frame : Nat) (o : Object) {t : String}
    (ha : DrivenByAutoware o) (hp : HasProperty o "allowGoalModification" t) (h0 : t ≠ "") (h1 : t ≠ "true")
    (h2 : t ≠ "false") : options s frame o = none := by
  obtain ⟨c, hc, ha⟩ := ha
  obtain ⟨c', hc', hp⟩ := hp
  rw [hc] at hc'
  injection hc' with hc'
  subst hc'
  unfold options fromProperty
  rw [hc]
  simp only
  rw [isAutoware_of ha]
  simp only
  rw [hp, getBoolean_none hp h0 h1 h2]
  rfl

/-- **C204.** Every entity gets one request, in the order of the actors, to go to that place, with options of
its own; if options cannot be made, those before it have got theirs and there is an error. -/
theorem C204_each {R P : Type} (s : Scope.Store (Value R)) (frame : Nat) (d : P) (os : List Object) :
    ((start s frame d os).2 = false ↔ ∀ o ∈ os, options s frame o ≠ none) ∧
      (∀ (i : Nat) (r : Request P), (start s frame d os).1[i]? = some r →
        ∃ o, os[i]? = some o ∧ r.entity = o.name ∧ r.destination = d ∧ options s frame o = some r.options) ∧
      ((start s frame d os).2 = false → (start s frame d os).1.length = os.length) ∧
      ((start s frame d os).2 = true → ∃ o, os[(start s frame d os).1.length]? = some o ∧ options s frame o = none) := by
  induction os with
  | nil => simp [start]
  | cons o os ih =>
    unfold start
    cases ho : options s frame o with
    | none => simp [ho]
    | some opt =>
      simp only
      obtain ⟨h1, h2, h3, h4⟩ := ih
      refine ⟨?_, ?_, ?_, ?_⟩
      · rw [h1]
        simp [ho]
      · intro i r hi
        cases i with
        | zero =>
          simp only [List.getElem?_cons_zero, Option.some.injEq] at hi
          subst hi
          exact ⟨o, by simp, rfl, rfl, ho⟩
        | succ i =>
          simp only [List.getElem?_cons_succ] at hi
          obtain ⟨o', h5, h6⟩ := h2 i r hi
          exact ⟨o', by simpa using h5, h6⟩
      · intro h
        simp [h3 h]
      · intro h
        obtain ⟨o', h5, h6⟩ := h4 h
        exact ⟨o', by simpa using h5, h6⟩

/-- An ego, a car without a controller, and the parameter that says yes. -/
def ego : Object := ⟨"ego", some ⟨"Autoware", [("allowGoalModification", "false")]⟩⟩
def car : Object := ⟨"car", none⟩
def store : Scope.Store (Value Int) :=
  [⟨[("RoutingAction__allow_goal_modification", .boolean true)], none, [], []⟩]

example : DrivenByAutoware ego ∧ HasProperty ego "allowGoalModification" "false" :=
  ⟨⟨_, rfl, Or.inr ⟨rfl, Or.inl (by decide +kernel)⟩⟩, _, rfl, by decide +kernel⟩

example : Declared store 0 "RoutingAction__allow_goal_modification" true ∧
    Undeclared store 0 "RoutingAction__use_lane_ids_for_routing" := by
  constructor
  · unfold Declared Scope.find
    simp [Scope.bfs, Scope.objects, store, truthValue, List.filter]
  · unfold Undeclared Scope.find
    simp [Scope.bfs, Scope.objects, Scope.descend, store]

/-- **C204, not so.** A parameter of that name that is a text, even `true`, is passed over in silence, and so
are two that are truth values: the default is taken. -/
theorem C204_silent_violated :
    (∃ s : Scope.Store (Value Int), s = [⟨[("RoutingAction__allow_goal_modification", .string "true".toList)], none, [], []⟩] ∧
      options s 0 car = some ⟨false, false⟩) ∧
    ∃ s : Scope.Store (Value Int), Ambiguous s 0 "RoutingAction__allow_goal_modification" ∧
      (∀ fr ∈ s, ∀ v ∈ fr.variables, v.2 = .boolean true) ∧ options s 0 car = some ⟨false, false⟩ := by
  refine ⟨⟨_, rfl, ?_⟩, [⟨[("RoutingAction__allow_goal_modification", .boolean true),
    ("RoutingAction__allow_goal_modification", .boolean true)], none, [], []⟩], ?_, ?_, ?_⟩
  · simp [options, fromProperty, car, fromParameter, Scope.find, Scope.bfs, Scope.objects, Scope.descend, isBoolean, List.filter]
  · simp [Ambiguous, Scope.find, Scope.bfs, Scope.objects, truthValue, List.filter]
  · simp
  · simp [options, fromProperty, car, fromParameter, Scope.find, Scope.bfs, Scope.objects, Scope.descend, isBoolean, List.filter]

/-- **C204, not so.** In general: with more than one, whatever they say, the goal may not be modified. -/
theorem C204_ambiguous_violated {R : Type} (s : Scope.Store (Value R)) (frame : Nat)
    (h : Ambiguous s frame "RoutingAction__allow_goal_modification") (o : Object) (hc : o.controller = none) :
    ∃ opt, options s frame o = some opt ∧ opt.allow_goal_modification = false := by
  refine ⟨_, by unfold options fromProperty; rw [hc]; rfl, ?_⟩
  unfold Ambiguous at h
  simp only [Option.getD_none]
  unfold fromParameter
  rw [isBoolean_eq]
  rw [h]

/-! ### C205: routes -/

/-- **C205.** A route can be assigned exactly to actors each of which is of vehicles only or of pedestrians
only, and has at least one. -/
theorem C205_actors (actors : List (List Kind)) :
    assignable actors = true ↔ ∀ ks ∈ actors, ks ≠ [] ∧ ((∀ k ∈ ks, k = .vehicle) ∨ ∀ k ∈ ks, k = .pedestrian) := by
  unfold assignable
  rw [List.all_eq_true]
  refine forall₂_congr fun ks _ => ?_
  simp

example : assignable [[.vehicle, .vehicle], [.pedestrian]] = true ∧ assignable [[.vehicle, .pedestrian]] = false := by
  decide

/-- **C205** (partial: but for `closed` and the strategies). A route has the positions of its waypoints, in
their order, and at least two. -/
theorem C205_route_partial {P : Type} (closed : Bool) (ws : List (Waypoint P)) :
    (Route.read closed ws = none ↔ ws.length ≤ 1) ∧
      ∀ r, Route.read closed ws = some r →
        r.poses.length = ws.length ∧ ∀ i : Nat, r.poses[i]? = ws[i]?.map Waypoint.position := by
  unfold Route.read
  constructor
  · split <;> simp <;> omega
  · intro r h
    split at h
    · cases h
    · injection h with h
      subst h
      simp [Route.poses]

/-- **C205, not so.** A closed route is the same as an open one, and it is the same whatever its strategies
say: the requests made do not depend on it. -/
theorem C205_closed_violated {R P : Type} (s : Scope.Store (Value R)) (frame : Nat) (os : List Object)
    (r r' : Route P) (h : r.waypoints.map Waypoint.position = r'.waypoints.map Waypoint.position) :
    start s frame r.poses os = start s frame r'.poses os := by
  unfold Route.poses
  rw [h]

example : ∃ r r' : Route Nat, r.closed = true ∧ r'.closed = false ∧
    r.waypoints.map Waypoint.position = r'.waypoints.map Waypoint.position ∧ r.poses = [1, 2] :=
  ⟨⟨true, [⟨"fastest", 1⟩, ⟨"shortest", 2⟩]⟩, ⟨false, [⟨"shortest", 1⟩, ⟨"shortest", 2⟩]⟩, rfl, rfl, rfl, rfl⟩

/-! ### C206: what vehicles and pedestrians do with it -/

variable {L P : Type}

/-- **C206.** An entity on a lane that is sent somewhere on a lane follows lanes, with that as its only
waypoint and goal; one that is given a route has its waypoints and goals, in order. -/
theorem C206_lane (toMap : L → P) (e : Npc L P) (h : e.onLane = true) :
    (∀ l, e.acquireLane toMap l = ⟨true, .followLane, [l], [toMap l]⟩) ∧
      ∀ ls, e.assignLane toMap ls = ⟨true, .followLane, ls, ls.map toMap⟩ := by
  obtain ⟨on, order, ws, gs⟩ := e
  simp only at h
  subst h
  exact ⟨fun _ => rfl, fun _ => rfl⟩

/-- **C206.** Positions on the map are taken as the positions on lanes that they are matched with, all of them;
one that is not on any lane is an error. -/
theorem C206_map (toMap : L → P) (toLane : P → Option L) (e : Npc L P) :
    (∀ p l, toLane p = some l → e.acquireMap toMap toLane p = (e.acquireLane toMap l, false)) ∧
      (∀ p, toLane p = none → (e.acquireMap toMap toLane p).2 = true) ∧
      (∀ ps ls, ps.map toLane = ls.map some → e.assignMap toMap toLane ps = (e.assignLane toMap ls, false)) ∧
      ∀ ps, (∃ p ∈ ps, toLane p = none) → e.assignMap toMap toLane ps = (e, true) := by
  have hm : ∀ (ps : List P) (ls : List L), ps.map toLane = ls.map some → ps.mapM toLane = some ls := by
    intro ps
    induction ps with
    | nil =>
      intro ls h
      cases ls with
      | nil => rfl
      | cons => cases h
    | cons p ps ih =>
      intro ls h
      cases ls with
      | nil => cases h
      | cons l ls =>
        simp only [List.map_cons, List.cons.injEq] at h
        rw [List.mapM_cons, h.1]
        simp [ih ls h.2]
  have hn : ∀ (ps : List P), (∃ p ∈ ps, toLane p = none) → ps.mapM toLane = none := by
    intro ps
    induction ps with
    | nil => simp
    | cons p ps ih =>
      rintro ⟨q, hq, hq'⟩
      rw [List.mapM_cons]
      cases hp : toLane p with
      | none => rfl
      | some l =>
        rcases List.mem_cons.1 hq with rfl | hq
        · rw [hp] at hq'
          cases hq'
        · simp [ih ⟨q, hq, hq'⟩]
  refine ⟨fun p l h => ?_, fun p h => ?_, fun ps ls h => ?_, fun ps h => ?_⟩
  · unfold Npc.acquireMap
    rw [h]
    rfl
  · unfold Npc.acquireMap
    rw [h]
  · unfold Npc.assignMap
    rw [hm ps ls h]
  · unfold Npc.assignMap
    rw [hn ps h]

/-- **C206, not so.** An entity that is not on a lane passes over a route in silence; if it is sent to a place it
follows lanes to it, with the waypoints that it had. -/
theorem C206_offLane_violated (toMap : L → P) (toLane : P → Option L) (e : Npc L P) (h : e.onLane = false) :
    (∀ (ps : List P) (ls : List L), ps.map toLane = ls.map some → e.assignMap toMap toLane ps = (e, false)) ∧
      ∀ l, (e.acquireLane toMap l).waypoints = e.waypoints ∧ (e.acquireLane toMap l).goals = [toMap l] := by
  refine ⟨fun ps ls hp => ?_, fun l => ?_⟩
  · rw [(C206_map toMap toLane e).2.2.1 ps ls hp]
    unfold Npc.assignLane
    rw [h]
    rfl
  · unfold Npc.acquireLane
    simp [h]

/-- **C206, not so.** A place that is not on a lane is an error, and yet the order has been replaced. -/
theorem C206_order_violated (toMap : L → P) (toLane : P → Option L) (e : Npc L P) (p : P) (h : toLane p = none)
    (ho : e.order ≠ .followLane) :
    (e.acquireMap toMap toLane p).2 = true ∧ (e.acquireMap toMap toLane p).1 ≠ e := by
  unfold Npc.acquireMap
  rw [h]
  refine ⟨rfl, fun he => ho ?_⟩
  have := congrArg Npc.order he
  exact this.symm

example : ∃ (e : Npc Nat Int) (toLane : Int → Option Nat), toLane 5 = none ∧ toLane 6 = some 6 ∧
    e.order ≠ .followLane ∧ e.onLane = false :=
  ⟨⟨false, .other 0, [], []⟩, fun p => if p = 5 then none else some p.toNat, rfl, rfl, by decide, rfl⟩

end Verif.Routing
