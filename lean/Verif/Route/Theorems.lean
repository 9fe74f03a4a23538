import Verif.Route.Model
/-
C35: waypoints are consumed in order. C64: a waypoint is dropped only when it was passed. C65: the lanelets ahead lead to the next
waypoint. C66: routes are planned on the routing graph of the entity. C67: the nearest alternative pose.
-/
namespace Verif.Route
open Verif.Lanelet

/-! ### C35 -/

/-- Specification: the waypoints last assigned in a history; a cancellation takes them all back. -/
def assigned : List Op → List Pose → List Pose
  | [], ws => ws
  | .setWaypoints ws :: l, _ => assigned l ws
  | .getRouteLanelets _ :: l, ws => assigned l ws
  | .cancelRoute :: l, _ => assigned l []

/-- Specification: a list without consecutive repetitions. -/
def withoutRepetitions : List Id → List Id
  | [] => []
  | [a] => [a]
  | a :: b :: l => if a = b then withoutRepetitions (b :: l) else a :: withoutRepetitions (b :: l)

theorem dropHere_split (e : Pose) (q : List Pose) :
    ∃ a, q = a ++ dropHere e q ∧ (∀ w ∈ a, w.id = e.id) ∧ (dropHere e q).head?.map (·.id) ≠ some e.id := by
  induction q with
  | nil => exact ⟨[], by simp [dropHere]⟩
  | cons w l ih =>
    rw [dropHere]
    split
    · next h =>
      obtain ⟨a, h1, h2, h3⟩ := ih
      exact ⟨w :: a, by simpa using h1, fun x hx => (List.mem_cons.mp hx).elim (fun q => q ▸ h) (h2 x), h3⟩
    · next h => exact ⟨[], rfl, by simp, by simpa using h⟩

theorem cancelWaypoint_queue (p : Planner) (e : Pose) :
    ∃ a, p.queue = a ++ (cancelWaypoint p e).queue ∧ (∀ w ∈ a, w.id = e.id) ∧ (cancelWaypoint p e).queue.head?.map (·.id) ≠ some e.id ∧
      (cancelWaypoint p e).graph = p.graph ∧ (cancelWaypoint p e).whole = p.whole ∧
      ((cancelWaypoint p e).queue ≠ [] → (cancelWaypoint p e).route = p.route) := by
  obtain ⟨a, h1, h2, h3⟩ := dropHere_split e p.queue
  unfold cancelWaypoint
  cases hq : dropHere e p.queue with
  | nil => exact ⟨a, by simpa [cancelRoute, hq] using h1, h2, by simp [cancelRoute], rfl, rfl, by simp [cancelRoute]⟩
  | cons w l => exact ⟨a, by simpa [hq] using h1, h2, by simpa [hq] using h3, rfl, rfl, fun _ => rfl⟩

theorem updateRoute_queue (routes : Routes) (c : Option Graph) (p : Planner) (e : Pose) :
    ∃ a, p.queue = a ++ (updateRoute routes c p e).2.queue ∧ (∀ w ∈ a, w.id = e.id) ∧ (updateRoute routes c p e).2.whole = p.whole := by
  unfold updateRoute
  cases hq : p.queue with
  | nil => exact ⟨[], by simp [hq]⟩
  | cons w l =>
    simp only
    have key : ∃ a, p.queue = a ++ (if reached w e = true then cancelWaypoint p e else p).queue ∧ (∀ w ∈ a, w.id = e.id) ∧
        (if reached w e = true then cancelWaypoint p e else p).whole = p.whole := by
      split
      · obtain ⟨a, h1, h2, _, _, h5, _⟩ := cancelWaypoint_queue p e
        exact ⟨a, h1, h2, h5⟩
      · exact ⟨[], rfl, by simp, rfl⟩
    rw [← hq]
    generalize (if reached w e = true then cancelWaypoint p e else p) = p' at *
    obtain ⟨a, h1, h2, h3⟩ := key
    cases hq' : p'.queue with
    | nil => simp only [cancelRoute]; exact ⟨a, by rw [h1, hq'], h2, h3⟩
    | cons w' l' =>
      simp only
      cases p'.route with
      | none => exact ⟨a, by rw [h1, hq'], h2, h3⟩
      | some r =>
        simp only
        split
        · exact ⟨a, by rw [h1, hq'], h2, h3⟩
        · exact ⟨a, by rw [h1, hq'], h2, h3⟩

theorem getRouteLanelets_queue (routes : Routes) (c : Option Graph) (p : Planner) (e : Pose) :
    ∃ a, p.queue = a ++ (getRouteLanelets routes c p e).2.1.queue ∧ (∀ w ∈ a, w.id = e.id) ∧ (getRouteLanelets routes c p e).2.1.whole = p.whole := by
  obtain ⟨a, h1, h2, h3⟩ := updateRoute_queue routes c p e
  unfold getRouteLanelets
  generalize hu : updateRoute routes c p e = u at *
  obtain ⟨c', p'⟩ := u
  simp only at *
  cases hr : p'.route with
  | none => exact ⟨a, h1, h2, h3⟩
  | some r =>
    simp only
    split
    · exact ⟨a, h1, h2, h3⟩
    · obtain ⟨b, g1, g2, _, _, g5, _⟩ := cancelWaypoint_queue p' e
      refine ⟨a ++ b, by rw [h1, g1, List.append_assoc], fun w hw => ?_, g5.trans h3⟩
      exact (List.mem_append.mp hw).elim (h2 w) (g2 w)

/-- C35. After every history of calls the waypoints still to be passed are the last ones of those assigned, in their order; and in each
call only waypoints in the lanelet of the entity are dropped, from the front. -/
theorem C35_suffix (routes : Routes) (l : List Op) (x : Option Graph × Planner) (ws : List Pose) (h : x.2.queue <:+ ws) :
    (run routes x l).2.queue <:+ assigned l ws := by
  induction l generalizing x ws with
  | nil => exact h
  | cons o l ih =>
    cases o with
    | setWaypoints ws' => exact ih _ _ (List.suffix_refl _)
    | cancelRoute => exact ih _ _ (List.suffix_refl _)
    | getRouteLanelets e =>
      refine ih _ _ (List.IsSuffix.trans ?_ h)
      obtain ⟨a, h1, _⟩ := getRouteLanelets_queue routes x.1 x.2 e
      exact ⟨a, h1.symm⟩

theorem C35_dropped (routes : Routes) (c : Option Graph) (p : Planner) (e : Pose) :
    ∃ a, p.queue = a ++ (getRouteLanelets routes c p e).2.1.queue ∧ ∀ w ∈ a, w.id = e.id := by
  obtain ⟨a, h1, h2, _⟩ := getRouteLanelets_queue routes c p e
  exact ⟨a, h1, h2⟩

theorem wholeOf_spec (ws : List Pose) : ∀ acc a, wholeOf ws (acc ++ [a]) = acc ++ withoutRepetitions (a :: ws.map (·.id)) := by
  induction ws with
  | nil => intro acc a; rfl
  | cons w l ih =>
    intro acc a
    rw [wholeOf, List.map_cons, withoutRepetitions, List.getLast?_concat]
    by_cases h : a = w.id
    · rw [if_pos (by rw [h]), if_pos h, ih, h]
    · rw [if_neg (by simpa using h), if_neg h, ih, List.append_assoc]
      rfl

/-- C35. The lanelets of the whole route are those of the waypoints assigned, without repetitions. -/
theorem C35_whole (p : Planner) (ws : List Pose) : (setWaypoints p ws).whole = withoutRepetitions (ws.map (·.id)) := by
  cases ws with
  | nil => rfl
  | cons w l => exact wholeOf_spec l [] w.id

example : (setWaypoints (create .vehicle) [⟨1, 5⟩, ⟨1, 7⟩, ⟨2, 0⟩, ⟨1, 0⟩]).whole = [1, 2, 1] := by decide +kernel

/-- C35. After a cancellation no waypoints are left and the road ahead is followed without a route. -/
theorem C35_cancelled (routes : Routes) (c : Option Graph) (p : Planner) (e : Pose) :
    (cancelRoute p).queue = [] ∧ (getRouteLanelets routes c (cancelRoute p) e).2.2 = none := ⟨rfl, rfl⟩

example : (create .vehicle).queue <:+ [] := List.suffix_refl _

/-! ### C64 -/

/-- C64 is false: of two waypoints in the same lanelet the second is dropped together with the first, although it lies ahead. -/
theorem C64_second_violated :
    (getRouteLanelets (fun _ a b => [a, b]) none { create .vehicle with queue := [⟨1, 5⟩, ⟨1, 50⟩] } ⟨1, 6⟩).2.1.queue = [] := by
  decide +kernel

/-- C64 is false: where no route to it is known, a waypoint in the lanelet of the entity is dropped before it is reached. -/
theorem C64_ahead_violated :
    (getRouteLanelets (fun _ _ _ => []) none { create .vehicle with queue := [⟨1, 50⟩] } ⟨1, 6⟩).2.1.queue = [] := by
  decide +kernel

/-- C64 for waypoints in different lanelets while the entity is in its route: only the first is dropped, when it was passed. Missing:
all other cases. -/
theorem C64_passed_partial (routes : Routes) (c : Option Graph) (p : Planner) (e : Pose) (w : Pose) (l : List Pose) (r : List Id)
    (hq : p.queue = w :: l) (hr : p.route = some r) (he : e.id ∈ r) (hd : ∀ v, l.head? = some v → v.id ≠ w.id) :
    ((getRouteLanelets routes c p e).2.1.queue = w :: l ∧ ¬ (w.id = e.id ∧ w.s ≤ e.s)) ∨
    ((getRouteLanelets routes c p e).2.1.queue = l ∧ w.id = e.id ∧ w.s ≤ e.s) := by
  by_cases hre : reached w e = true
  · right
    have hre' : w.id = e.id ∧ w.s ≤ e.s := by simpa [reached] using hre
    refine ⟨?_, hre'⟩
    have hcw : cancelWaypoint p e = (if l = [] then cancelRoute { p with queue := [] } else { p with queue := l }) := by
      have hdl : dropHere e l = l := by
        cases l with
        | nil => rfl
        | cons v l => rw [dropHere, if_neg (fun h => hd v rfl (h.trans hre'.1.symm))]
      rw [cancelWaypoint, hq, dropHere, if_pos hre'.1, hdl]
      cases l with
      | nil => simp [cancelRoute]
      | cons v l => simp
    unfold getRouteLanelets updateRoute
    rw [hq]
    simp only [hre, if_true, hcw]
    cases l with
    | nil => simp [cancelRoute]
    | cons v l => simp [hr, he]
  · left
    refine ⟨?_, by simpa [reached] using hre⟩
    unfold getRouteLanelets updateRoute
    rw [hq]
    simp only [hre, Bool.false_eq_true, if_false, hq, hr, if_pos he]

example : (getRouteLanelets (fun _ _ _ => [1, 2]) none ⟨.vehicle, some [1, 2], [⟨1, 5⟩, ⟨2, 5⟩], []⟩ ⟨1, 6⟩).2.1.queue = [⟨2, 5⟩] := by
  decide +kernel

/-! ### C65 -/

/-- C65. If the planner has no route, or the entity has left it, the route followed is the shortest one to the next waypoint.
Missing: planners with a route, see below. -/
theorem C65_toward_waypoint_partial (routes : Routes) (c : Option Graph) (p : Planner) (e : Pose) (w : Pose) (l : List Pose)
    (hq : p.queue = w :: l) (hne : w.id ≠ e.id) (hr : ∀ r, p.route = some r → e.id ∉ r)
    (hroute : e.id ∈ routes (c.getD p.graph) e.id w.id) :
    (getRouteLanelets routes c p e).2.2 = some (routes (c.getD p.graph) e.id w.id) := by
  have hre : reached w e = false := by simp [reached, hne]
  unfold getRouteLanelets updateRoute
  rw [hq]
  simp only [hre, Bool.false_eq_true, if_false, hq]
  cases hpr : p.route with
  | none => simp [hroute]
  | some r => simp [hr r hpr, hroute]

/-- C65 is false after new waypoints have been assigned: while the entity is on the old route, that one is followed. Here the
old destination is lanelet 2 and the new one lanelet 3. -/
theorem C65_new_waypoints_violated (routes : Routes) :
    (getRouteLanelets routes none (setWaypoints ⟨.vehicle, some [1, 2], [⟨2, 5⟩], [2]⟩ [⟨3, 5⟩]) ⟨1, 0⟩).2.2 = some [1, 2] := by
  simp [getRouteLanelets, updateRoute, setWaypoints, reached]

/-- C65 is false after a waypoint has been passed: the route still ends in the lanelet of the waypoint passed, and does not
lead to the next one, whatever routes there are. -/
theorem C65_second_waypoint_violated (routes : Routes) :
    (getRouteLanelets routes none ⟨.vehicle, some [1, 2], [⟨2, 5⟩, ⟨3, 5⟩], [2, 3]⟩ ⟨2, 6⟩).2.2 = some [1, 2] ∧
    (getRouteLanelets routes none ⟨.vehicle, some [1, 2], [⟨2, 5⟩, ⟨3, 5⟩], [2, 3]⟩ ⟨2, 6⟩).2.1.queue = [⟨3, 5⟩] := by
  have h : reached (⟨2, 5⟩ : Pose) ⟨2, 6⟩ = true := by decide +kernel
  have hc : cancelWaypoint ⟨.vehicle, some [1, 2], [⟨2, 5⟩, ⟨3, 5⟩], [2, 3]⟩ ⟨2, 6⟩ = ⟨.vehicle, some [1, 2], [⟨3, 5⟩], [2, 3]⟩ := by
    decide +kernel
  simp [getRouteLanelets, updateRoute, h, hc]

/-! ### C66 -/

/-- C66. In a process in which all planners use the same routing graph, every route is planned on it. Missing: others. -/
theorem C66_graph_partial (routes : Routes) (g : Graph) (c : Option Graph) (hc : c = none ∨ c = some g) (p : Planner) (hp : p.graph = g) (e : Pose) :
    ((updateRoute routes c p e).1 = none ∨ (updateRoute routes c p e).1 = some g) ∧
    ((updateRoute routes c p e).2.route = p.route ∨ (updateRoute routes c p e).2.route = none ∨
      ∃ w, (updateRoute routes c p e).2.queue.head? = some w ∧ (updateRoute routes c p e).2.route = some (routes g e.id w.id)) := by
  have hg : c.getD g = g := by rcases hc with rfl | rfl <;> rfl
  unfold updateRoute
  cases hq : p.queue with
  | nil => exact ⟨hc, .inl rfl⟩
  | cons w l =>
    simp only
    have key : (if reached w e = true then cancelWaypoint p e else p).graph = g ∧
      ((if reached w e = true then cancelWaypoint p e else p).queue ≠ [] → (if reached w e = true then cancelWaypoint p e else p).route = p.route) := by
      split
      · obtain ⟨_, _, _, _, h4, _, h6⟩ := cancelWaypoint_queue p e
        exact ⟨h4.trans hp, h6⟩
      · exact ⟨hp, fun _ => rfl⟩
    generalize (if reached w e = true then cancelWaypoint p e else p) = p' at *
    obtain ⟨k1, k2⟩ := key
    cases hq' : p'.queue with
    | nil => exact ⟨hc, .inr (.inl rfl)⟩
    | cons w' l' =>
      have k2 := k2 (by rw [hq']; simp)
      simp only [k1, hg]
      cases hr : p'.route with
      | none => exact ⟨.inr rfl, .inr (.inr ⟨w', by simp [hq'], rfl⟩)⟩
      | some r =>
        simp only
        split
        · exact ⟨.inr rfl, .inl (by simp only; rw [← k2, hr])⟩
        · exact ⟨.inr rfl, .inr (.inr ⟨w', by simp [hq'], rfl⟩)⟩

/-- C66 is false otherwise: once a vehicle has planned a route, the routes of pedestrians are planned on the graph for
vehicles. -/
theorem C66_violated (routes : Routes) :
    let first := getRouteLanelets routes none { create .vehicle with queue := [⟨2, 5⟩] } ⟨1, 0⟩
    let second := getRouteLanelets routes first.1 { create .pedestrian with queue := [⟨4, 5⟩] } ⟨3, 0⟩
    first.1 = some .vehicle ∧ (3 ∈ routes .vehicle 3 4 → second.2.2 = some (routes .vehicle 3 4)) := by
  have h1 : (getRouteLanelets routes none { create .vehicle with queue := [⟨2, 5⟩] } ⟨1, 0⟩).1 = some .vehicle := by
    simp only [getRouteLanelets, updateRoute, create, reached]
    by_cases h : 1 ∈ routes .vehicle 1 2 <;> simp [h]
  refine ⟨h1, fun h => ?_⟩
  rw [h1]
  exact C65_toward_waypoint_partial routes (some .vehicle) { create .pedestrian with queue := [⟨4, 5⟩] } ⟨3, 0⟩ ⟨4, 5⟩ [] rfl (by decide)
    (by simp [create]) h

/-! ### C67 -/

theorem foldl_shortest (size : Id → Nat) (l : List Pose) : ∀ b : Pose,
    let x := l.foldl (fun best q => if size q.id < size best.id then q else best) b
    (x = b ∨ x ∈ l) ∧ size x.id ≤ size b.id ∧ ∀ q ∈ l, size x.id ≤ size q.id := by
  induction l with
  | nil => intro b; exact ⟨.inl rfl, Nat.le_refl _, by simp⟩
  | cons q l ih =>
    intro b
    simp only [List.foldl_cons]
    by_cases h : size q.id < size b.id
    · rw [if_pos h]
      obtain ⟨h1, h2, h3⟩ := ih q
      refine ⟨?_, by omega, fun y hy => ?_⟩
      · rcases h1 with h1 | h1
        · exact .inr (by rw [h1]; simp)
        · exact .inr (by simp [h1])
      · rcases List.mem_cons.mp hy with rfl | hy
        · exact h2
        · exact h3 y hy
    · rw [if_neg h]
      obtain ⟨h1, h2, h3⟩ := ih b
      refine ⟨?_, h2, fun y hy => ?_⟩
      · rcases h1 with h1 | h1
        · exact .inl h1
        · exact .inr (by simp [h1])
      · rcases List.mem_cons.mp hy with rfl | hy
        · omega
        · exact h3 y hy

/-- C67. Among alternatives that can all be reached, the one with the fewest lanelets on the way is chosen. Missing: alternatives
that cannot be reached. -/
theorem C67_shortest_partial (route : Id → List Id) (l : List Pose) (p : Pose) (h : shortestAlternative (fun i => (route i).length) l = some p)
    (_hr : ∀ q ∈ l, route q.id ≠ []) : p ∈ l ∧ route p.id ≠ [] ∧ ∀ q ∈ l, (route p.id).length ≤ (route q.id).length := by
  cases l with
  | nil => cases h
  | cons a l =>
    simp only [shortestAlternative, Option.some.injEq] at h
    obtain ⟨h1, h2, h3⟩ := foldl_shortest (fun i => (route i).length) (a :: l) a
    rw [h] at h1 h2 h3
    have hm : p ∈ a :: l := by
      rcases h1 with h1 | h1
      · rw [h1]; simp
      · exact h1
    exact ⟨hm, _hr p hm, h3⟩

example : shortestAlternative (fun i => ([[1, 2, 3], [1, 4]] : List (List Id))[i]!.length) [⟨0, 5⟩, ⟨1, 5⟩] = some ⟨1, 5⟩ := by decide +kernel

/-- C67 is false otherwise: an alternative that cannot be reached, for which the route is empty, is preferred to all that can. -/
theorem C67_violated (route : Id → List Id) (h1 : route 1 = [0, 1]) (h2 : route 2 = []) :
    shortestAlternative (fun i => (route i).length) [⟨1, 5⟩, ⟨2, 5⟩] = some ⟨2, 5⟩ := by
  simp [shortestAlternative, h1, h2]

end Verif.Route
