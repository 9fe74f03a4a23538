import Verif.Request.Spec

/-!
# C189-C192: requests, limits, synchronising, ranges
-/
namespace Verif.Request

section
variable {P M T L : Type}

theorem allOn_iff (f : M → Option P) (ms : List M) (ps : List P) :
    allOn f ms = some ps ↔ ms.map f = ps.map some := by
  induction ms generalizing ps with
  | nil => cases ps <;> simp [allOn]
  | cons m ms ih =>
    cases ps with
    | nil =>
      simp only [allOn, List.map_cons, List.map_nil, reduceCtorEq, iff_false]
      split <;> simp
    | cons p ps =>
      simp only [allOn, List.map_cons, List.cons.injEq]
      cases h : f m with
      | none => simp
      | some q => simp [ih]; tauto

theorem crosswalks_eq {k : Kind} (h : k ≠ .misc) : crosswalks k = decide (k = .pedestrian) := by
  cases k <;> simp_all [crosswalks]

/-- **C189.** What an entity on a lane is asked, whatever it was doing before, it does, and the call
does not throw. -/
theorem C189_accepted (w : World P M T) (k : Kind) (s : State P T L) (c : Call P M T L)
    (d : Demand P T L) (h : Asks w k c d) :
    (step w k true s c).error = false ∧ Meets (step w k true s c).state d := by
  cases h with
  | acquire hk => cases k <;> simp_all [step, acquire, Meets]
  | acquireAt hk hp =>
    rw [← crosswalks_eq hk] at hp
    cases k <;> simp_all [step, acquire, Meets]
  | route hk => cases k <;> simp_all [step, assign, Meets]
  | routeAt hk hp =>
    rw [← crosswalks_eq hk, ← allOn_iff] at hp
    cases k <;> simp_all [step, assign, Meets]
  | follow hk => cases k <;> simp_all [step, Meets]
  | change => simp [step, Meets]
  | direction => simp [step, Meets]
  | straight => simp [step, Meets]
  | cancel hk => cases k <;> simp_all [step, Meets]
  | done => cases k <;> simp [step, Meets]

/-- A map of whole numbers: even places are on a road, odd ones on a crosswalk, those from 100 on are
nowhere. -/
def demoWorld : World Nat Nat (List Nat) where
  snap c m := if m < 100 ∧ (m % 2 = 0 ∨ c = true) then some m else none
  samples t := t

def demoState : State Nat (List Nat) Nat := ⟨.laneChange, [8], none, some 3⟩

/-- A pedestrian may be sent to a crosswalk, a vehicle may not. -/
example : Asks (L := Nat) demoWorld .pedestrian (.routeAt [1, 2]) (.route [1, 2]) :=
  .routeAt (by decide) (by decide)
example : step demoWorld .pedestrian true demoState (.routeAt [1, 2])
    = ⟨⟨.followLane, [1, 2], none, some 3⟩, false⟩ := by decide
example : step demoWorld .vehicle true demoState (.routeAt [1, 2]) = ⟨demoState, true⟩ := by decide

/-- **C189.** A call that asks nothing of this entity leaves it doing what it was doing. Partial: not
so for a goal on the map that is not on a lane (see `C189_refused_violated`). -/
theorem C189_refused_partial (w : World P M T) (k : Kind) (lane : Bool) (s : State P T L)
    (c : Call P M T L) (h : ∀ d, ¬ Asks w k c d) (hp : ¬ c.ByPlace) :
    (step w k lane s c).state = s := by
  cases c with
  | acquire p => cases k <;> first | rfl | exact absurd (Asks.acquire (by decide)) (h _)
  | acquireAt m => exact absurd trivial hp
  | route p => cases k <;> first | rfl | exact absurd (Asks.route (by decide)) (h _)
  | routeAt ms =>
    by_cases hk : k = .misc
    · subst hk; rfl
    · have hn : allOn (w.snap (crosswalks k)) ms = none := by
        cases ha : allOn (w.snap (crosswalks k)) ms with
        | none => rfl
        | some ps =>
          rw [crosswalks_eq hk, allOn_iff] at ha
          exact absurd (Asks.routeAt hk ha) (h _)
      cases k <;> simp_all [step]
  | follow t =>
    cases t with
    | none => cases k <;> rfl
    | some t => cases k <;> first | rfl | exact absurd (Asks.follow (by decide)) (h _)
  | change c => cases k <;> first | rfl | exact absurd Asks.change (h _)
  | direction c =>
    cases c with
    | none => cases k <;> cases lane <;> rfl
    | some c => cases k <;> cases lane <;> first | rfl | exact absurd Asks.direction (h _)
  | straight => cases k <;> first | rfl | exact absurd Asks.straight (h _)
  | cancel => cases k <;> first | rfl | exact absurd (Asks.cancel (by decide)) (h _)
  | done => exact absurd Asks.done (h _)

/-- Walking straight on is not for vehicles. -/
example : ∀ d, ¬ Asks (L := Nat) demoWorld .vehicle .straight d := by
  intro d h; cases h

/-- **C189.** The caller of such a call is told: it throws. Partial: not if it was about a lane change
(see `C189_silent_violated`) or about dropping a request. -/
theorem C189_told_partial (w : World P M T) (k : Kind) (lane : Bool) (s : State P T L)
    (c : Call P M T L) (h : ∀ d, ¬ Asks w k c d) (hp : ¬ c.Mild) :
    (step w k lane s c).error = true := by
  cases c with
  | acquire p => cases k <;> first | rfl | exact absurd (Asks.acquire (by decide)) (h _)
  | acquireAt m =>
    by_cases hk : k = .misc
    · subst hk; rfl
    · have hn : w.snap (crosswalks k) m = none := by
        cases ha : w.snap (crosswalks k) m with
        | none => rfl
        | some p =>
          rw [crosswalks_eq hk] at ha
          exact absurd (Asks.acquireAt hk ha) (h _)
      cases k <;> simp_all [step]
  | route p => cases k <;> first | rfl | exact absurd (Asks.route (by decide)) (h _)
  | routeAt ms =>
    by_cases hk : k = .misc
    · subst hk; rfl
    · have hn : allOn (w.snap (crosswalks k)) ms = none := by
        cases ha : allOn (w.snap (crosswalks k)) ms with
        | none => rfl
        | some ps =>
          rw [crosswalks_eq hk, allOn_iff] at ha
          exact absurd (Asks.routeAt hk ha) (h _)
      cases k <;> simp_all [step]
  | follow t =>
    cases t with
    | none => cases k <;> rfl
    | some t => cases k <;> first | rfl | exact absurd (Asks.follow (by decide)) (h _)
  | straight => cases k <;> first | rfl | exact absurd Asks.straight (h _)
  | done => exact absurd Asks.done (h _)
  | change c => exact absurd trivial hp
  | direction c => exact absurd trivial hp
  | cancel => exact absurd trivial hp

theorem run_append (w : World P M T) (k : Kind) (s : State P T L)
    (a b : List (Bool × Call P M T L)) : run w k s (a ++ b) = run w k (run w k s a) b := by
  induction a generalizing s with
  | nil => rfl
  | cons c a ih => exact ih _

theorem run_idle (w : World P M T) (k : Kind) (s : State P T L) (b : List (Bool × Call P M T L))
    (h : ∀ c ∈ b, (∀ d, ¬ Asks w k c.2 d) ∧ ¬ c.2.ByPlace) : run w k s b = s := by
  induction b generalizing s with
  | nil => rfl
  | cons c b ih =>
    have hc := h c (by simp)
    rw [run, C189_refused_partial w k c.1 s c.2 hc.1 hc.2]
    exact ih s fun c' h' => h c' (by simp [h'])

/-- **C189.** After any history of calls, an entity does what it was asked last: neither what it was
asked before, nor the calls since then that could not be carried out, make a difference. Partial: the
last call that asked something found it on a lane, and none of those since then was a goal on the map
off the lanes. -/
theorem C189_last_partial (w : World P M T) (k : Kind) (s : State P T L)
    (before after : List (Bool × Call P M T L)) (c : Call P M T L) (d : Demand P T L)
    (h : Asks w k c d) (ha : ∀ c ∈ after, (∀ d, ¬ Asks w k c.2 d) ∧ ¬ c.2.ByPlace) :
    Meets (run w k s (before ++ (true, c) :: after)) d := by
  rw [run_append, run, run_idle w k _ after ha]
  exact (C189_accepted w k _ c d h).2

/-- A vehicle sent to 4, then to 6, then told to walk straight on, heads for 6. -/
example : run demoWorld .vehicle demoState
      [(true, .acquireAt 4), (true, .route [6]), (false, .straight)]
    = ⟨.followLane, [6], none, some 3⟩ := by decide

/-- **C189.** The route of an entity on a lane changes only when it is given a goal or a route, when
what was asked is dropped, and, for a vehicle, when it is given a trajectory: then its route is the
part of the trajectory, metre by metre, that is on lanes or crosswalks. A lane change and its end, and
walking straight on, leave the route as it was. -/
theorem C189_route (w : World P M T) (s : State P T L) (c : L) (lane : Bool) :
    (∀ k, (step w k lane s (.change c)).state.waypoints = s.waypoints) ∧
    (∀ k o, (step w k lane s (.direction o)).state.waypoints = s.waypoints) ∧
    (∀ k, (step w k lane s .straight).state.waypoints = s.waypoints) ∧
    (∀ k, (step w k lane s .done).state.waypoints = s.waypoints) ∧
    (∀ k, k ≠ .misc → (step w k lane s .cancel).state.waypoints = []) ∧
    (∀ t, (step w .vehicle lane s (.follow (some t))).state.waypoints
      = (w.samples t).filterMap (w.snap true)) := by
  refine ⟨?_, ?_, ?_, ?_, ?_, ?_⟩
  · intro k; cases k <;> rfl
  · intro k o; cases k <;> cases lane <;> cases o <;> rfl
  · intro k; cases k <;> rfl
  · intro k; rfl
  · intro k hk; cases k <;> first | rfl | exact absurd rfl hk
  · intro t; rfl

example : (step demoWorld .vehicle true demoState (.follow (some [1, 2, 200]))).state.waypoints
    = [1, 2] := by decide

/-- **C189.** A goal that cannot be reached does change what the entity does: a vehicle in the middle
of a lane change gives it up, although the call throws. -/
theorem C189_refused_violated :
    ∃ (w : World Nat Nat (List Nat)) (s : State Nat (List Nat) Nat) (c : Call Nat Nat (List Nat) Nat),
      (∀ d, ¬ Asks w .vehicle c d) ∧ Meets s (.change 3) ∧
      (step w .vehicle true s c).error = true ∧ ¬ Meets (step w .vehicle true s c).state (.change 3) := by
  refine ⟨demoWorld, demoState, .acquireAt 100, ?_, ⟨rfl, rfl⟩, by decide, ?_⟩
  · intro d h
    cases h with
    | acquireAt _ h => exact absurd h (by simp [demoWorld])
  · intro h
    exact absurd h.1 (by decide)

/-- **C189.** A route given to an entity that is on no lane is lost, without an error; a goal makes it
follow the route it had. -/
theorem C189_off_lane_violated (w : World P M T) (k : Kind) (hk : k ≠ .misc) (s : State P T L) :
    (∀ ps, step w k false s (.route ps) = ⟨s, false⟩) ∧
    (∀ p, step w k false s (.acquire p)
      = ⟨⟨.followLane, s.waypoints, s.trajectory, s.change⟩, false⟩) := by
  constructor <;> intro x <;> cases k <;> first | rfl | exact absurd rfl hk

/-- **C189.** A lane change asked of a pedestrian, or to a side where there is no lane, is ignored
without an error. -/
theorem C189_silent_violated (w : World P M T) (lane : Bool) (s : State P T L) (c : L) :
    (∀ d, ¬ Asks w .pedestrian (.change c) d) ∧
    step w .pedestrian lane s (.change c) = ⟨s, false⟩ ∧
    (∀ d, ¬ Asks (L := L) w .vehicle (.direction none) d) ∧
    step w .vehicle lane s (.direction none) = ⟨s, false⟩ := by
  refine ⟨?_, rfl, ?_, ?_⟩
  · intro d h; cases h
  · intro d h; cases h
  · cases lane <;> rfl

/-- **C189.** A pedestrian who is given a trajectory keeps the goals it had: they are not those of the
trajectory. -/
theorem C189_pedestrian_goals_violated (w : World P M T) (lane : Bool) (s : State P T L) (t : T) :
    (step w .pedestrian lane s (.follow (some t))).state.waypoints = s.waypoints := rfl

end

/-! ## Limits -/

section
variable {K : Type} [Field K] [LinearOrder K] [IsStrictOrderedRing K]

omit [Field K] [LinearOrder K] [IsStrictOrderedRing K] in
theorem put_value (l : Limits K) (f g : Which) (x : K) :
    (l.put x f).value g = if g = f then x else l.value g := by
  cases f <;> cases g <;> rfl

omit [IsStrictOrderedRing K] in
/-- **C190.** A limit that is not negative is accepted: it is the limit from then on, and the other
four are as they were. -/
theorem C190_set (k : Kind) (hk : k ≠ .misc) (l : Limits K) (f : Which) (x : K) (hx : 0 ≤ x) :
    (setLimit k l f x).2 = false ∧ (setLimit k l f x).1.value f = x ∧
    ∀ g, g ≠ f → (setLimit k l f x).1.value g = l.value g := by
  have h : setLimit k l f x = (l.put x f, false) := by
    cases k <;> first | exact absurd rfl hk | simp [setLimit, not_lt.2 hx]
  rw [h]
  refine ⟨rfl, by simp [put_value], fun g hg => by simp [put_value, hg]⟩

omit [IsStrictOrderedRing K] in
/-- **C190.** A negative one is refused with an error and changes nothing. -/
theorem C190_refused (k : Kind) (hk : k ≠ .misc) (l : Limits K) (f : Which) (x : K) (hx : x < 0) :
    setLimit k l f x = (l, true) := by
  cases k <;> first | exact absurd rfl hk | simp [setLimit, hx]

example : setLimit .vehicle (defaults .vehicle : Limits ℚ) .speed 0 = (⟨0, 10, 3, 10, 3⟩, false) := by
  decide +kernel
example : setLimit .pedestrian (defaults .pedestrian : Limits ℚ) .deceleration (-1)
    = (⟨50, 1, 1, 1, 1⟩, true) := by decide +kernel

omit [IsStrictOrderedRing K] in
theorem setAll_append (k : Kind) (l : Limits K) (a b : List (Which × K)) :
    setAll k l (a ++ b) = setAll k (setAll k l a) b := by
  induction a generalizing l with
  | nil => rfl
  | cons c a ih => exact ih _

omit [IsStrictOrderedRing K] in
/-- **C190.** A limit nobody sets to something that is not negative stays. -/
theorem C190_kept (k : Kind) (hk : k ≠ .misc) (l : Limits K) (f : Which) (cs : List (Which × K))
    (h : ∀ c ∈ cs, c.1 = f → c.2 < 0) : (setAll k l cs).value f = l.value f := by
  induction cs generalizing l with
  | nil => rfl
  | cons c cs ih =>
    rw [setAll, ih _ fun c' h' => h c' (by simp [h'])]
    by_cases hx : c.2 < 0
    · rw [C190_refused k hk l c.1 c.2 hx]
    · refine (C190_set k hk l c.1 c.2 (not_lt.1 hx)).2.2 f ?_
      intro hf
      exact hx (h c (by simp) hf.symm)

omit [IsStrictOrderedRing K] in
/-- **C190.** After any history, each limit is the last one that was set and accepted. -/
theorem C190_last (k : Kind) (hk : k ≠ .misc) (l : Limits K) (f : Which) (x : K) (hx : 0 ≤ x)
    (before after : List (Which × K)) (h : ∀ c ∈ after, c.1 = f → c.2 < 0) :
    (setAll k l (before ++ (f, x) :: after)).value f = x := by
  rw [setAll_append, setAll, C190_kept k hk _ f after h]
  exact (C190_set k hk _ f x hx).2.1

example : setAll .vehicle (defaults .vehicle : Limits ℚ)
      [(.speed, 5), (.acceleration, 2), (.speed, 7), (.speed, -1)]
    = ⟨7, 2, 3, 10, 3⟩ := by decide +kernel

omit [IsStrictOrderedRing K] in
/-- **C190.** No history of calls makes a limit negative. -/
theorem C190_never_negative (k : Kind) (l : Limits K) (h : ∀ f, 0 ≤ l.value f)
    (cs : List (Which × K)) (f : Which) : 0 ≤ (setAll k l cs).value f := by
  induction cs generalizing l with
  | nil => exact h f
  | cons c cs ih =>
    refine ih _ fun g => ?_
    cases k with
    | misc => exact h g
    | vehicle =>
      simp only [setLimit]
      split
      · exact h g
      · rename_i hx
        rw [put_value]; split
        · exact not_lt.1 hx
        · exact h g
    | pedestrian =>
      simp only [setLimit]
      split
      · exact h g
      · rename_i hx
        rw [put_value]; split
        · exact not_lt.1 hx
        · exact h g

/-- The limits one starts from, and goes back to, are not negative. -/
theorem C190_defaults (k : Kind) (f : Which) : 0 ≤ (defaults k : Limits K).value f := by
  cases k <;> cases f <;> simp [defaults, Limits.value]

omit [LinearOrder K] [IsStrictOrderedRing K] in
/-- **C190.** The limits one goes back to: those of the message, and 1 for a pedestrian but for the
speed. -/
theorem C190_reset :
    (defaults .vehicle : Limits K) = ⟨50, 10, 3, 10, 3⟩ ∧
    (defaults .pedestrian : Limits K) = ⟨50, 1, 1, 1, 1⟩ := ⟨rfl, rfl⟩

omit [IsStrictOrderedRing K] in
/-- **C190.** A vehicle accelerates and brakes no more than the limit in force, nor than it is able
to, and up to the smaller of the two. -/
theorem C190_vehicle (perf : K) (l : Limits K) (h : ∀ f, 0 ≤ l.value f) :
    maxAcceleration .vehicle perf l = some (min l.acceleration perf) ∧
    maxDeceleration .vehicle perf l = some (min l.deceleration perf) := by
  have h1 : ¬ l.acceleration < 0 := not_lt.2 (h .acceleration)
  have h2 : ¬ l.deceleration < 0 := not_lt.2 (h .deceleration)
  constructor
  · simp only [maxAcceleration, clamp, if_neg h1]
    split
    · rename_i hc; rw [min_eq_right hc.le]
    · rename_i hc; rw [min_eq_left (not_lt.1 hc)]
  · simp only [maxDeceleration, clamp, if_neg h2]
    split
    · rename_i hc; rw [min_eq_right hc.le]
    · rename_i hc; rw [min_eq_left (not_lt.1 hc)]

omit [IsStrictOrderedRing K] in
/-- **C190.** Whatever was set, even if the limits were put in place whole (`setDynamicConstraints`
does not look at them), a vehicle's acceleration and braking stay between zero and what it is able
to. -/
theorem C190_within (perf : K) (hp : 0 ≤ perf) (l : Limits K) :
    (∃ a, maxAcceleration .vehicle perf l = some a ∧ 0 ≤ a ∧ a ≤ perf) ∧
    (∃ a, maxDeceleration .vehicle perf l = some a ∧ 0 ≤ a ∧ a ≤ perf) := by
  have key : ∀ x : K, 0 ≤ clamp x 0 perf ∧ clamp x 0 perf ≤ perf := by
    intro x
    simp only [clamp]
    split
    · exact ⟨le_refl _, hp⟩
    · rename_i h0
      split
      · exact ⟨hp, le_refl _⟩
      · rename_i h1; exact ⟨not_lt.1 h0, not_lt.1 h1⟩
  exact ⟨⟨_, rfl, key _⟩, ⟨_, rfl, key _⟩⟩

example : maxAcceleration .vehicle (4 : ℚ) (defaults .vehicle) = some 4
    ∧ maxDeceleration .vehicle (4 : ℚ) ⟨50, 10, 3, 2, 3⟩ = some 2 := by decide +kernel

omit [LinearOrder K] [IsStrictOrderedRing K] in
/-- **C190.** A pedestrian has the limit in force; asking a misc object is an error. -/
theorem C190_others [LinearOrder K] (perf : K) (l : Limits K) :
    maxAcceleration .pedestrian perf l = some (l.value .acceleration) ∧
    maxDeceleration .pedestrian perf l = some (l.value .deceleration) ∧
    maxAcceleration .misc perf l = none ∧ maxDeceleration .misc perf l = none :=
  ⟨rfl, rfl, rfl, rfl⟩

omit [IsStrictOrderedRing K] in
/-- **C190.** The ego accepts a negative speed limit. -/
theorem C190_ego_violated (l : Limits K) (x : K) (_ : x < 0) :
    (setEgoSpeedLimit l x).2 = false ∧ (setEgoSpeedLimit l x).1.value .speed < 0 := by
  exact ⟨rfl, by assumption⟩

omit [IsStrictOrderedRing K] in
/-- **C190.** A limit set for a misc object is lost, without an error. -/
theorem C190_misc_violated (l : Limits K) (f : Which) (x : K) :
    setLimit .misc l f x = (l, false) := rfl

/-! ## Synchronising -/

omit [Field K] [IsStrictOrderedRing K] in
/-- **C191.** Synchronising is refused to the ego; an entity nearer to its place than the tolerance is
told so and gets the final speed as its target; any other one gets a job and keeps its target for the
moment. -/
theorem C191_request (far tol goal old : K) :
    requestSync true far tol goal old = (.refused, old) ∧
    (far < tol → requestSync false far tol goal old = (.arrived, goal)) ∧
    (tol ≤ far → requestSync false far tol goal old = (.waiting, old)) := by
  refine ⟨rfl, fun h => by simp [requestSync, h], fun h => by simp [requestSync, not_lt.2 h]⟩

example : requestSync false (1 : ℚ) 1 5 3 = (.waiting, 3) := by decide +kernel

omit [IsStrictOrderedRing K] in
theorem sync_target (eps up down goal : K) (s : Sight K) (d e : K)
    (h1 : s.onLane = true) (h2 : s.distance = some d) (h3 : s.other = true)
    (h4 : s.otherDistance = some e) (h5 : 0 ≤ e) :
    sync eps up down goal s
      = .target (pace up down s.speed goal (arrival eps e s.otherSpeed) d) := by
  simp [sync, h1, h2, h3, h4, not_lt.2 h5]

/-- **C191.** Let the other entity, at its present speed, take the time `t` to its place, and let `a`
be the acceleration with which the entity would have the final speed after the time `t`. If it would
then be short of its place it is told to speed up, if it would be past it to slow down, and if it would
be right there to keep its speed. -/
theorem C191_pace (eps up down goal : K) (heps : 0 ≤ eps) (s : Sight K) (d e t a : K)
    (h1 : s.onLane = true) (h2 : s.distance = some d) (h3 : s.other = true)
    (h4 : s.otherDistance = some e) (h5 : 0 ≤ e) (hv : eps < |s.otherSpeed|)
    (ht : s.otherSpeed * t = e) (ha : a * t = goal - s.speed) :
    (covered s.speed a t < d → sync eps up down goal s = .target (s.speed + up)) ∧
    (d < covered s.speed a t → sync eps up down goal s = .target (s.speed - down)) ∧
    (covered s.speed a t = d → sync eps up down goal s = .target s.speed) := by
  have hne : s.otherSpeed ≠ 0 := by
    intro h; rw [h, abs_zero] at hv; exact absurd (lt_of_le_of_lt heps hv) (lt_irrefl _)
  have hT : arrival eps e s.otherSpeed = t := by
    rw [arrival, if_pos hv, ← ht, mul_div_cancel_left₀ _ hne]
  have hc : covered s.speed a t = (s.speed + goal) * t / 2 := by
    have : a * t ^ 2 = (goal - s.speed) * t := by rw [pow_two, ← mul_assoc, ha]
    rw [covered, this]; ring
  rw [sync_target eps up down goal s d e h1 h2 h3 h4 h5, hT, hc]
  refine ⟨fun h => ?_, fun h => ?_, fun h => ?_⟩
  · simp only [pace]; rw [if_pos h]
  · simp only [pace]; rw [if_neg (not_lt.2 h.le), if_pos h]
  · simp only [pace]; rw [if_neg (by rw [h]; exact lt_irrefl _), if_neg (by rw [h]; exact lt_irrefl _)]

/-- The other one is 20 m off at 5 m/s: four seconds. At 4 m/s, and 6 m/s at the end, one makes 20 m in
that time. -/
example : sync (1/1000 : ℚ) (1/5) (1/5) 6 ⟨true, some 30, true, some 20, 5, 4⟩ = .target (21/5)
    ∧ sync (1/1000 : ℚ) (1/5) (1/5) 6 ⟨true, some 20, true, some 20, 5, 4⟩ = .target 4
    ∧ sync (1/1000 : ℚ) (1/5) (1/5) 6 ⟨true, some 10, true, some 20, 5, 4⟩ = .target (19/5) := by
  decide +kernel

/-- **C191.** In a frame the target moves from the present speed by no more than the entity can speed
up or slow down in that frame. -/
theorem C191_gentle (eps up down goal : K) (hu : 0 ≤ up) (hd : 0 ≤ down) (s : Sight K) (v : K)
    (h : sync eps up down goal s = .target v) : s.speed - down ≤ v ∧ v ≤ s.speed + up := by
  unfold sync at h
  split at h
  · cases h
  · split at h
    · cases h
    · split at h
      · cases h
      · split at h
        · cases h
        · split at h
          · cases h
          · injection h with h
            subst h
            simp only [pace]
            split
            · constructor <;> linarith
            · split <;> constructor <;> linarith

omit [IsStrictOrderedRing K] in
/-- **C191.** It is an error for the entity to be off the lanes, to have no way to its place (it has
passed it), or for the other one not to be there or to be off the lanes; in no other case does the job
throw. -/
theorem C191_error (eps up down goal : K) (s : Sight K) :
    sync eps up down goal s = .error ↔
      s.onLane = false ∨ s.distance = none ∨ s.other = false := by
  obtain ⟨l, d, o, e, w, v⟩ := s
  cases l <;> cases d <;> cases o <;> cases e <;> simp [sync]
  split <;> simp

omit [IsStrictOrderedRing K] in
/-- **C191.** It ends when the other one has passed its place, and no sooner. -/
theorem C191_over (eps up down goal : K) (s : Sight K)
    (h : ¬ (s.onLane = false ∨ s.distance = none ∨ s.other = false)) :
    sync eps up down goal s = .over ↔ ∀ e, s.otherDistance = some e → e < 0 := by
  obtain ⟨l, d, o, e, w, v⟩ := s
  cases l <;> cases d <;> cases o <;> cases e <;> simp_all [sync]

/-- What the entity and the other one see in frame `i`, both going on at their speeds. -/
def onTime (goal other time dt : K) (i : Nat) : Sight K :=
  ⟨true, some (goal * (time - i * dt)), true, some (other * (time - i * dt)), other, goal⟩

/-- **C191.** Once in step they stay in step: if the entity has its final speed and would arrive at the
same time as the other one, it is told to keep it in every frame until they both arrive. -/
theorem C191_in_step (eps up down goal other time dt : K) (heps : 0 ≤ eps) (hv : eps < other)
    (old : K) (n : Nat) (hn : ∀ i : Nat, i < n → (i : K) * dt ≤ time) (m : Nat) (hm : m ≤ n) :
    syncRun eps up down goal old ((List.range' (n - m) m).map (onTime goal other time dt))
      = (if m = 0 then old else goal, false) := by
  have hpos : 0 < other := lt_of_le_of_lt heps hv
  induction m generalizing old with
  | zero => rfl
  | succ m ih =>
    have h0 : 0 ≤ other * (time - ((n - (m + 1) : Nat) : K) * dt) :=
      mul_nonneg hpos.le (sub_nonneg.2 (hn _ (by omega)))
    have hs : sync eps up down goal (onTime goal other time dt (n - (m + 1))) = .target goal :=
      (C191_pace eps up down goal heps (onTime goal other time dt (n - (m + 1)))
        (goal * (time - ((n - (m + 1) : Nat) : K) * dt))
        (other * (time - ((n - (m + 1) : Nat) : K) * dt))
        (time - ((n - (m + 1) : Nat) : K) * dt) 0 rfl rfl rfl rfl h0
        (by rw [onTime, abs_of_pos hpos]; exact hv) rfl (by simp [onTime])).2.2
        (by simp [covered, onTime])
    rw [List.range'_succ, List.map_cons, syncRun, hs]
    have : n - (m + 1) + 1 = n - m := by omega
    simp only [this]
    rw [ih goal (by omega)]
    simp

example : syncRun (1/1000 : ℚ) (1/5) (1/5) 6 6
    ((List.range' 0 3).map (onTime 6 5 1 (1/2))) = (6, false) := by decide +kernel

/-- **C191.** The speed asked for is not negative as long as the entity is faster than it can brake in
a frame. Partial: see `C191_backwards_violated`. -/
theorem C191_forwards_partial (eps up down goal : K) (hu : 0 ≤ up) (hd : 0 ≤ down) (s : Sight K)
    (v : K) (hs : down ≤ s.speed) (h : sync eps up down goal s = .target v) : 0 ≤ v := by
  have := (C191_gentle eps up down goal hu hd s v h).1
  linarith

/-- **C191.** A slow entity that is too early is asked to go backwards. -/
theorem C191_backwards_violated :
    ∃ s : Sight ℚ, 0 ≤ s.speed ∧ 0 ≤ s.otherSpeed ∧
      ∃ v, sync (1/1000) (1/5) (1/5) 6 s = .target v ∧ v < 0 :=
  ⟨⟨true, some 1, true, some 20, 5, 0⟩, by decide +kernel, by decide +kernel, -1/5,
    by decide +kernel, by decide +kernel⟩

/-- **C191.** If the other one stands still, the entity, however fast and however near, is asked to go
faster and faster: after `n` frames in each of which it did what it was asked, it is at `n` times what
it can gain in a frame, whatever final speed was asked for. -/
theorem C191_standing_violated (eps up down goal : K) (heps : 0 ≤ eps) (e : K) (he : 0 ≤ e)
    (far : Nat → K) (hfar : ∀ i, 0 < far i) (v : K) (n m : Nat) (hm : m ≤ n) :
    syncRun eps up down goal (v + ((n - m : Nat) : K) * up)
      ((List.range' (n - m) m).map fun i : Nat =>
        (⟨true, some (far i), true, some e, 0, v + i * up⟩ : Sight K))
      = (v + n * up, false) := by
  induction m with
  | zero => rfl
  | succ m ih =>
    rw [List.range'_succ, List.map_cons, syncRun,
      sync_target eps up down goal _ (far (n - (m + 1))) e rfl rfl rfl rfl he]
    have ha : arrival eps e (0 : K) = 0 := by
      rw [arrival, abs_zero, if_neg (not_lt.2 heps)]
    have h1 : n - (m + 1) + 1 = n - m := by omega
    simp only [ha, pace, mul_zero, zero_div, hfar, if_true, h1]
    have h2 : v + ((n - (m + 1) : Nat) : K) * up + up = v + ((n - m : Nat) : K) * up := by
      rw [← h1]; push_cast; ring
    rw [h2]
    exact ih (by omega)

/-- **C191.** When the job is over the target speed is the last one it asked for, not the final speed
of the request. -/
theorem C191_final_speed_violated :
    ∃ ss : List (Sight ℚ), syncRun (1/1000) (1/5) (1/5) 6 4 ss = (21/5, false) :=
  ⟨[⟨true, some 30, true, some 20, 5, 4⟩, ⟨true, some 29, true, none, 5, 21/5⟩], by decide +kernel⟩

/-! ## Out of range -/

theorem fits_iff (lo hi x : K) : fits lo hi x = false ↔ Outside lo hi x := by
  have h : (lo ≤ x + 1 / 100 ∧ x - 1 / 100 ≤ hi) ↔ ¬ Outside lo hi x := by
    unfold Outside
    constructor
    · rintro ⟨h1, h2⟩ (h | h) <;> linarith
    · intro h
      constructor
      · by_contra hc; exact h (Or.inl (by linarith [not_le.1 hc]))
      · by_contra hc; exact h (Or.inr (by linarith [not_le.1 hc]))
  rw [← not_iff_not, ← h]
  simp [fits, tolerance]

/-- **C192.** A frame is complained about if and only if the speed, the acceleration or the jerk is out
of its range by more than a hundredth, and the entity is not at the end of the lanes. -/
theorem C192_complains (r : Ranges K) (f : Frame K) :
    (∃ c, (postUpdate r f).2 = some c) ↔ f.atEnd = false ∧ ∃ c, r.Broken f c := by
  have key : (∃ c, check r f = some c) ↔ ∃ c, r.Broken f c := by
    constructor
    · rintro ⟨c, h⟩
      unfold check at h
      split at h
      · rename_i h1
        exact ⟨.speed, (fits_iff _ _ _).1 (by simpa using h1)⟩
      · split at h
        · rename_i h1
          exact ⟨.acceleration, (fits_iff _ _ _).1 (by simpa using h1)⟩
        · split at h
          · rename_i h1
            exact ⟨.jerk, (fits_iff _ _ _).1 (by simpa using h1)⟩
          · cases h
    · rintro ⟨c, h⟩
      unfold check
      split
      · exact ⟨_, rfl⟩
      · split
        · exact ⟨_, rfl⟩
        · split
          · exact ⟨_, rfl⟩
          · rename_i h1 h2 h3
            exfalso
            cases c with
            | speed => exact h1 (by rw [(fits_iff _ _ _).2 h]; rfl)
            | acceleration => exact h2 (by rw [(fits_iff _ _ _).2 h]; rfl)
            | jerk => exact h3 (by rw [(fits_iff _ _ _).2 h]; rfl)
  cases he : f.atEnd with
  | true => simp [postUpdate, he]
  | false => simpa [postUpdate, he] using key

/-- **C192.** The complaint is about something that is out of its range. -/
theorem C192_names (r : Ranges K) (f : Frame K) (c : Complaint) (h : (postUpdate r f).2 = some c) :
    r.Broken f c := by
  unfold postUpdate at h
  split at h
  · cases h
  · simp only [check] at h
    split at h
    · rename_i h1
      cases h; exact (fits_iff _ _ _).1 (by simpa using h1)
    · split at h
      · rename_i h1
        cases h; exact (fits_iff _ _ _).1 (by simpa using h1)
      · split at h
        · rename_i h1
          cases h; exact (fits_iff _ _ _).1 (by simpa using h1)
        · cases h

def demoRanges : Ranges ℚ := ⟨0, 10, -5, 3, -1, 1⟩

example : (postUpdate demoRanges ⟨10 + 1/100, 0, 0, false⟩).2 = none
    ∧ (postUpdate demoRanges ⟨10 + 2/100, 0, 0, false⟩).2 = some .speed
    ∧ (postUpdate demoRanges ⟨10, -6, 2, false⟩).2 = some .acceleration
    ∧ (postUpdate demoRanges ⟨10, 0, 2, false⟩).2 = some .jerk := by decide +kernel

/-- **C192.** A scenario goes on without a complaint as long as nothing is out of range. -/
theorem C192_silent (r : Ranges K) (n : Nat) (fs : List (Frame K)) :
    watch r n fs = none ↔ ∀ f ∈ fs, f.atEnd = true ∨ ∀ c, ¬ r.Broken f c := by
  induction fs generalizing n with
  | nil => simp [watch]
  | cons f fs ih =>
    have hc := C192_complains r f
    rw [watch]
    cases h : (postUpdate r f).2 with
    | some c =>
      simp only [reduceCtorEq, false_iff]
      intro hall
      obtain ⟨h1, c', h2⟩ := hc.1 ⟨c, h⟩
      rcases hall f (by simp) with h' | h'
      · rw [h1] at h'; cases h'
      · exact h' c' h2
    | none =>
      simp only [ih, List.mem_cons, forall_eq_or_imp]
      refine ⟨fun hall => ⟨?_, hall⟩, fun hall => hall.2⟩
      cases he : f.atEnd with
      | true => exact Or.inl rfl
      | false =>
        refine Or.inr fun c hb => ?_
        obtain ⟨c', h'⟩ := hc.2 ⟨he, c, hb⟩
        rw [h] at h'; cases h'

/-- **C192.** The complaint comes with the first frame in which something is out of range: that frame
is not at the end of the lanes, what is complained about is out of range in it, and nothing was in any
frame before, but at the end of the lanes. -/
theorem C192_first (r : Ranges K) (start : Nat) (fs : List (Frame K)) (n : Nat) (c : Complaint)
    (h : watch r start fs = some (n, c)) :
    ∃ before f after, fs = before ++ f :: after ∧ n = start + before.length ∧
      f.atEnd = false ∧ r.Broken f c ∧
      ∀ g ∈ before, g.atEnd = true ∨ ∀ c, ¬ r.Broken g c := by
  induction fs generalizing start with
  | nil => cases h
  | cons f fs ih =>
    rw [watch] at h
    cases hf : (postUpdate r f).2 with
    | some c' =>
      rw [hf] at h
      simp only [Option.some.injEq, Prod.mk.injEq] at h
      obtain ⟨h1, h2⟩ := h
      subst h1; subst h2
      exact ⟨[], f, fs, rfl, by simp, ((C192_complains r f).1 ⟨_, hf⟩).1, C192_names r f _ hf,
        by simp⟩
    | none =>
      rw [hf] at h
      obtain ⟨before, g, after, h1, h2, h3, h4, h5⟩ := ih (start + 1) h
      refine ⟨f :: before, g, after, by rw [h1]; rfl, by rw [h2, List.length_cons]; omega, h3, h4, ?_⟩
      intro g' hg
      rcases List.mem_cons.1 hg with rfl | hg
      · cases he : g'.atEnd with
        | true => exact Or.inl rfl
        | false =>
          refine Or.inr fun c hb => ?_
          obtain ⟨c', h'⟩ := (C192_complains r g').2 ⟨he, c, hb⟩
          rw [hf] at h'; cases h'
      · exact h5 g' hg

example : watch demoRanges 0 [⟨5, 0, 0, false⟩, ⟨50, 0, 0, true⟩, ⟨5, 4, 0, false⟩]
    = some (2, .acceleration) := by decide +kernel

/-- **C192.** At the end of the lanes the entity stops and nothing is looked at: neither that it was
out of range before it was stopped, nor that it now is, at speed zero, below the least speed. -/
theorem C192_end_violated (r : Ranges K) (f : Frame K) (he : f.atEnd = true)
    (hr : 1 / 100 < r.minSpeed) :
    r.Broken (postUpdate r f).1 .speed ∧ (postUpdate r f).2 = none := by
  simp only [postUpdate, he, if_true, and_true]
  exact Or.inl (by simp only; linarith)

end

end Verif.Request
