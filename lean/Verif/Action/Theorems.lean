import Verif.Action.Lemmas
/-
Properties of actions that take time.
-/
namespace Verif.Action

/-! ### C70: SpeedAction -/

theorem not_continuous {t : Target} (h : ¬ Continuous t) : t.endless = false := by
  cases t with
  | absolute v => rfl
  | relative r type v c =>
    cases c with
    | false => rfl
    | true => exact absurd ⟨r, type, v, rfl⟩ h

/-- A SpeedAction that is neither a step nor continuous ends in the first frame by which its actors have reached the target speed
one after the other, in the order in which they are looked at. -/
theorem C70_exact (a : SpeedAction) (hs : a.shape ≠ .step) (hc : ¬ Continuous a.target) (order : List Entity)
    (frames : List Speeds) (n : Nat) :
    a.ends order frames = some n ↔
      n < frames.length ∧ First (fun m => InTurn (ReachedAt a.target frames) 0 order m) n := by
  rw [SpeedAction.ends, if_neg hs, if_neg (by rw [not_continuous hc]; simp), ends_initial, List.length_map]
  have : Checked (frames.map a.check) = ReachedAt a.target frames := by
    funext m e
    exact propext (checked_speed a frames m e)
  rw [this]

/-- **C70**: when a SpeedAction ends, each of its actors has reached the target speed since the start. -/
theorem C70_reached (a : SpeedAction) (hs : a.shape ≠ .step) {actors order : List Entity} (ho : Lists order actors)
    (frames : List Speeds) (n : Nat) (h : a.ends order frames = some n) :
    ∀ e ∈ actors, ∃ m, m ≤ n ∧ ReachedAt a.target frames m e := by
  have hc : ¬ Continuous a.target := by
    rintro ⟨r, t, v, ht⟩
    rw [SpeedAction.ends, if_neg hs, ht] at h
    simp [Target.endless] at h
  intro e he
  obtain ⟨m, _, h1, h2⟩ := (((C70_exact a hs hc order frames n).mp h).2.1).mem e ((ho.2 e).mpr he)
  exact ⟨m, h1, h2⟩

/-- **C70**: a SpeedAction has ended by any frame in which all its actors have the target speed. -/
theorem C70_ends (a : SpeedAction) (hs : a.shape ≠ .step) (hc : ¬ Continuous a.target) {actors order : List Entity}
    (ho : Lists order actors) (frames : List Speeds) (n : Nat) (hn : n < frames.length)
    (h : ∀ e ∈ actors, ReachedAt a.target frames n e) :
    ∃ m, m ≤ n ∧ a.ends order frames = some m := by
  rw [SpeedAction.ends, if_neg hs, if_neg (by rw [not_continuous hc]; simp), initial_eq]
  refine (ends_accomplishments _ [] order n (by simpa using hn)).mpr ?_
  refine InTurn.together (Nat.zero_le n) fun e he => ?_
  exact (checked_speed a frames n e).mpr (h e ((ho.2 e).mp he))

/-- **C70** for one actor: the action ends in the first frame in which the actor has the target speed. -/
theorem C70_one_actor_partial (a : SpeedAction) (hs : a.shape ≠ .step) (hc : ¬ Continuous a.target) (e : Entity)
    (frames : List Speeds) (n : Nat) :
    a.ends [e] frames = some n ↔ First (fun m => ReachedAt a.target frames m e) n := by
  rw [C70_exact a hs hc]
  constructor
  · rintro ⟨hn, h1, h2⟩
    obtain ⟨m, _, hm, hr⟩ := h1.mem e (by simp)
    have hmn : m = n := by
      by_cases hmn : m = n
      · exact hmn
      · exact (h2 m (by omega) (.cons (Nat.zero_le m) hr (.nil (Nat.le_refl m)))).elim
    subst hmn
    exact ⟨hr, fun k hk hc => h2 k hk (.cons (Nat.zero_le k) hc (.nil (Nat.le_refl k)))⟩
  · rintro ⟨h1, h2⟩
    refine ⟨?_, .cons (Nat.zero_le n) h1 (.nil (Nat.le_refl n)), fun k hk hc => ?_⟩
    · obtain ⟨s, hs, _⟩ := h1
      exact (List.getElem?_eq_some_iff.mp hs).1
    · obtain ⟨m, _, hm, hr⟩ := hc.mem e (by simp)
      exact h2 m (by omega) hr

/-- **C70**: with the shape "step" it ends in the frame in which it starts, and a continuous relative target never. -/
theorem C70_special (a : SpeedAction) (order : List Entity) (s : Speeds) (frames : List Speeds) :
    (a.shape = .step → a.ends order (s :: frames) = some 0) ∧
      (a.shape ≠ .step → ∀ r t v, a.target = .relative r t v true → a.ends order (s :: frames) = none) := by
  constructor
  · intro h; simp [SpeedAction.ends, h]
  · intro h r t v ht; simp [SpeedAction.ends, h, ht, Target.endless]

/-- Two actors for the target 10 m/s: object 1 has it in the first frame only, object 0 in the second frame only. -/
def twoActors : List Speeds :=
  [fun o => if o = 0 then some 5 else some 10, fun o => if o = 0 then some 10 else some 5]

/-- **C70 is false for several actors**: each actor has reached the target speed at some time, but the action does not end,
since an actor is not looked at while one before it has not reached the target. -/
theorem C70_violated :
    let a : SpeedAction := ⟨.linear, .absolute 10⟩
    let actors : List Entity := [⟨0, [0]⟩, ⟨1, [1]⟩]
    (∀ e ∈ actors, ∃ m, ReachedAt a.target twoActors m e) ∧ a.ends actors twoActors = none := by
  refine ⟨?_, by decide +kernel⟩
  intro e he
  simp only [List.mem_cons, List.not_mem_nil, or_false] at he
  rcases he with rfl | rfl
  · refine ⟨1, _, rfl, fun o ho => ?_⟩
    obtain rfl : o = 0 := by simpa using ho
    exact ⟨10, 10, rfl, rfl, by decide +kernel, by decide +kernel⟩
  · refine ⟨0, _, rfl, fun o ho => ?_⟩
    obtain rfl : o = 1 := by simpa using ho
    exact ⟨10, 10, rfl, rfl, by decide +kernel, by decide +kernel⟩

/-- Non-vacuity: a selection of two objects following object 9 by 2 m/s less, which ends in the third frame, and the two actors
in the other order, where the action ends in the second frame. -/
example : (SpeedAction.mk .linear (.relative 9 .delta (-2) false)).ends [⟨0, [0, 1]⟩]
    [fun _ => some 10, fun o => if o = 9 then some 10 else if o = 0 then some 8 else some 7,
      fun o => if o = 9 then some 12 else some 10] = some 2 := by decide +kernel

example : (SpeedAction.mk .linear (.absolute 10)).ends [⟨1, [1]⟩, ⟨0, [0]⟩] twoActors = some 1 := by decide +kernel

/-! ### C71: SpeedProfileAction -/

/-- **C71**: the entries of a speed profile are requested for each actor in order, each once: the first when the action starts (once for
every mention of the actor), every other one in the frame in which the actor has reached the speed of its predecessor. -/
theorem C71_requests (reference : Option Obj) (first : Entry) (rest : List Entry) {actors order : List Entity}
    (ho : Lists order actors) (frames : List Speeds) (e : Entity) (he : e ∈ actors) :
    ∃ times, Passes (HasSpeed reference frames e) frames.length 0 (first :: rest) times ∧
      (profileRequests reference (first :: rest) actors order frames).filter (fun r => r.actor = e) =
        List.replicate (actors.count e) ⟨0, e, first⟩ ++ List.zipWith (fun t x => ⟨t, e, x⟩) times rest := by
  obtain ⟨times, h1, h2, h3⟩ := profileOne_passes reference e frames frames 0 (first :: rest) rfl (by simp)
  refine ⟨times, h1, ?_⟩
  rw [profileRequests, List.filter_append,
    (profileFrames_eq reference frames 0 _ (profileStart_nodup ho.1)).2 e (first :: rest)
      (List.mem_map.mpr ⟨e, (ho.2 e).mpr he, rfl⟩), h3, requestsAt_eq, List.tail_cons]
  congr 1
  simp only [profileStartRequests]
  clear he ho
  induction actors with
  | nil => rfl
  | cons x l ih =>
    rw [List.map_cons, List.filter_cons, List.count_cons]
    by_cases hx : x = e
    · simp [hx, ih, List.replicate_succ]
    · simp [hx, ih]

/-- **C71**: the action ends in the first frame by which every actor has reached all entries one after the other. -/
theorem C71_ends (reference : Option Obj) (entries : List Entry) {actors order : List Entity} (ho : Lists order actors)
    (frames : List Speeds) (n : Nat) :
    profileEnds reference entries order frames = some n ↔
      n < frames.length ∧ First (fun m => ∀ e ∈ actors, Completed (HasSpeed reference frames e) entries (m + 1)) n := by
  have key : ∀ m, m < frames.length →
      (profileAccomplished (profileFrames reference 0 (profileStart entries order) (frames.take (m + 1))).1 = true ↔
        ∀ e ∈ actors, Completed (HasSpeed reference frames e) entries (m + 1)) := by
    intro m hm
    rw [profileAccomplished_iff reference entries ho.1]
    have hl : (frames.take (m + 1)).length = m + 1 := by simp; omega
    rw [hl]
    constructor
    · intro h e he
      obtain ⟨ts, h1, h2⟩ := h e ((ho.2 e).mpr he)
      exact ⟨ts, h1.congr fun k x hk => hasSpeed_take reference frames e (m + 1) k x hk, h2⟩
    · intro h e he
      obtain ⟨ts, h1, h2⟩ := h e ((ho.2 e).mp he)
      exact ⟨ts, h1.congr fun k x hk => (hasSpeed_take reference frames e (m + 1) k x hk).symm, h2⟩
  rw [profileEnds, profileFrames_take]
  constructor
  · rintro ⟨k, rfl, hk, h1, h2⟩
    rw [Nat.zero_add]
    exact ⟨hk, (key k hk).mp h1, fun j hj hc => h2 j hj ((key j (by omega)).mpr hc)⟩
  · rintro ⟨hk, h1, h2⟩
    exact ⟨n, (Nat.zero_add n).symm, hk, (key n hk).mpr h1, fun j hj hc => h2 j hj ((key j (by omega)).mp hc)⟩

/-- Non-vacuity: two entries, reached in the frames 1 and 3. -/
example :
    let frames : List Speeds := [fun _ => some 0, fun _ => some 5, fun _ => some 7, fun _ => some 10]
    profileEnds none [⟨5, none⟩, ⟨10, some 3⟩] [⟨0, [0]⟩] frames = some 3 ∧
      profileRequests none [⟨5, none⟩, ⟨10, some 3⟩] [⟨0, [0]⟩] [⟨0, [0]⟩] frames =
        [⟨0, ⟨0, [0]⟩, ⟨5, none⟩⟩, ⟨1, ⟨0, [0]⟩, ⟨10, some 3⟩⟩] := by decide +kernel

/-! ### C72: LaneChangeAction and FollowTrajectoryAction end when all have finished -/

theorem checked_busy (frames : List (Obj → Bool)) (n : Nat) (e : Entity) :
    Checked (frames.map laneChangeCheck) n e ↔ ∃ busy, frames[n]? = some busy ∧ ∃ o ∈ e.objects, busy o = false := by
  unfold Checked
  rw [List.getElem?_map]
  constructor
  · rintro ⟨c, h, hc⟩
    rw [Option.map_eq_some_iff] at h
    obtain ⟨busy, hb, rfl⟩ := h
    refine ⟨busy, hb, ?_⟩
    simpa [laneChangeCheck] using hc
  · rintro ⟨busy, hb, h⟩
    exact ⟨laneChangeCheck busy, by rw [hb]; rfl, by simpa [laneChangeCheck] using h⟩

/-- **C72, the part that holds**: a LaneChangeAction ends in the first frame by which, one after the other, each actor has had a
member that is not changing lanes. Missing: that all members have finished, and that the lane change has begun. -/
theorem C72_lane_change_partial (order : List Entity) (frames : List (Obj → Bool)) (n : Nat) :
    laneChangeEnds order frames = some n ↔ n < frames.length ∧
      First (fun m => InTurn (fun k e => ∃ busy, frames[k]? = some busy ∧ ∃ o ∈ e.objects, busy o = false) 0 order m) n := by
  rw [laneChangeEnds, ends_initial, List.length_map]
  have : Checked (frames.map laneChangeCheck) =
      fun k e => ∃ busy, frames[k]? = some busy ∧ ∃ o ∈ e.objects, busy o = false := by
    funext k e
    exact propext (checked_busy frames k e)
  rw [this]

/-- **C72 is false for a LaneChangeAction**: unless the objects are changing lanes already when it starts, it ends in the very frame
in which it starts, whatever happens later, since the simulator has not yet begun the lane change. -/
theorem C72_lane_change_violated (order : List Entity) (busy : Obj → Bool) (frames : List (Obj → Bool))
    (h : ∀ e ∈ order, ∃ o ∈ e.objects, busy o = false) : laneChangeEnds order (busy :: frames) = some 0 := by
  rw [C72_lane_change_partial]
  refine ⟨by simp, InTurn.together (Nat.le_refl 0) fun e he => ⟨busy, rfl, h e he⟩, fun m hm => by omega⟩

/-- **C72 is false for selections**: the action ends when one member has finished, here object 0, while object 1 goes on. -/
theorem C72_selection_violated :
    laneChangeEnds [⟨5, [0, 1]⟩] [fun _ => true, fun o => o == 1] = some 1 ∧
      trajectoryEnds false [⟨5, [0, 1]⟩] [fun _ => true, fun o => o == 1] = some 1 := by decide +kernel

/-- **C72, the part that holds**: a FollowTrajectoryAction never ends in the frame in which it starts, and never if the trajectory is
closed; otherwise it ends in the first later frame by which, one after the other, each actor has had a member that is not following a
trajectory. Missing: that all members have finished. -/
theorem C72_trajectory_partial (closed : Bool) (order : List Entity) (frames : List (Obj → Bool)) (n : Nat) :
    trajectoryEnds closed order frames = some n ↔ closed = false ∧ order ≠ [] ∧ n < frames.length ∧
      First (fun m => 0 < m ∧
        InTurn (fun k e => ∃ busy, frames[k]? = some busy ∧ ∃ o ∈ e.objects, busy o = false) 1 order m) n := by
  cases frames with
  | nil => simp [trajectoryEnds]
  | cons b frames =>
    rw [trajectoryEnds]
    cases closed with
    | true => simp
    | false =>
      by_cases ho : order = []
      · simp [ho]
      simp only [Bool.false_eq_true, if_false, ho, ne_eq, not_false_eq_true, true_and, Option.map_eq_some_iff]
      have hP : ∀ m, InTurn (fun k e => ∃ busy, (b :: frames)[k]? = some busy ∧ ∃ o ∈ e.objects, busy o = false) 1 order (m + 1) ↔
          InTurn (Checked (frames.map laneChangeCheck)) 0 order m := by
        intro m
        rw [InTurn.shift]
        have : Checked (frames.map laneChangeCheck) =
            fun k e => ∃ busy, (b :: frames)[k + 1]? = some busy ∧ ∃ o ∈ e.objects, busy o = false := by
          funext k e
          exact propext (checked_busy frames k e)
        rw [this]
      constructor
      · rintro ⟨k, hk, rfl⟩
        rw [ends_initial] at hk
        obtain ⟨h1, h2, h3⟩ := hk
        refine ⟨by simpa using h1, ⟨by omega, (hP k).mpr h2⟩, fun m hm hc => ?_⟩
        obtain ⟨j, rfl⟩ : ∃ j, m = j + 1 := ⟨m - 1, by have := hc.1; omega⟩
        exact h3 j (by omega) ((hP j).mp hc.2)
      · rintro ⟨hn, ⟨h0, h1⟩, h2⟩
        obtain ⟨k, rfl⟩ : ∃ k, n = k + 1 := ⟨n - 1, by omega⟩
        refine ⟨k, (ends_initial _ _ _).mpr ⟨by simpa using hn, (hP k).mp h1, fun j hj hc => ?_⟩, rfl⟩
        exact h2 (j + 1) (by omega) ⟨by omega, (hP j).mpr hc⟩

/-- **C72 is false without actors**: a FollowTrajectoryAction of a maneuver group without actors never ends. -/
theorem C72_no_actors_violated (closed : Bool) (frames : List (Obj → Bool)) : trajectoryEnds closed [] frames = none := by
  cases frames <;> cases closed <;> simp [trajectoryEnds]

/-- Non-vacuity: two vehicles following a trajectory, the second until frame 2. -/
example : trajectoryEnds false [⟨0, [0]⟩, ⟨1, [1]⟩] [fun _ => false, fun o => o == 1, fun _ => false] = some 2 := by decide +kernel

/-! ### C73: the trajectory an entity follows -/

/-- The exact trajectories: every member of an actor follows the vertices given, preceded by the poses of *all* members of that
actor, the last one first. -/
theorem C73_exact {P : Type} (pose : Obj → P) (offset scale : Rat) (vertices : List (Vertex P)) (actors : List Entity)
    (hd : Disjoint actors) (m : Memory P) (e : Entity) (he : e ∈ actors) (o : Obj) (ho : o ∈ e.objects) :
    (startTrajectories pose offset scale vertices actors m).trajectoryOf o =
      some ((e.objects.map fun x => ⟨none, pose x⟩).reverse ++
        vertices.map fun v => ⟨v.time.map fun t => offset + scale * t, v.position⟩) :=
  foldl_startTrajectory pose _ actors m hd e he o ho

/-- **C73 for actors that are single objects**: each follows the vertices given, with their times scaled and moved as asked for, from
where it is. Missing: selections, for which it is false. -/
theorem C73_objects_partial {P : Type} (pose : Obj → P) (offset scale : Rat) (vertices : List (Vertex P))
    (actors : List Entity) (hd : Disjoint actors) (m : Memory P) (e : Entity) (he : e ∈ actors) (o : Obj) (ho : e.objects = [o]) :
    (startTrajectories pose offset scale vertices actors m).trajectoryOf o =
      some (⟨none, pose o⟩ :: vertices.map fun v => ⟨v.time.map fun t => offset + scale * t, v.position⟩) := by
  rw [C73_exact pose offset scale vertices actors hd m e he o (by simp [ho]), ho]
  rfl

/-- **C73 is false for selections**: of the objects 0 and 1 at the positions 100 and 200, asked to go to 300, both follow a trajectory
that begins at 200 and leads to 100 first. -/
theorem C73_violated :
    let m := startTrajectories (fun o => if o = 0 then (100 : Nat) else 200) 0 1 [⟨some 5, 300⟩] [⟨7, [0, 1]⟩] ⟨[], fun _ => none⟩
    m.trajectoryOf 0 = some [⟨none, 200⟩, ⟨none, 100⟩, ⟨some 5, 300⟩] ∧
      m.trajectoryOf 1 = some [⟨none, 200⟩, ⟨none, 100⟩, ⟨some 5, 300⟩] := by decide +kernel

example : (startTrajectories (fun o => o) 2 3 [⟨some 5, 300⟩] [⟨7, [0]⟩, ⟨8, [1]⟩] ⟨[], fun _ => none⟩).trajectoryOf 1 =
    some [⟨none, 1⟩, ⟨some 17, 300⟩] := by decide +kernel

end Verif.Action
