import Verif.Operator.Model
import Verif.Operator.Spec
/-
C147: who controls the ego.
-/
namespace Verif.Operator

open Spec

variable {P L I M U T S K : Type}

/-- Frames, one after the other; `now` is the time that is given to each. -/
def frames [Add K] (advance : Advance P L T S K) (step : K) : List K → Ego P L I M U T S K → Except Fault (Ego P L I M U T S K)
  | [], e => .ok e
  | now :: nows, e => match onUpdate advance now step e with
    | .error f => .error f
    | .ok e => frames advance step nows e

theorem frames_append [Add K] (advance : Advance P L T S K) (step : K) : ∀ (ns ms : List K) (e e' : Ego P L I M U T S K), frames advance step ns e = .ok e' →
    frames advance step (ns ++ ms) e = frames advance step ms e'
  | [], ms, e, e', h => by cases h; rfl
  | n :: ns, ms, e, e', h => by
    simp only [frames, List.cons_append] at h ⊢
    split at h
    · cases h
    · next h' => exact frames_append advance step ns ms _ e' h

/-- The frames before the end. -/
theorem frames_follow [Add K] (advance : Advance P L T S K) (step : K) (t : T) (v : Option K) (road : Nat → P × Option L × S) :
    ∀ (nows : List K) (k : Nat) (e : Ego P L I M U T S K), e.controlled = true → e.trajectory = some t → e.targetSpeed = v → (e.pose, e.place, e.rest) = road k →
      (∀ j, j < nows.length → advance t v (road (k + j)).1 (road (k + j)).2.1 (road (k + j)).2.2 = .ok (some (road (k + j + 1)))) →
      ∃ e', frames advance step nows e = .ok e' ∧ e'.controlled = true ∧ e'.trajectory = some t ∧ e'.targetSpeed = v ∧ (e'.pose, e'.place, e'.rest) = road (k + nows.length) ∧ e'.tasks = e.tasks
  | [], k, e, hc, ht, hv, hp, _ => ⟨e, rfl, hc, ht, hv, hp, rfl⟩
  | n :: nows, k, e, hc, ht, hv, hp, ha => by
    have h0 := ha 0 (by simp)
    rw [Nat.add_zero, ← hp] at h0
    obtain ⟨e', h1, h2, h3, h4, h5, h6⟩ := frames_follow advance step t v road nows (k + 1) { e with pose := (road (k + 1)).1, place := (road (k + 1)).2.1, rest := (road (k + 1)).2.2, time := e.time + step }
      hc ht hv rfl (fun j hj => by
        have := ha (j + 1) (by simpa using hj)
        rw [show k + (j + 1) = k + 1 + j by omega] at this
        exact this)
    refine ⟨e', ?_, h2, h3, h4, ?_, h6⟩
    · subst hv
      simp only [frames, onUpdate, hc, if_true, ht, h0]
      rw [hc, ht] at h1
      exact h1
    · rw [h5, List.length_cons, show k + (nows.length + 1) = k + 1 + nows.length by omega]

/-- The frames after the end. -/
theorem frames_free [Add K] (advance : Advance P L T S K) (step : K) : ∀ (nows : List K) (e : Ego P L I M U T S K), e.controlled = false →
    frames advance step nows e = .ok { e with time := match nows.getLast? with | none => e.time | some now => now + step }
  | [], e, _ => rfl
  | n :: nows, e, hc => by
    have h1 : onUpdate advance n step e = .ok { e with time := n + step } := by simp [onUpdate, hc]
    rw [frames, h1]
    simp only
    rw [frames_free advance step nows { e with time := n + step } hc]
    cases nows with
    | nil => rfl
    | cons m nows =>
      rw [List.getLast?_cons_cons]
      cases h : (m :: nows).getLast? with
      | none => simp at h
      | some x => rfl

/-- C147 (trajectories): from the frame after a trajectory is requested the simulator moves the ego along it, and Autoware gets no tasks; in the frame that finds it finished Autoware is told
to take over control, once; and after it the simulator does not move the ego any more. -/
theorem C147_trajectory [Add K] (advance : Advance P L T S K) (step : K) (e : Ego P L I M U T S K) (t : T) (road : Nat → P × Option L × S) (n : Nat)
    (h0 : road 0 = (e.pose, e.place, e.rest))
    (ht : Trajectory (fun a => match advance t e.targetSpeed a.1 a.2.1 a.2.2 with | .ok a => a | .error _ => none) road n)
    (hok : ∀ k, k ≤ n → ∃ a, advance t e.targetSpeed (road k).1 (road k).2.1 (road k).2.2 = .ok a)
    (nows : List K) (now : K) (more : List K) (hn : nows.length ≤ n) :
    (∃ e', frames advance step nows (follow e t) = .ok e' ∧ (e'.pose, e'.place, e'.rest) = road nows.length ∧ e'.controlled = true ∧ e'.tasks = e.tasks) ∧
    (nows.length = n → ∃ e', frames advance step (nows ++ now :: more) (follow e t) = .ok e' ∧ (e'.pose, e'.place, e'.rest) = road n ∧ e'.controlled = false ∧
      e'.tasks = e.tasks ++ [.enableControl]) := by
  have ha : ∀ j, j < nows.length → advance t e.targetSpeed (road (0 + j)).1 (road (0 + j)).2.1 (road (0 + j)).2.2 = .ok (some (road (0 + j + 1))) := by
    intro j hj
    rw [Nat.zero_add]
    have := ht.steps j (by omega)
    obtain ⟨a, ha⟩ := hok j (by omega)
    rw [ha] at this ⊢
    exact congrArg _ this
  obtain ⟨e', h1, h2, h3, h4, h5, h6⟩ := frames_follow advance step t e.targetSpeed road nows 0 (follow e t) rfl rfl rfl h0.symm ha
  rw [Nat.zero_add] at h5
  refine ⟨⟨e', h1, h5, h2, h6⟩, fun hl => ?_⟩
  subst hl
  have hend : advance t e.targetSpeed e'.pose e'.place e'.rest = .ok none := by
    obtain ⟨a, ha⟩ := hok _ (Nat.le_refl _)
    have := ht.ends
    rw [ha] at this
    simp only at this
    rw [← h5, this] at ha
    exact ha
  rw [frames_append advance step nows (now :: more) _ e' h1]
  simp only [frames, onUpdate, h2, if_true, h3, h4, hend]
  rw [frames_free _ _ _ _ rfl]
  exact ⟨_, rfl, h5, rfl, by rw [show (e'.delay .enableControl).tasks = e'.tasks ++ [.enableControl] from rfl, h6]; rfl⟩

/-- A trajectory of three steps. -/
def three : Advance Nat Unit Unit Unit Nat := fun _ _ p _ _ => .ok (if p < 3 then some (p + 1, none, ()) else none)

example : (∃ e', frames three 1 [10, 11] (follow (Ego.spawn 0 0 none () : Ego Nat Unit Unit Unit Unit Unit Unit Nat) ()) = .ok e' ∧ (e'.pose, e'.place, e'.rest) = (2, none, ()) ∧ e'.controlled = true ∧
    e'.tasks = [.changeToStop]) ∧
    ∃ e', frames three 1 ([10, 11, 12] ++ 13 :: [14]) (follow (Ego.spawn 0 0 none () : Ego Nat Unit Unit Unit Unit Unit Unit Nat) ()) = .ok e' ∧ (e'.pose, e'.place, e'.rest) = (3, none, ()) ∧
      e'.controlled = false ∧ e'.tasks = [.changeToStop] ++ [.enableControl] := by
  have ht : Trajectory (fun a : Nat × Option Unit × Unit => match three () none a.1 a.2.1 a.2.2 with | .ok a => a | .error _ => none) (fun k => (k, none, ())) 3 :=
    ⟨fun k hk => by simp [three, hk], rfl⟩
  exact ⟨(C147_trajectory three 1 (Ego.spawn 0 0 none ()) () (fun k => (k, none, ())) 3 rfl ht (fun k _ => ⟨_, rfl⟩) [10, 11] 0 [] (by decide)).1,
    (C147_trajectory three 1 (Ego.spawn 0 0 none ()) () (fun k => (k, none, ())) 3 rfl ht (fun k _ => ⟨_, rfl⟩) [10, 11, 12] 13 [14] (by decide)).2 rfl⟩

/-- C147 (trajectories that fail): an error of the trajectory is reported. -/
theorem C147_trajectory_error [Add K] (advance : Advance P L T S K) (now step : K) (e : Ego P L I M U T S K) (t : T) (f : Fault) (h : advance t e.targetSpeed e.pose e.place e.rest = .error f) :
    onUpdate advance now step (follow e t) = .error f := by
  simp [onUpdate, follow, h]

example : onUpdate (fun _ _ _ _ _ => .error .thrown) 0 1 (follow (Ego.spawn 0 0 none () : Ego Nat Unit Unit Unit Unit Unit Unit Nat) ()) = .error .thrown :=
  C147_trajectory_error _ _ _ _ _ _ rfl

/-- What happens around the ego. -/
structure World (P L I M U T S K : Type) where
  road : Road P L I
  advance : Advance P L T S K
  step : K
  set : P → Ego P L I M U T S K → Ego P L I M U T S K
  answer : Ego P L I M U T S K → Option (P × S)
  statuses : List (Cooperate M U K)
  bound : K

/-- An ego and the used requests to cooperate after some events, none of which failed. -/
inductive Reachable [DecidableEq I] [DecidableEq M] [DecidableEq U] [LE K] [DecidableLE K] [Add K] [LT K] [DecidableLT K] [OfNat K 0] (start : Ego P L I M U T S K) :
    Ego P L I M U T S K → List (Cooperate M U K) → Prop
  | start : Reachable start start []
  | poses {e e' u} (w : World P L I M U T S K) (r i m) : Reachable start e u → assignPoses w.road e r i m = .ok e' → Reachable start e' u
  | lanes {e e' u} (w : World P L I M U T S K) (r i m) : Reachable start e u → assignLanes w.road e r i m = .ok e' → Reachable start e' u
  | replan {e e' u} (r m) : Reachable start e u → replan e r m = .ok e' → Reachable start e' u
  | follow {e u} (t) : Reachable start e u → Reachable start (follow e t) u
  | speed {e e' u} (v) : Reachable start e u → speedChange e v = .ok e' → Reachable start e' u
  | limit {e u} (v) : Reachable start e u → Reachable start (velocityLimit e v) u
  | respawn {e e' u} (w : World P L I M U T S K) (p g) : Reachable start e u → respawn w.set w.answer w.road.lane e p g = .ok e' → Reachable start e' u
  | command {e e' u u'} (w : World P L I M U T S K) (m c) : Reachable start e u → sendCommand w.bound w.statuses u m c e = .ok (e', u') → Reachable start e' u'
  | frame {e e' u} (w : World P L I M U T S K) (now) : Reachable start e u → onUpdate w.advance now w.step e = .ok e' → Reachable start e' u

theorem submit_control (e : Ego P L I M U T S K) (t : Task P I M U K) : (e.submit t).controlled = e.controlled ∧ (e.submit t).trajectory = e.trajectory := by
  unfold Ego.submit Ego.initialize Ego.delay
  cases h : e.initialized <;> simp

theorem points_control {e e' : Ego P L I M U T S K} {r : List P} {m : Bool} (h : assignPoints e r m = .ok e') : e'.controlled = e.controlled ∧ e'.trajectory = e.trajectory := by
  unfold assignPoints at h
  split at h
  · cases h
  · cases h; exact submit_control _ _

theorem lanes_control [DecidableEq I] {road : Road P L I} {e e' : Ego P L I M U T S K} {r : List L} {i m : Bool} (h : assignLanes road e r i m = .ok e') :
    e'.controlled = e.controlled ∧ e'.trajectory = e.trajectory := by
  unfold assignLanes at h
  split at h
  · split at h
    · cases h
    · split at h
      · cases h
      · cases h; exact submit_control _ _
  · exact points_control h

theorem poses_control [DecidableEq I] {road : Road P L I} {e e' : Ego P L I M U T S K} {r : List P} {i m : Bool} (h : assignPoses road e r i m = .ok e') :
    e'.controlled = e.controlled ∧ e'.trajectory = e.trajectory := by
  unfold assignPoses at h
  split at h
  · exact lanes_control h
  · exact points_control h

theorem replan_control {e e' : Ego P L I M U T S K} {r : List P} {m : Bool} (h : replan e r m = .ok e') : e'.controlled = e.controlled ∧ e'.trajectory = e.trajectory := by
  unfold replan at h
  split at h
  · cases h
  · cases h; exact ⟨rfl, rfl⟩
  · cases h

/-- C147 (no trajectory is missing): whatever is asked of the ego, in whatever order, whenever the simulator controls it there is a trajectory; so a frame follows no null pointer: it only fails
if the trajectory fails. -/
theorem C147_frame_defined [DecidableEq I] [DecidableEq M] [DecidableEq U] [LE K] [DecidableLE K] [Add K] [LT K] [DecidableLT K] [OfNat K 0] (time : K) (pose : P) (place : Option L) (rest : S)
    {e : Ego P L I M U T S K} {u : List (Cooperate M U K)} (h : Reachable (Ego.spawn time pose place rest) e u) (advance : Advance P L T S K) (now step : K)
    (ha : ∀ t v p l s, ∃ r, advance t v p l s = .ok r) : ∃ e', onUpdate advance now step e = .ok e' := by
  have inv : e.controlled = true → ∃ t, e.trajectory = some t := by
    induction h with
    | start => intro h; cases h
    | poses w r i m _ h ih => rw [(poses_control h).1, (poses_control h).2]; exact ih
    | lanes w r i m _ h ih => rw [(lanes_control h).1, (lanes_control h).2]; exact ih
    | replan r m _ h ih => rw [(replan_control h).1, (replan_control h).2]; exact ih
    | follow t _ _ => exact fun _ => ⟨t, rfl⟩
    | speed v _ h ih =>
      unfold speedChange at h
      split at h
      · cases h
      · cases h; exact ih
    | limit v _ ih => exact ih
    | respawn w p g _ h _ =>
      unfold respawn at h
      dsimp only at h
      split at h
      · cases h
      · rw [(replan_control h).1]; intro h; cases h
    | command w m c _ h ih =>
      unfold sendCommand at h
      split at h
      · split at h
        · cases h
        · cases h; exact ih
      · cases h
    | frame w now _ h ih =>
      unfold onUpdate at h
      split at h
      · next hc =>
        split at h
        · cases h
        · next t ht =>
          split at h
          · cases h
          · cases h; exact fun _ => ⟨t, ht⟩
          · cases h; intro h; cases h
      · cases h; exact ih
  unfold onUpdate
  split
  · next hc =>
    obtain ⟨t, ht⟩ := inv hc
    rw [ht]
    obtain ⟨r, hr⟩ := ha t e.targetSpeed e.pose e.place e.rest
    simp only [hr]
    cases r with
    | none => exact ⟨_, rfl⟩
    | some r => exact ⟨_, rfl⟩
  · exact ⟨_, rfl⟩

example : ∃ e', onUpdate three 3 1 (follow (follow (Ego.spawn 0 0 none ()) ()) () : Ego Nat Unit Unit Unit Unit Unit Unit Nat) = .ok e' :=
  C147_frame_defined 0 0 none () (.follow () (.follow () .start)) three 3 1 (fun _ _ _ _ _ => ⟨_, rfl⟩)

/-- C147 (routes and limits): only trajectories and respawning change who controls the ego: routes, limits and changes of speed do not. -/
theorem C147_kept [DecidableEq I] [LT K] [DecidableLT K] [OfNat K 0] (road : Road P L I) (e e' : Ego P L I M U T S K)
    (h : (∃ r i m, assignPoses road e r i m = .ok e') ∨ (∃ r i m, assignLanes road e r i m = .ok e') ∨ (∃ r m, replan e r m = .ok e') ∨ (∃ v, speedChange e v = .ok e') ∨ ∃ v, velocityLimit e v = e') :
    e'.controlled = e.controlled := by
  rcases h with ⟨_, _, _, h⟩ | ⟨_, _, _, h⟩ | ⟨_, _, h⟩ | ⟨_, h⟩ | ⟨_, h⟩
  · exact (poses_control h).1
  · exact (lanes_control h).1
  · exact (replan_control h).1
  · unfold speedChange at h
    split at h
    · cases h
    · cases h; rfl
  · cases h; rfl

example : (velocityLimit (follow (Ego.spawn 0 0 none () : Ego Nat Unit Unit Unit Unit Unit Unit Nat) ()) 5).controlled = true :=
  C147_kept ⟨fun _ => 0, fun _ => none, id, fun _ _ => []⟩ (follow (Ego.spawn 0 0 none ()) ()) _ (.inr (.inr (.inr (.inr ⟨5, rfl⟩))))

/-- C147 (changes of speed): the target speed of the ego can be set until the simulation starts, and it is an error afterwards; changes of lanes and relative changes of speed are errors. -/
theorem C147_speed_change [LT K] [DecidableLT K] [OfNat K 0] (e : Ego P L I M U T S K) (v : K) :
    (0 < e.time → speedChange e v = .error .thrown) ∧
      (¬ 0 < e.time → ∃ e', speedChange e v = .ok e' ∧ e'.targetSpeed = some v ∧ e'.tasks = e.tasks ∧ e'.controlled = e.controlled ∧ e'.pose = e.pose) ∧
      refused e = .error .thrown := by
  refine ⟨fun h => by simp [speedChange, h], fun h => ⟨{ e with targetSpeed := some v }, by simp [speedChange, h], rfl, rfl, rfl, rfl⟩, rfl⟩

example : speedChange ({ Ego.spawn 0 0 none () with time := 3 } : Ego Nat Unit Unit Unit Unit Unit Unit Nat) 5 = .error .thrown := (C147_speed_change _ 5).1 (by decide)

/-- C147 (limits): a limit of the speed is sent to Autoware and holds for trajectories. -/
theorem C147_velocity_limit (e : Ego P L I M U T S K) (v : K) : (velocityLimit e v).maxSpeed = some v ∧ (velocityLimit e v).tasks = e.tasks ++ [.velocityLimit v] := ⟨rfl, rfl⟩

/-- C147 (respawning): the ego is put at the pose, gets the pose and the rest that the simulator answers, Autoware is in control, also if a trajectory was followed, and is told the goal. If the
simulator gives no answer it is an error. -/
theorem C147_respawn (set : P → Ego P L I M U T S K → Ego P L I M U T S K) (answer : Ego P L I M U T S K → Option (P × S)) (locate : P → Option L) (e : Ego P L I M U T S K) (pose goal : P)
    (hs : ∀ p e, (set p e).tasks = e.tasks) (hs' : ∀ p e, e.controlled = true → (set p e).pose = p) (reply : Option (P × S)) (ha : ∀ moved, moved.pose = pose → moved.controlled = false → answer moved = reply) :
    (∀ p s, reply = some (p, s) → ∃ e', respawn set answer locate e pose goal = .ok e' ∧ e'.pose = p ∧ e'.place = locate p ∧ e'.rest = s ∧
      e'.controlled = false ∧ e'.tasks = e.tasks ++ [.clearRoute, .planPoints goal [] false, .enableControl, .engage]) ∧
    (reply = none → respawn set answer locate e pose goal = .error .thrown) := by
  have h1 : (set pose { e with controlled := true }).tasks = e.tasks := hs _ _
  have h3 := ha { set pose { e with controlled := true } with controlled := false } (hs' pose { e with controlled := true } rfl) rfl
  unfold respawn
  dsimp only
  rw [h3]
  refine ⟨fun p s h => ?_, fun h => by rw [h]⟩
  rw [h]
  exact ⟨_, rfl, rfl, rfl, rfl, rfl, by simp [Ego.delay, h1]⟩

example : ∃ e', respawn (fun p e => { e with pose := p }) (fun e => if e.pose = 7 then some (8, ()) else none) some (follow (Ego.spawn 0 0 none ()) () : Ego Nat Nat Unit Unit Unit Unit Unit Nat) 7 9 = .ok e' ∧ e'.pose = 8 ∧
    e'.place = some 8 :=
  ((C147_respawn (fun p e => { e with pose := p }) (fun e => if e.pose = 7 then some (8, ()) else none) some (follow (Ego.spawn 0 0 none ()) () : Ego Nat Nat Unit Unit Unit Unit Unit Nat) 7 9 (fun _ _ => rfl)
    (fun _ _ _ => rfl) (some (8, ())) (fun e h _ => by simp [h])).1 8 () rfl).imp fun _ h => ⟨h.1, h.2.1, h.2.2.1⟩

/-- C147 does not hold of the time: in the frame that finds the trajectory finished the time of the ego is not updated. -/
theorem C147_time_violated : ∃ e', frames three 1 [0, 1, 2, 3] (follow (Ego.spawn 0 0 none () : Ego Nat Unit Unit Unit Unit Unit Unit Nat) ()) = .ok e' ∧ e'.time = 3 ∧ e'.time ≠ 3 + 1 :=
  ⟨_, rfl, rfl, by decide⟩

end Verif.Operator
