import Verif.Behavior.RequestTheorems
/-
C127: changes of lanes.
-/
namespace Verif.Behavior

open Spec

variable {K : Type} [Field K] [LinearOrder K] {B C : Type}

/-- A step of a lane change whose curve and speed are settled, with the policy to force it. -/
theorem curve_step {env : Env B C K} {p : LaneChange K} (hp : p.force = true) (curve : C) (c : Car B C K) (h0 : ¬ c.lane.velocity < 0) :
    followCurve env p curve c = .ok (if c.lane.s + c.lane.velocity * env.dt < env.arc curve then
      (.running, ⟨env.putOnCurve curve (c.lane.s + c.lane.velocity * env.dt) (env.setSpeed c.lane.velocity 0 c.body),
        { c.lane with s := c.lane.s + c.lane.velocity * env.dt }⟩)
      else (.success, ⟨env.putOnLane p.lanelet (c.lane.s + c.lane.velocity * env.dt - env.arc curve + c.lane.targetS) 0 (env.setSpeed c.lane.velocity 0 c.body),
        ⟨none, 0, c.lane.targetS, 0⟩⟩)) := by
  simp only [followCurve, speedOfChange, hp, if_true]
  show (if _ then (if _ then _ else _) else if _ then _ else _) = _
  rw [if_neg h0, if_neg h0]
  split <;> rfl

/-- The running lane change is resumed. -/
theorem change_resumes {env : Env B C K} {w : World (Car B C K)} (ha : At w .laneChange) (hr : w.request = .laneChange) {e : Car B C K} :
    (vehicleActs env .laneChange .laneChange w.entity = .ok (.running, e) →
      ∃ w', frame env w = some (.ok w') ∧ w'.entity = e ∧ w'.request = .laneChange ∧ At w' .laneChange) ∧
    (vehicleActs env .laneChange .laneChange w.entity = .ok (.success, e) →
      ∃ w', frame env w = some (.ok w') ∧ w'.entity = e ∧ w'.request = .none) := by
  have hcur := (at_current ha).1
  refine ⟨fun h => ?_, fun h => ?_⟩
  · have hc : chain (vehicleActs env) (items (some .laneChange)) (some Node.laneChange).isSome w.core = .ok (some (.laneChange, true), w.core.run .laneChange true e) := by
      rw [items, chain, show w.core.request = _ from hr, show vehicleActs env .laneChange .laneChange w.core.entity = _ from h]
      rfl
    obtain ⟨w', h1, h2, h3⟩ := update_running (p := some .laneChange) ha hc
    exact ⟨w', h1, congrArg Core.entity h2, (congrArg Core.request h2).trans hr, h3⟩
  · have hc : chain (vehicleActs env) (items (some .laneChange)) (some Node.laneChange).isSome w.core = .ok (some (.laneChange, false), w.core.succeed e) := by
      rw [items, chain, show w.core.request = _ from hr, show vehicleActs env .laneChange .laneChange w.core.entity = _ from h]
    have hs : w.core.succeed e = ⟨e, .none, some .laneChange⟩ := by simp [Core.succeed, World.core, hr, hcur, Request.node]
    obtain ⟨w', h1, h2, _⟩ := update_success (p := some .laneChange) ha hc (by rw [hs]; simp)
    rw [hs] at h2
    exact ⟨w', h1, congrArg Core.entity h2, congrArg Core.request h2⟩

/-- The lane change begins, wherever the vehicle was in its tree. -/
theorem change_starts {env : Env B C K} {w : World (Car B C K)} (h : Reachable env w) (hr : w.request = .laneChange) {e : Car B C K}
    (he : vehicleActs env .laneChange .laneChange w.entity = .ok (.running, e)) :
    ∃ w', frame env w = some (.ok w') ∧ w'.entity = e ∧ w'.request = .laneChange ∧ At w' .laneChange := by
  obtain ⟨w', h1, h2, h3, h4 | ⟨h4, _⟩⟩ := change_begins h hr
  · have hc : chain (vehicleActs env) (items none) (none : Option Node).isSome w'.core =
        .ok (some (.laneChange, true), Core.run .laneChange false { w'.core with current := some .root } e) := by
      rw [items, chain, chain]
      simp only [show w'.core.request = .laneChange from h3, show w'.core.entity = w.entity from h2, he]
    obtain ⟨u, a1, a2, a3⟩ := update_running (p := none) h4 hc
    exact ⟨u, h1.trans a1, congrArg Core.entity a2, (congrArg Core.request a2).trans h3, a3⟩
  · obtain ⟨u, a1, a2, a3, a4⟩ := (change_resumes h4 h3 (e := e)).1 (by rw [h2]; exact he)
    exact ⟨u, h1.trans a1, a2, a3, a4⟩

/-- The speed that the constraint of a lane change asks for, on a way of the length `l`: the lane change is to take the time given, or the time to go the distance across the lanes at the
lateral speed given; otherwise the vehicle keeps its speed. -/
def Planned (env : Env B C K) (b : B) (p : LaneChange K) (l goal u : K) : Prop := match p.type with
  | .time => p.value ≠ 0 ∧ u * p.value = l
  | .lateralVelocity => p.value ≠ 0 ∧ env.across b p goal ≠ 0 ∧ u * (env.across b p goal / p.value) = l
  | .none => u = (env.view b).speed
  | .longitudinalDistance => u = (env.view b).speed

theorem plan_settles {env : Env B C K} {p : LaneChange K} {c : Car B C K} {curve : C} {goal u : K} (hc : c.lane.curve = none) (hl : (env.view c.body).lane = true)
    (hpath : env.path c.body p = some (curve, goal)) (hu : Planned env c.body p (env.arc curve) goal u) (h0 : 0 ≤ u) (ht : ∀ t, (env.view c.body).target = some t → u ≤ t) :
    planLaneChange env p c = .ok (some (curve, { c with lane := ⟨some curve, c.lane.s, goal, u⟩ })) := by
  have fin : ∀ k : K → Except Fault (Option (C × Car B C K)), (match (env.view c.body).target with
      | some t => clampE u 0 t >>= k
      | none => (.ok u : Except Fault K) >>= k) = k u := by
    intro k
    cases htt : (env.view c.body).target with
    | none => rfl
    | some t =>
      have := ht t htt
      simp only [clampE, not_lt.2 (le_trans h0 this), if_false, not_lt.2 h0, not_lt.2 this]
      rfl
  unfold Planned at hu
  cases hty : p.type with
  | none =>
    rw [hty] at hu
    simp only [planLaneChange, hc, hl, Bool.not_true, Bool.false_eq_true, if_false, hpath, hty, ← show u = _ from hu]
    exact fin _
  | longitudinalDistance =>
    rw [hty] at hu
    simp only [planLaneChange, hc, hl, Bool.not_true, Bool.false_eq_true, if_false, hpath, hty, ← show u = _ from hu]
    exact fin _
  | time =>
    rw [hty] at hu
    simp only [planLaneChange, hc, hl, Bool.not_true, Bool.false_eq_true, if_false, hpath, hty, ← eq_div_of_mul_eq hu.1 hu.2]
    exact fin _
  | lateralVelocity =>
    rw [hty] at hu
    simp only [planLaneChange, hc, hl, Bool.not_true, Bool.false_eq_true, if_false, hpath, hty, ← eq_div_of_mul_eq (div_ne_zero hu.2.1 hu.1) hu.2.2]
    exact fin _

/-- C127 (partial): a vehicle on a lane that is to change lanes by force, at a speed `u` that meets the constraint given and is not more than the speed it is to drive at. From the first
frame on it is `n` times the way of one frame further on the way of the lane change, at the speed `u`; in the first frame that brings it to the end of the way, it is put on the target
lane, as far behind the goal as it went too far, in the middle of the lane; and the request is over.
Missing: the policy to do the best, see `C127_best_effort_violated`; a lane change that takes one frame only, see `C127_one_frame_violated`; what is left of an earlier lane change that
failed, see `C127_left_over_violated`. -/
theorem C127_forced_partial [IsStrictOrderedRing K] (env : Env B C K) (p : LaneChange K) (w : World (Car B C K)) (curve : C) (goal u : K) (h : Reachable env w)
    (hr : w.request = .laneChange) (hp : ∀ b, env.change b = some p) (hf : p.force = true) (hc : w.entity.lane.curve = none) (hs : w.entity.lane.s = 0)
    (hl : (env.view w.entity.body).lane = true) (hpath : env.path w.entity.body p = some (curve, goal))
    (hu : Planned env w.entity.body p (env.arc curve) goal u) (h0 : 0 < u) (ht : ∀ t, (env.view w.entity.body).target = some t → u ≤ t) (hdt : 0 < env.dt)
    (hlong : u * env.dt < env.arc curve) (n : Nat) :
    (u * ((n + 1 : Nat) * env.dt) < env.arc curve →
      ∃ w' b, frames env (n + 1) w = some (.ok w') ∧ w'.entity.body = env.putOnCurve curve (u * ((n + 1 : Nat) * env.dt)) (env.setSpeed u 0 b) ∧ w'.request = .laneChange) ∧
    (u * (n * env.dt) < env.arc curve → env.arc curve ≤ u * ((n + 1 : Nat) * env.dt) →
      ∃ w' b, frames env (n + 1) w = some (.ok w') ∧
        w'.entity.body = env.putOnLane p.lanelet (goal + (u * ((n + 1 : Nat) * env.dt) - env.arc curve)) 0 (env.setSpeed u 0 b) ∧ w'.request = .none) := by
  have act : ∀ c : Car B C K, c.lane.curve = some curve → c.lane.velocity = u → vehicleActs env .laneChange .laneChange c =
      .ok (if c.lane.s + u * env.dt < env.arc curve then
      (.running, ⟨env.putOnCurve curve (c.lane.s + u * env.dt) (env.setSpeed u 0 c.body), { c.lane with s := c.lane.s + u * env.dt }⟩)
      else (.success, ⟨env.putOnLane p.lanelet (c.lane.s + u * env.dt - env.arc curve + c.lane.targetS) 0 (env.setSpeed u 0 c.body), ⟨none, 0, c.lane.targetS, 0⟩⟩)) := by
    intro c h1 h2
    have := curve_step (env := env) hf curve c (by rw [h2]; exact not_lt.2 h0.le)
    rw [h2] at this
    rw [← this]
    simp [vehicleActs, laneChange, hp, planLaneChange, h1]
  have first : vehicleActs env .laneChange .laneChange w.entity =
      .ok (.running, ⟨env.putOnCurve curve (u * env.dt) (env.setSpeed u 0 w.entity.body), ⟨some curve, u * env.dt, goal, u⟩⟩) := by
    have h1 := plan_settles hc hl hpath hu h0.le ht
    have h2 := curve_step (env := env) hf curve { w.entity with lane := ⟨some curve, w.entity.lane.s, goal, u⟩ } (not_lt.2 h0.le)
    simp only [hs, zero_add, hlong, if_true] at h2
    simp only [vehicleActs, laneChange, hp, h1, hs]
    rw [h2]
    simp
  have key : ∀ n : Nat, u * ((n + 1 : Nat) * env.dt) < env.arc curve → ∃ w' b, frames env (n + 1) w = some (.ok w') ∧
      w'.entity = ⟨env.putOnCurve curve (u * ((n + 1 : Nat) * env.dt)) (env.setSpeed u 0 b), ⟨some curve, u * ((n + 1 : Nat) * env.dt), goal, u⟩⟩ ∧
      w'.request = .laneChange ∧ At w' .laneChange := by
    intro n
    induction n with
    | zero =>
      intro _
      obtain ⟨w', a1, a2, a3, a4⟩ := change_starts h hr first
      refine ⟨w', w.entity.body, a1, ?_, a3, a4⟩
      simpa using a2
    | succ n ih =>
      intro hn
      have hstep : u * ((n + 1 : Nat) * env.dt) + u * env.dt = u * ((n + 1 + 1 : Nat) * env.dt) := by
        push_cast; rw [add_mul (n + 1 : K), one_mul, mul_add]
      obtain ⟨w', b, a1, a2, a3, a4⟩ := ih (lt_of_le_of_lt (by rw [← hstep]; exact le_add_of_nonneg_right (mul_pos h0 hdt).le) hn)
      have ha := act w'.entity (by rw [a2]) (by rw [a2])
      rw [a2] at ha
      simp only [hstep, hn, if_true] at ha
      rw [← a2] at ha
      obtain ⟨w'', b1, b2, b3, b4⟩ := (change_resumes a4 a3).1 ha
      refine ⟨w'', _, ?_, b2, b3, b4⟩
      simp only [frames] at a1 ⊢
      rw [a1]
      exact b1
  refine ⟨fun hn => ?_, fun hn1 hn2 => ?_⟩
  · obtain ⟨w', b, a1, a2, a3, _⟩ := key n hn
    exact ⟨w', b, a1, by rw [a2], a3⟩
  · cases n with
    | zero => simp only [zero_add, Nat.cast_one, one_mul] at hn2; exact absurd hlong (not_lt.2 hn2)
    | succ n =>
      have hstep : u * ((n + 1 : Nat) * env.dt) + u * env.dt = u * ((n + 1 + 1 : Nat) * env.dt) := by
        push_cast; rw [add_mul (n + 1 : K), one_mul, mul_add]
      obtain ⟨w', b, a1, a2, a3, a4⟩ := key n hn1
      have ha := act w'.entity (by rw [a2]) (by rw [a2])
      rw [a2] at ha
      simp only [hstep, not_lt.2 hn2, if_false] at ha
      rw [← a2] at ha
      obtain ⟨w'', b1, b2, b3⟩ := (change_resumes a4 a3).2 ha
      refine ⟨w'', env.putOnCurve curve (u * ((n + 1 : Nat) * env.dt)) (env.setSpeed u 0 b), ?_, ?_, b3⟩
      · simp only [frames] at a1 ⊢
        rw [a1]
        exact b1
      · rw [b2]
        simp only
        rw [add_comm (_ - _)]

/-! ### A road with lanes -/

/-- Where a vehicle is: on a lanelet, or on the way from one lanelet to another. -/
inductive Place where
  | lane (n : Nat) (s : ℚ)
  | way (n m : Nat) (s : ℚ)
  deriving DecidableEq

structure Rider where
  view : View ℚ
  place : Place
  order : LaneChange ℚ
  deriving DecidableEq

/-- Ways between lanelets are 10 m long and 3 m across. There is none from a lanelet to itself. -/
def lanes : Env Rider (Nat × Nat) ℚ where
  view b := b.view
  move v b := .ok { b with view := { b.view with speed := v }, place := match b.place with
    | .lane n s => .lane n (s + v / 20)
    | .way n m s => .way n m s }
  stop b := { b with view := { b.view with speed := 0 } }
  change b := some b.order
  path b p := match b.place with
    | .lane n s => if n = p.lanelet then none else some ((n, p.lanelet), s + 9)
    | .way _ _ _ => none
  arc _ := 10
  across _ _ _ := 3
  setSpeed v _ b := { b with view := { b.view with speed := v } }
  putOnCurve c s b := { b with place := .way c.1 c.2 s }
  putOnLane n s _ b := { b with place := .lane n s }
  maxDeceleration _ := 10
  maxAcceleration _ := 10
  maxSpeed _ := 50
  dt := 1 / 20
  follow _ := .ok none

def nowhere : LaneState (Nat × Nat) ℚ := ⟨none, 0, 0, 0⟩

def swift : View ℚ := { empty with target := none }

/-- After 10 frames of a lane change of 2 s it has gone a quarter of the way. -/
example : ∃ w' b, frames { lanes with change := fun _ => some ⟨2, .time, 2, true⟩ } 10
      { World.init ⟨⟨swift, .lane 1 5, ⟨2, .time, 2, true⟩⟩, nowhere⟩ with request := .laneChange } = some (.ok w') ∧
    w'.entity.body = lanes.putOnCurve (1, 2) (5 / 2) (lanes.setSpeed 5 0 b) := by
  obtain ⟨w', b, h1, h2, _⟩ := (C127_forced_partial { lanes with change := fun _ => some ⟨2, .time, 2, true⟩ } ⟨2, .time, 2, true⟩
    { World.init ⟨⟨swift, .lane 1 5, ⟨2, .time, 2, true⟩⟩, nowhere⟩ with request := .laneChange } (1, 2) 14 5 (.request _ (.spawn _ _)) rfl (fun _ => rfl) rfl rfl rfl rfl
    (by simp [World.init, lanes]; norm_num) (by simp [Planned, lanes]; norm_num) (by norm_num) (by simp [World.init, lanes, swift]) (by norm_num [lanes])
    (by norm_num [lanes]) 9).1 (by norm_num [lanes])
  exact ⟨w', b, h1, by rw [h2]; norm_num [lanes]⟩

/-- After 40 frames it is on the target lane. -/
example : ∃ w' b, frames { lanes with change := fun _ => some ⟨2, .time, 2, true⟩ } 40
      { World.init ⟨⟨swift, .lane 1 5, ⟨2, .time, 2, true⟩⟩, nowhere⟩ with request := .laneChange } = some (.ok w') ∧
    w'.entity.body = lanes.putOnLane 2 14 0 (lanes.setSpeed 5 0 b) ∧ w'.request = .none := by
  obtain ⟨w', b, h1, h2, h3⟩ := (C127_forced_partial { lanes with change := fun _ => some ⟨2, .time, 2, true⟩ } ⟨2, .time, 2, true⟩
    { World.init ⟨⟨swift, .lane 1 5, ⟨2, .time, 2, true⟩⟩, nowhere⟩ with request := .laneChange } (1, 2) 14 5 (.request _ (.spawn _ _)) rfl (fun _ => rfl) rfl rfl rfl rfl
    (by simp [World.init, lanes]; norm_num) (by simp [Planned, lanes]; norm_num) (by norm_num) (by simp [World.init, lanes, swift]) (by norm_num [lanes])
    (by norm_num [lanes]) 39).2 (by norm_num [lanes]) (by norm_num [lanes])
  exact ⟨w', b, h1, by rw [h2]; norm_num [lanes], h3⟩

/-- C127 (partial), the policy to do the best: a vehicle that is `s` on the way of a lane change that is to be done at the speed `u`. In the next frame its acceleration brings it nearer
to `u`: if it is not faster than it is to drive, it does not brake, and accelerates no more than it can; if it is faster, or has no speed to drive at, it does not accelerate, and brakes no
more than it can. Its speed keeps within -10 m/s and its maximum, and it goes on by the way of one frame at that speed.
Missing: the frames in which the lane change begins and ends. -/
theorem C127_best_effort_partial [IsStrictOrderedRing K] (env : Env B C K) (p : LaneChange K) (w : World (Car B C K)) (curve : C) (s u a v : K) (h : Reachable env w)
    (hr : w.request = .laneChange) (hp : env.change w.entity.body = some p) (hf : p.force = false) (hc : w.entity.lane.curve = some curve) (hs : w.entity.lane.s = s)
    (hu : w.entity.lane.velocity = u) (hA : 0 ≤ env.maxAcceleration w.entity.body) (hD : 0 ≤ env.maxDeceleration w.entity.body) (hM : 0 ≤ env.maxSpeed w.entity.body)
    (ha : (∃ t, (env.view w.entity.body).target = some t ∧ (env.view w.entity.body).speed ≤ t ∧
        a = max 0 (min (env.maxAcceleration w.entity.body) ((u - (env.view w.entity.body).speed) / env.dt))) ∨
      ((∀ t, (env.view w.entity.body).target = some t → t < (env.view w.entity.body).speed) ∧
        a = max (-env.maxDeceleration w.entity.body) (min 0 ((u - (env.view w.entity.body).speed) / env.dt))))
    (hv : v = max (-10) (min (env.maxSpeed w.entity.body) ((env.view w.entity.body).speed + a * env.dt))) (h0 : 0 ≤ v) (hlong : s + v * env.dt < env.arc curve) :
    ∃ w', frame env w = some (.ok w') ∧ w'.entity.body = env.putOnCurve curve (s + v * env.dt) (env.setSpeed v a w.entity.body) ∧ w'.request = .laneChange ∧
      w'.entity.lane = { w.entity.lane with s := s + v * env.dt } := by
  have clamp : ∀ x lo hi : K, lo ≤ hi → clampE x lo hi = .ok (max lo (min hi x)) := by
    intro x lo hi hle
    simp only [clampE, not_lt.2 hle, if_false]
    split
    · next h => rw [max_eq_left (le_trans (min_le_right _ _) h.le)]
    split
    · next h => rw [min_eq_left h.le, max_eq_right hle]
    · next h1 h2 => rw [min_eq_right (not_lt.1 h2), max_eq_right (not_lt.1 h1)]
  have hsp : speedOfChange env p w.entity = .ok (v, a) := by
    have hM' : (-10 : K) ≤ env.maxSpeed w.entity.body := by linarith
    rcases ha with ⟨t, ht, hle, ha⟩ | ⟨ht, ha⟩
    · simp only [speedOfChange, hf, ht, decide_eq_false (not_lt.2 hle), hu, Bool.false_eq_true, if_false, clamp _ _ _ hA, ← ha]
      show (clampE _ _ _ >>= fun w => pure (w, a)) = _
      rw [clamp _ _ _ hM', ← hv]
      rfl
    · have hD' : env.maxDeceleration w.entity.body * -1 ≤ 0 := by linarith
      have fin : (clampE ((env.view w.entity.body).speed + a * env.dt) (-10) (env.maxSpeed w.entity.body) >>= fun w => (.ok (w, a) : Except Fault (K × K))) = .ok (v, a) := by
        rw [clamp _ _ _ hM', ← hv]
        rfl
      have hcl : clampE ((u - (env.view w.entity.body).speed) / env.dt) (env.maxDeceleration w.entity.body * -1) 0 = .ok a := by
        rw [clamp _ _ _ hD', mul_neg_one, ← ha]
      cases htt : (env.view w.entity.body).target with
      | none =>
        simp only [speedOfChange, hf, hu, htt, Bool.false_eq_true, if_false, if_true, hcl]
        exact fin
      | some t =>
        simp only [speedOfChange, hf, hu, htt, decide_eq_true (ht t htt), Bool.false_eq_true, if_false, if_true, hcl]
        exact fin
  have hact : vehicleActs env .laneChange .laneChange w.entity =
      .ok (.running, ⟨env.putOnCurve curve (s + v * env.dt) (env.setSpeed v a w.entity.body), { w.entity.lane with s := s + v * env.dt }⟩) := by
    simp only [vehicleActs, laneChange, ne_eq, not_true, if_false, hp, planLaneChange, hc, followCurve, hsp]
    show (if _ then (if _ then _ else _) else _) = _
    rw [hs, if_pos hlong, if_neg (not_lt.2 h0)]
    rfl
  obtain ⟨w', h1, h2, h3, _⟩ := change_starts h hr hact
  exact ⟨w', h1, by rw [h2], h3, by rw [h2]⟩

/-- A vehicle that drives at 2 m/s and is to change lanes at 5 m/s accelerates by 1/2 m/s in a frame. -/
example : ∃ w', frame lanes { World.init ⟨⟨{ empty with speed := 2 }, .way 1 2 4, ⟨2, .time, 2, false⟩⟩, ⟨some (1, 2), 4, 14, 5⟩⟩ with request := .laneChange } = some (.ok w') ∧
    w'.entity.body.view.speed = 5 / 2 ∧ w'.entity.body.place = .way 1 2 (4 + 1 / 8) := by
  obtain ⟨w', h1, h2, _⟩ := C127_best_effort_partial lanes ⟨2, .time, 2, false⟩
    { World.init ⟨⟨{ empty with speed := 2 }, .way 1 2 4, ⟨2, .time, 2, false⟩⟩, ⟨some (1, 2), 4, 14, 5⟩⟩ with request := .laneChange } (1, 2) 4 5 10 (5 / 2)
    (.request _ (.spawn _ _)) rfl rfl rfl rfl rfl rfl (by norm_num [lanes]) (by norm_num [lanes]) (by norm_num [lanes])
    (Or.inl ⟨12, rfl, by norm_num [World.init, lanes], by norm_num [World.init, lanes]⟩) (by norm_num [World.init, lanes]) (by norm_num) (by norm_num [lanes])
  refine ⟨w', h1, by rw [h2]; norm_num [lanes], by rw [h2]; norm_num [lanes]⟩

/-- C127 does not hold for a vehicle that stands, with the policy to do the best and no speed to drive at: it is to change lanes within 2 s, but stays where it is for ever. -/
theorem C127_best_effort_violated (n : Nat) : ∃ w', frames lanes (n + 1)
      { World.init ⟨⟨{ swift with speed := 0 }, .lane 1 5, ⟨2, .time, 2, false⟩⟩, nowhere⟩ with request := .laneChange } = some (.ok w') ∧
    w'.entity.body.place = .way 1 2 0 ∧ w'.entity.body.view.speed = 0 ∧ w'.request = .laneChange := by
  have key : ∃ w', frames lanes (n + 1)
      { World.init ⟨⟨{ swift with speed := 0 }, .lane 1 5, ⟨2, .time, 2, false⟩⟩, nowhere⟩ with request := .laneChange } = some (.ok w') ∧
      w'.entity = ⟨⟨{ swift with speed := 0 }, .way 1 2 0, ⟨2, .time, 2, false⟩⟩, ⟨some (1, 2), 0, 14, 5⟩⟩ ∧ w'.request = .laneChange ∧ At w' .laneChange := by
    induction n with
    | zero => exact change_starts (.request _ (.spawn _ _)) rfl (by decide +kernel)
    | succ n ih =>
      obtain ⟨w', h1, h2, h3, h4⟩ := ih
      obtain ⟨u, a1, a2, a3, a4⟩ := (change_resumes (env := lanes) h4 h3
        (e := ⟨⟨{ swift with speed := 0 }, .way 1 2 0, ⟨2, .time, 2, false⟩⟩, ⟨some (1, 2), 0, 14, 5⟩⟩)).1 (by rw [h2]; decide +kernel)
      refine ⟨u, ?_, a2, a3, a4⟩
      simp only [frames] at h1 ⊢
      rw [h1]
      exact a1
  obtain ⟨w', h1, h2, h3, _⟩ := key
  exact ⟨w', h1, by rw [h2], by rw [h2], h3⟩

/-- C127 does not hold for a lane change that takes one frame only: after the vehicle was put on the target lane, it is moved once more in the same frame. -/
theorem C127_one_frame_violated : ∃ w', frame lanes
      { World.init ⟨⟨swift, .lane 1 5, ⟨2, .time, 1 / 20, true⟩⟩, nowhere⟩ with request := .laneChange } = some (.ok w') ∧
    w'.entity.body.place = .lane 2 (14 + 15 / 20) := by
  have hc : chain (vehicleActs lanes) (items none) (none : Option Node).isSome ⟨⟨⟨swift, .lane 1 5, ⟨2, .time, 1 / 20, true⟩⟩, nowhere⟩, .laneChange, none⟩ =
      .ok (some (.laneChange, false), ⟨⟨⟨{ swift with speed := 200 }, .lane 2 14, ⟨2, .time, 1 / 20, true⟩⟩, ⟨none, 0, 14, 0⟩⟩, .laneChange, some .root⟩) := by
    decide +kernel
  have hq : Holds (E := Car Rider (Nat × Nat) ℚ) { World.init ⟨⟨swift, .lane 1 5, ⟨2, .time, 1 / 20, true⟩⟩, nowhere⟩ with request := .laneChange } none := by
    simp [Holds, Quiet, QuietTrajectory, QuietLane, World.init]
  obtain ⟨u, h1, h2, h3⟩ := update_success_root (act := vehicleActs lanes) hq hc rfl
  have hc' : chain (vehicleActs lanes) (items none) (none : Option Node).isSome u.core =
      .ok (some (.followLane, true), ⟨⟨⟨{ swift with speed := 15 }, .lane 2 (14 + 15 / 20), ⟨2, .time, 1 / 20, true⟩⟩, ⟨none, 0, 14, 0⟩⟩, .none, some .followLane⟩) := by
    rw [h2]
    decide +kernel
  obtain ⟨v, a1, a2, _⟩ := update_running (p := none) h3 hc'
  exact ⟨v, h1.trans a1, congrArg (fun c => c.entity.body.place) a2⟩

/-- C127 does not hold after a lane change that failed because the vehicle moved backward: the next one is made on the way of the old one, although the vehicle is elsewhere and is to go
to another lane. -/
theorem C127_left_over_violated : ∃ (w w' : World (Car Rider (Nat × Nat) ℚ)), Reachable lanes w ∧ w.request = .laneChange ∧ w.entity.body.place = .lane 7 50 ∧
    w.entity.body.order.lanelet = 8 ∧ frame lanes w = some (.ok w') ∧ w'.entity.body.place = .way 1 2 (-1 / 10) := by
  have hc : chain (vehicleActs lanes) (items none) (none : Option Node).isSome
      ⟨⟨⟨{ swift with speed := -1, seeAround := false }, .lane 1 5, ⟨2, .none, 0, true⟩⟩, nowhere⟩, .laneChange, none⟩ =
      .ok (some (.backward, true),
        ⟨⟨⟨{ swift with speed := 15, seeAround := false }, .way 1 2 (-1 / 20), ⟨2, .none, 0, true⟩⟩, ⟨some (1, 2), -1 / 20, 14, -1⟩⟩, .none, some .backward⟩) := by
    decide +kernel
  have hq : Holds (E := Car Rider (Nat × Nat) ℚ)
      { World.init ⟨⟨{ swift with speed := -1, seeAround := false }, .lane 1 5, ⟨2, .none, 0, true⟩⟩, nowhere⟩ with request := .laneChange } none := by
    simp [Holds, Quiet, QuietTrajectory, QuietLane, World.init]
  obtain ⟨u, h1, h2, h3⟩ := update_running (act := vehicleActs lanes) hq hc
  have hl : u.entity.lane = ⟨some (1, 2), -1 / 20, 14, -1⟩ := congrArg (fun c => c.entity.lane) h2
  have hcur : u.current = some .backward := congrArg Core.current h2
  let later : World (Car Rider (Nat × Nat) ℚ) := { u with entity := { u.entity with body := ⟨swift, .lane 7 50, ⟨8, .none, 0, true⟩⟩ }, request := .laneChange }
  have hr : Reachable lanes later := .request (w := { u with entity := { u.entity with body := _ } }) _ (.change _ (.frame (.request _ (.spawn _ _)) h1))
  have hcore : later.core = ⟨⟨⟨swift, .lane 7 50, ⟨8, .none, 0, true⟩⟩, ⟨some (1, 2), -1 / 20, 14, -1⟩⟩, .laneChange, some .backward⟩ := by
    simp only [later, World.core, hl, hcur]
  have hc2 : chain (vehicleActs lanes) (items (some .backward)) true later.core =
      .ok (none, ⟨⟨⟨swift, .lane 7 50, ⟨8, .none, 0, true⟩⟩, ⟨some (1, 2), -1 / 20, 14, -1⟩⟩, .laneChange, some .laneSequence⟩) := by
    rw [hcore]; decide +kernel
  obtain ⟨v, a1, a2, a3⟩ := update_none (w := later) (p := some .backward) h3 hc2
  have hc3 : chain (vehicleActs lanes) (items none) false v.core =
      .ok (some (.yield, false), ⟨⟨⟨{ swift with speed := 15 }, .way 1 2 (-1 / 10), ⟨8, .none, 0, true⟩⟩, ⟨some (1, 2), -1 / 10, 14, -1⟩⟩, .none, some .crossing⟩) := by
    rw [a2]; decide +kernel
  obtain ⟨x, b1, b2, _⟩ := update_success (p := none) a3 hc3 (by simp)
  exact ⟨later, x, hr, rfl, rfl, rfl, a1.trans b1, congrArg (fun c => c.entity.body.place) b2⟩

end Verif.Behavior
