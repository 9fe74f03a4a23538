import Verif.Pace.LinearLemmas
import Mathlib.Algebra.Order.Ring.Rat
/-
C223: changes of speed that take a given time. C224: changes of speed with a given acceleration.
-/
namespace Verif.Pace
open Verif.Job

set_option linter.unusedSectionVars false
variable {K : Type} [Field K] [LinearOrder K] [IsStrictOrderedRing K]

theorem sound_valid {e : Ent K} (h : Sound e) : Speed.Valid e.constraints ∧ Speed.Valid e.standard :=
  ⟨⟨h.now.1, h.now.2.1, h.now.2.2.1, h.now.2.2.2.1, h.now.2.2.2.2⟩,
    ⟨h.default.1, h.default.2.1, h.default.2.2.1, h.default.2.2.2.1, h.default.2.2.2.2⟩⟩

theorem accepted {v w : K} {cont : Bool} (h : cont = true ∨ ¬ Near v w) : (Speed.isTargetSpeedReached v w && !cont) = false := by
  rcases h with h | h
  · simp [h]
  · rw [(near_false _ _).mpr h]
    rfl

/-- A car at rest with the default limits of vehicles, for the examples. -/
def car : S (Ent Rat) Rat :=
  ⟨⟨"npc", ⟨0, 0, 0⟩, none, ⟨10, 3, 10, 3, 50⟩, ⟨10, 3, 10, 3, 50⟩, fun _ => none, true⟩, [], []⟩

def ratNum : Num Rat := ⟨id, 0⟩

/-- A free lane with a speed limit and a lead vehicle. -/
def road (lane : Rat) : World Rat := ⟨lane, fun n => if n = "lead" then some 12 else none⟩

/-- C224, speeding up. Asked for a higher speed with a linear transition and an acceleration, an entity without another request under way
has after every number of frames exactly the speed this acceleration gives, and not more than the target. When the target is
reached the default limits are in force; a continuous request keeps the target. For a request that is not continuous this is said up
to the frame in which the target is nearly reached. -/
theorem C224_up (N : Num K) (dt : K) (hdt : 0 < dt) (v a : K) (ha : 0 < a) (cont : Bool) (s : S (Ent K) K) (hi : Idle s)
    (hp : s.st.planner = true) (hs : Sound s.st) (hv : Possible v s.st) (hup : s.st.motion.speed < v)
    (hn : cont = true ∨ ¬ Near v s.st.motion.speed) :
    ∃ s', request N v .linear (.acceleration a) cont s = .ok s' ∧
      ∀ ws : List (World K),
        (cont = true ∨ ∀ j, 0 < j → j < ws.length → ¬ Near v (min v (s.st.motion.speed + a * dt * j))) →
        ∃ t, frames dt ws s' = .ok t ∧ t.st.motion.speed = min v (s.st.motion.speed + a * dt * ws.length) ∧
          t.st.planner = true ∧ t.st.standard = s.st.standard ∧
          (v ≤ s.st.motion.speed + a * dt * ws.length → t.st.constraints = s.st.standard ∧
            t.st.target = (if cont then some v else none) ∧ (cont = false → Idle t)) := by
  have hacc := accepted hn
  obtain ⟨s', h1, h2, h3⟩ := auto_up v a cont (setAcceleration a s) hi hp hacc hup.le
  have e : request N v .linear (.acceleration a) cont s = .ok s' := by
    unfold request
    rw [asking_ok hp, hacc]
    simp only [Bool.false_eq_true, if_false]
    rw [linear_eq v a cont s hp hacc, h1]
  refine ⟨s', e, fun ws hws => ?_⟩
  obtain ⟨v1, v2⟩ := sound_valid hs
  have habs : |a| = a := abs_of_pos ha
  obtain ⟨t, ht, hU⟩ := up_frames hdt ha cont { s.st.constraints with maxAcceleration := |a| } s.st.standard
    ⟨abs_nonneg a, v1.accRate, v1.dec, v1.decRate, v1.speed⟩ habs v2 hv.1 hv.2.1 hv.2.2.1 hv.2.2.2 hs.slow.1 ws 0 s'
    (by rw [h2]; simp [setAcceleration]) (by simpa using hup) (by rw [h2]; rfl) (by rw [h2]; rfl) (by rw [h2]; rfl) (by rw [h2])
    (by rw [h2]; exact hp) h3 (by simpa using hws)
  rw [Nat.zero_add] at hU
  exact ⟨t, ht, hU.speed, hU.planner, hU.kept, hU.after⟩

/-- C224, slowing down: the acceleration is negative. -/
theorem C224_down_partial (N : Num K) (dt : K) (hdt : 0 < dt) (v a : K) (ha : a < 0) (cont : Bool) (s : S (Ent K) K) (hi : Idle s)
    (hp : s.st.planner = true) (hs : Sound s.st) (hv : Possible v s.st) (hup : v < s.st.motion.speed)
    (hn : cont = true ∨ ¬ Near v s.st.motion.speed) :
    ∃ s', request N v .linear (.acceleration a) cont s = .ok s' ∧
      ∀ ws : List (World K),
        (cont = true ∨ ∀ j, 0 < j → j < ws.length → ¬ Near v (max v (s.st.motion.speed + a * dt * j))) →
        ∃ t, frames dt ws s' = .ok t ∧ t.st.motion.speed = max v (s.st.motion.speed + a * dt * ws.length) ∧
          t.st.planner = true ∧ t.st.standard = s.st.standard ∧
          (s.st.motion.speed + a * dt * ws.length ≤ v → t.st.constraints = s.st.standard ∧
            t.st.target = (if cont then some v else none) ∧ (cont = false → Idle t)) := by
  have hacc := accepted hn
  obtain ⟨s', h1, h2, h3⟩ := auto_down v a cont (setAcceleration a s) hi hp hacc hup
  have e : request N v .linear (.acceleration a) cont s = .ok s' := by
    unfold request
    rw [asking_ok hp, hacc]
    simp only [Bool.false_eq_true, if_false]
    rw [linear_eq v a cont s hp hacc, h1]
  refine ⟨s', e, fun ws hws => ?_⟩
  obtain ⟨v1, v2⟩ := sound_valid hs
  have habs : |a| = -a := abs_of_neg ha
  obtain ⟨t, ht, hU⟩ := down_frames hdt ha cont { s.st.constraints with maxDeceleration := |a| } s.st.standard
    ⟨v1.acc, v1.accRate, abs_nonneg a, v1.decRate, v1.speed⟩ habs v2 hv.1 hv.2.1 hv.2.2.1 hv.2.2.2 hs.slow.2 ws 0 s'
    (by rw [h2]; simp [setAcceleration]) (by simpa using hup) (by rw [h2]; rfl) (by rw [h2]; rfl) (by rw [h2]; rfl) (by rw [h2])
    (by rw [h2]; exact hp) h3 (by simpa using hws)
  rw [Nat.zero_add] at hU
  exact ⟨t, ht, hU.speed, hU.planner, hU.kept, hU.after⟩

/-- The hypotheses are met by the car at rest asked for 10 m/s with 2 m/s²; after three frames of one second it has 6 m/s. -/
example : Idle car ∧ Sound car.st ∧ Possible 10 car.st ∧ ¬ Near 10 car.st.motion.speed ∧
    ((request ratNum 10 .linear (.acceleration 2) true car).andThen (frames 1 [road 20, road 20, road 20])).speed = some 6 := by
  refine ⟨by simp [Idle, car], ⟨?_, ?_, ?_⟩, ?_, ?_, by decide +kernel⟩
  · decide +kernel
  · decide +kernel
  · decide +kernel
  · unfold Possible; decide +kernel
  · unfold Near; decide +kernel

theorem step_wrong {dt : K} (hdt : 0 < dt) {c : Speed.Constraints K} (hc : Speed.Valid c) {v : K} (hv : -c.maxSpeed ≤ v)
    (hv' : v ≤ c.maxSpeed) (s : Speed.State K) (h : v < s.speed) (h0 : s.speed ≤ c.maxSpeed) (ha : dt * c.maxDecelerationRate ≤ s.acceleration) :
    ∃ m, Speed.step dt c v s = some m ∧ m.speed = s.speed := by
  refine ⟨_, Speed.step_eq hdt hc v s, ?_⟩
  have hmin : min v c.maxSpeed = v := min_eq_left hv'
  simp only [hmin]
  rw [Speed.after_inside hdt hc hv' hv (hv.trans h.le) h0]
  unfold Speed.wanted
  rw [if_neg (not_le.mpr h), min_eq_right (by linarith), max_eq_right]
  · simp
  · exact max_le (by linarith [hc.dec]) (div_nonpos_of_nonpos_of_nonneg (by linarith) hdt.le)

/-- C224 is false for slowing down when the acceleration is given without a sign, as the rate of a scenario is: in the first frame the
entity does not slow down at all. -/
theorem C224_rate_violated (N : Num K) (dt : K) (hdt : 0 < dt) (v a : K) (cont : Bool) (s : S (Ent K) K) (hi : Idle s)
    (hp : s.st.planner = true) (hs : Sound s.st) (hv : Possible v s.st) (hup : v < s.st.motion.speed)
    (hn : cont = true ∨ ¬ Near v s.st.motion.speed) (ha : dt * s.st.constraints.maxDecelerationRate ≤ a) (w : World K) :
    ∃ s' t, request N v .linear (.acceleration a) cont s = .ok s' ∧ frame dt w s' = .ok t ∧ t.st.motion.speed = s.st.motion.speed := by
  have hacc := accepted hn
  obtain ⟨s', h1, h2, h3⟩ := auto_down v a cont (setAcceleration a s) hi hp hacc hup
  have e : request N v .linear (.acceleration a) cont s = .ok s' := by
    unfold request
    rw [asking_ok hp, hacc]
    simp only [Bool.false_eq_true, if_false]
    rw [linear_eq v a cont s hp hacc, h1]
  obtain ⟨v1, v2⟩ := sound_valid hs
  have hc : Speed.Valid { s.st.constraints with maxDeceleration := |a| } := ⟨v1.acc, v1.accRate, abs_nonneg a, v1.decRate, v1.speed⟩
  obtain ⟨m, hm, hms⟩ := step_wrong hdt hc (v := v) hv.1 hv.2.1 ⟨s.st.motion.speed, a, s.st.motion.jerk⟩ hup hs.slow.2 ha
  obtain ⟨t, ht, hst, _⟩ := frame_shape dt w _ v cont true true s' h3 m (by rw [h2]; exact hm)
  refine ⟨s', t, e, ht, ?_⟩
  rw [hst, (afterJobs_motion _ _ _ _ _ _).1]
  exact hms

example : ((request ratNum 5 .linear (.acceleration 3) true { car with st := { car.st with motion := ⟨10, 0, 0⟩ } }).andThen
    (frames 1 [road 20])).speed = some 10 := by decide +kernel

/-! ### The limits -/

theorem step_bounds {dt : K} (hdt : 0 < dt) {c : Speed.Constraints K} (hc : Speed.Valid c) (v : K) (s : Speed.State K)
    (h1 : -c.maxSpeed ≤ s.speed) (h2 : s.speed ≤ c.maxSpeed) :
    ∃ m, Speed.step dt c v s = some m ∧ m.speed - s.speed ≤ c.maxAcceleration * dt ∧ s.speed - m.speed ≤ c.maxDeceleration * dt ∧
      -c.maxSpeed ≤ m.speed ∧ m.speed ≤ c.maxSpeed := by
  refine ⟨_, Speed.step_eq hdt hc v s, ?_, ?_, Speed.after_bounds dt hc _ s⟩
  · have hw := mul_le_mul_of_nonneg_right (Speed.wanted_range hdt hc (min v c.maxSpeed) s).2 hdt.le
    have h0 : 0 ≤ c.maxAcceleration * dt := mul_nonneg hc.acc hdt.le
    show Speed.after dt c (min v c.maxSpeed) s - s.speed ≤ _
    have : Speed.after dt c (min v c.maxSpeed) s ≤ s.speed + c.maxAcceleration * dt := by
      unfold Speed.after
      exact max_le (by linarith) ((min_le_left _ _).trans (by linarith))
    linarith
  · have hw := mul_le_mul_of_nonneg_right (Speed.wanted_range hdt hc (min v c.maxSpeed) s).1 hdt.le
    have h0 : 0 ≤ c.maxDeceleration * dt := mul_nonneg hc.dec hdt.le
    show s.speed - Speed.after dt c (min v c.maxSpeed) s ≤ _
    have : s.speed - c.maxDeceleration * dt ≤ Speed.after dt c (min v c.maxSpeed) s := by
      unfold Speed.after
      exact le_max_of_le_right (le_min (by linarith) (by linarith))
    linarith

theorem limit_frames {dt : K} (hdt : 0 < dt) (done : K → Bool) (v : K) (cont : Bool) (c : Speed.Constraints K) (hc : Speed.Valid c) :
    ∀ (ws : List (World K)) (s : S (Ent K) K) (a2 : Bool), s.st.constraints = c → -c.maxSpeed ≤ s.st.motion.speed →
      s.st.motion.speed ≤ c.maxSpeed → Shape done v cont true a2 s →
      (∀ ws', ws' <+: ws → ∀ u, frames dt ws' s = .ok u → done u.st.motion.speed = false) →
      ∃ t, frames dt ws s = .ok t ∧ ∀ w, ∃ t', frame dt w t = .ok t' ∧
        t'.st.motion.speed - t.st.motion.speed ≤ c.maxAcceleration * dt ∧ t.st.motion.speed - t'.st.motion.speed ≤ c.maxDeceleration * dt := by
  intro ws
  induction ws with
  | nil =>
    intro s a2 h1 h2 h3 h4 _
    refine ⟨s, rfl, fun w => ?_⟩
    obtain ⟨m, hm, b1, b2, _⟩ := step_bounds hdt hc (s.st.target.getD w.lane) s.st.motion h2 h3
    obtain ⟨t', ht, hst, _⟩ := frame_shape dt w done v cont true a2 s h4 m (by rw [h1]; exact hm)
    refine ⟨t', ht, ?_⟩
    rw [hst, (afterJobs_motion _ _ _ _ _ _).1]
    exact ⟨b1, b2⟩
  | cons w ws ih =>
    intro s a2 h1 h2 h3 h4 hb
    obtain ⟨m, hm, _, _, b3, b4⟩ := step_bounds hdt hc (s.st.target.getD w.lane) s.st.motion h2 h3
    obtain ⟨s1, hf, hst, hsh⟩ := frame_shape dt w done v cont true a2 s h4 m (by rw [h1]; exact hm)
    have e1 : s1.st.motion = m := by rw [hst, (afterJobs_motion _ _ _ _ _ _).1]
    have hd : done m.speed = false := by
      have := hb [w] (by simp) s1 (by rw [frames_cons hf]; rfl)
      rwa [e1] at this
    rw [hd] at hsh
    rw [frames_cons hf]
    refine ih s1 _ ?_ (by rw [e1]; exact b3) (by rw [e1]; exact b4) hsh ?_
    · rw [hst, afterJobs_constraints]
      simpa [hd] using h1
    · intro ws' hp u hu
      exact hb (w :: ws') (by simpa using hp) u (by rw [frames_cons hf]; exact hu)

theorem request_eq (N : Num K) (v a : K) (tr : Transition) (htr : tr ≠ .step) (cont : Bool) (s : S (Ent K) K) (hp : s.st.planner = true)
    (hacc : (Speed.isTargetSpeedReached v s.st.motion.speed && !cont) = false) :
    request N v tr (.acceleration a) cont s =
      autoAcceleration v a cont (if tr = .linear then setAcceleration a s else s) := by
  unfold request
  rw [asking_ok hp, hacc]
  simp only [Bool.false_eq_true, if_false]
  unfold withAcceleration
  rw [asking_ok hp, hacc]
  cases tr <;> simp_all

/-- C224, the limit when speeding up. Asked for a higher speed with a linear or automatic transition and an acceleration of either sign, an
entity without another request under way never speeds up more than that from one frame to the next, until it has the speed. -/
theorem C224_limit_up (N : Num K) (dt : K) (hdt : 0 < dt) (v a : K) (tr : Transition) (htr : tr ≠ .step) (cont : Bool) (s : S (Ent K) K)
    (hi : Idle s) (hp : s.st.planner = true) (hs : Sound s.st) (hup : s.st.motion.speed ≤ v)
    (hn : cont = true ∨ ¬ Near v s.st.motion.speed) :
    ∃ s', request N v tr (.acceleration a) cont s = .ok s' ∧
      ∀ ws : List (World K), (∀ ws', ws' <+: ws → ∀ u, frames dt ws' s' = .ok u → u.st.motion.speed < v) →
        ∃ t, frames dt ws s' = .ok t ∧ ∀ w, ∃ t', frame dt w t = .ok t' ∧ t'.st.motion.speed - t.st.motion.speed ≤ |a| * dt := by
  have hacc := accepted hn
  rw [request_eq N v a tr htr cont s hp hacc]
  obtain ⟨v1, _⟩ := sound_valid hs
  have hs0 : (if tr = .linear then setAcceleration a s else s).st.motion.speed = s.st.motion.speed := by split <;> rfl
  have hc0 : (if tr = .linear then setAcceleration a s else s).st.constraints = s.st.constraints := by split <;> rfl
  obtain ⟨s', h1, h2, h3⟩ := auto_up v a cont (if tr = .linear then setAcceleration a s else s) (by split <;> exact hi)
    (by split <;> exact hp) (by rw [hs0]; exact hacc) (by rw [hs0]; exact hup)
  refine ⟨s', h1, fun ws hb => ?_⟩
  obtain ⟨t, ht, hall⟩ := limit_frames hdt (fun w => decide (v ≤ w)) v cont { s.st.constraints with maxAcceleration := |a| }
    ⟨abs_nonneg a, v1.accRate, v1.dec, v1.decRate, v1.speed⟩ ws s' true (by rw [h2, hc0])
    (by rw [h2]; show _ ≤ (if tr = .linear then setAcceleration a s else s).st.motion.speed; rw [hs0]; exact hs.slow.1)
    (by rw [h2]; show (if tr = .linear then setAcceleration a s else s).st.motion.speed ≤ _; rw [hs0]; exact hs.slow.2) h3
    (fun ws' hp u hu => by simpa using hb ws' hp u hu)
  refine ⟨t, ht, fun w => ?_⟩
  obtain ⟨t', ht', b, _⟩ := hall w
  exact ⟨t', ht', b⟩

/-- C224, the limit when slowing down. -/
theorem C224_limit_down (N : Num K) (dt : K) (hdt : 0 < dt) (v a : K) (tr : Transition) (htr : tr ≠ .step) (cont : Bool) (s : S (Ent K) K)
    (hi : Idle s) (hp : s.st.planner = true) (hs : Sound s.st) (hup : v < s.st.motion.speed)
    (hn : cont = true ∨ ¬ Near v s.st.motion.speed) :
    ∃ s', request N v tr (.acceleration a) cont s = .ok s' ∧
      ∀ ws : List (World K), (∀ ws', ws' <+: ws → ∀ u, frames dt ws' s' = .ok u → v < u.st.motion.speed) →
        ∃ t, frames dt ws s' = .ok t ∧ ∀ w, ∃ t', frame dt w t = .ok t' ∧ t.st.motion.speed - t'.st.motion.speed ≤ |a| * dt := by
  have hacc := accepted hn
  rw [request_eq N v a tr htr cont s hp hacc]
  obtain ⟨v1, _⟩ := sound_valid hs
  have hs0 : (if tr = .linear then setAcceleration a s else s).st.motion.speed = s.st.motion.speed := by split <;> rfl
  have hc0 : (if tr = .linear then setAcceleration a s else s).st.constraints = s.st.constraints := by split <;> rfl
  obtain ⟨s', h1, h2, h3⟩ := auto_down v a cont (if tr = .linear then setAcceleration a s else s) (by split <;> exact hi)
    (by split <;> exact hp) (by rw [hs0]; exact hacc) (by rw [hs0]; exact hup)
  refine ⟨s', h1, fun ws hb => ?_⟩
  obtain ⟨t, ht, hall⟩ := limit_frames hdt (fun w => decide (w ≤ v)) v cont { s.st.constraints with maxDeceleration := |a| }
    ⟨v1.acc, v1.accRate, abs_nonneg a, v1.decRate, v1.speed⟩ ws s' true (by rw [h2, hc0])
    (by rw [h2]; show _ ≤ (if tr = .linear then setAcceleration a s else s).st.motion.speed; rw [hs0]; exact hs.slow.1)
    (by rw [h2]; show (if tr = .linear then setAcceleration a s else s).st.motion.speed ≤ _; rw [hs0]; exact hs.slow.2) h3
    (fun ws' hp u hu => by simpa using hb ws' hp u hu)
  refine ⟨t, ht, fun w => ?_⟩
  obtain ⟨t', ht', _, b⟩ := hall w
  exact ⟨t', ht', b⟩

/-! ### C223 -/

theorem time_eq (N : Num K) (v T : K) (cont : Bool) (s : S (Ent K) K) (hp : s.st.planner = true) (hT : N.eps < T) (hT0 : 0 < T)
    (hn : ¬ Near v s.st.motion.speed) :
    request N v .linear (.time T) cont s = request N v .linear (.acceleration ((v - s.st.motion.speed) / T)) false s := by
  have h := (near_false _ _).mpr hn
  unfold request
  rw [asking_ok hp, asking_ok hp, h]
  simp only [Bool.false_and, Bool.false_eq_true, if_false]
  unfold withTime
  rw [asking_ok hp, h]
  simp only [Bool.false_eq_true, if_false]
  rw [if_neg (by rw [abs_of_pos hT0]; rintro ⟨h, _⟩; exact absurd h (not_le.mpr hT))]

theorem ramp_up {cur v T dt : K} (hT : 0 < T) (h : cur < v) (n : K) :
    min v (cur + (v - cur) / T * dt * n) = ramp cur v T (dt * n) := by
  unfold ramp
  have e : cur + (v - cur) / T * dt * n = cur + (v - cur) * (dt * n / T) := by field_simp
  rw [e]
  rcases le_total 1 (dt * n / T) with h1 | h1
  · rw [min_eq_left h1, min_eq_left]
    · ring
    · nlinarith
  · rw [min_eq_right h1, min_eq_right]
    nlinarith

theorem ramp_down {cur v T dt : K} (hT : 0 < T) (h : v < cur) (n : K) :
    max v (cur + (v - cur) / T * dt * n) = ramp cur v T (dt * n) := by
  unfold ramp
  have e : cur + (v - cur) / T * dt * n = cur + (v - cur) * (dt * n / T) := by field_simp
  rw [e]
  rcases le_total 1 (dt * n / T) with h1 | h1
  · rw [min_eq_left h1, max_eq_left]
    · ring
    · nlinarith
  · rw [min_eq_right h1, max_eq_right]
    nlinarith

/-- C223. Asked for another speed with a linear transition that takes a given time, an entity without another request under way changes its speed
evenly, up or down, so that it has the target speed in the first frame at or after that time, and not before, and then the
request is over and the default limits are in force. This is said up to the frame in which the target is nearly reached. Missing:
requests made while another one is under way, see below. -/
theorem C223_time_partial (N : Num K) (dt : K) (hdt : 0 < dt) (v T : K) (hT : N.eps < T) (hT0 : 0 < T) (cont : Bool) (s : S (Ent K) K)
    (hi : Idle s) (hp : s.st.planner = true) (hs : Sound s.st) (hv : Possible v s.st) (hn : ¬ Near v s.st.motion.speed) :
    ∃ s', request N v .linear (.time T) cont s = .ok s' ∧
      ∀ ws : List (World K), (∀ j : ℕ, 0 < j → j < ws.length → ¬ Near v (ramp s.st.motion.speed v T (dt * j))) →
        ∃ t, frames dt ws s' = .ok t ∧ t.st.motion.speed = ramp s.st.motion.speed v T (dt * ws.length) ∧
          (T ≤ dt * ws.length → t.st.motion.speed = v ∧ Idle t ∧ t.st.constraints = s.st.standard ∧ t.st.target = none) := by
  rw [time_eq N v T cont s hp hT hT0 hn]
  have hne : s.st.motion.speed ≠ v := fun h => hn (by rw [h]; exact (near_iff _ _).mp (near_self v))
  have full : ∀ x, T ≤ x → ramp s.st.motion.speed v T x = v := by
    intro x hx
    unfold ramp
    rw [min_eq_left (by rwa [le_div_iff₀ hT0, one_mul])]
    ring
  rcases lt_or_gt_of_ne hne with h | h
  · obtain ⟨s', h1, h2⟩ := C224_up N dt hdt v ((v - s.st.motion.speed) / T) (div_pos (by linarith) hT0) false s hi hp hs hv h (.inr hn)
    refine ⟨s', h1, fun ws hws => ?_⟩
    obtain ⟨t, ht, g1, _, _, g2⟩ := h2 ws (.inr (fun j hj1 hj2 => by rw [ramp_up hT0 h]; exact hws j hj1 hj2))
    rw [ramp_up hT0 h] at g1
    refine ⟨t, ht, g1, fun hle => ?_⟩
    obtain ⟨k1, k2, k3⟩ := g2 (by
      have := ramp_up (dt := dt) hT0 h (ws.length : K)
      rw [full _ hle] at this
      exact min_eq_left_iff.mp this)
    exact ⟨g1.trans (full _ hle), k3 rfl, k1, by simpa using k2⟩
  · obtain ⟨s', h1, h2⟩ := C224_down_partial N dt hdt v ((v - s.st.motion.speed) / T) (div_neg_of_neg_of_pos (by linarith) hT0) false s hi hp hs hv h (.inr hn)
    refine ⟨s', h1, fun ws hws => ?_⟩
    obtain ⟨t, ht, g1, _, _, g2⟩ := h2 ws (.inr (fun j hj1 hj2 => by rw [ramp_down hT0 h]; exact hws j hj1 hj2))
    rw [ramp_down hT0 h] at g1
    refine ⟨t, ht, g1, fun hle => ?_⟩
    obtain ⟨k1, k2, k3⟩ := g2 (by
      have := ramp_down (dt := dt) hT0 h (ws.length : K)
      rw [full _ hle] at this
      exact max_eq_left_iff.mp this)
    exact ⟨g1.trans (full _ hle), k3 rfl, k1, by simpa using k2⟩

/-- From rest to 10 m/s in two and a half seconds, in frames of one second: 4, 8, 10. The hypotheses are those of the example above. -/
example : ((request ratNum 10 .linear (.time (5 / 2)) false car).andThen (frames 1 [road 20])).speed = some 4 ∧
    ((request ratNum 10 .linear (.time (5 / 2)) false car).andThen (frames 1 [road 20, road 20])).speed = some 8 ∧
    ((request ratNum 10 .linear (.time (5 / 2)) false car).andThen (frames 1 [road 20, road 20, road 20])).speed = some 10 := by
  decide +kernel

/-- C223 is false while another request is under way: a car with 1 m/s, on its way to 10 m/s, is asked to have 21 m/s in ten seconds. One
second later it should have 3 m/s and has 6 m/s: the end of the earlier request has taken the new limit away. -/
theorem C223_superseded_violated :
    ((request ratNum 10 .linear (.time 10) false car).andThen (frames 1 [road 20])).speed = some 1 ∧ ramp (1 : Rat) 21 10 1 = 3 ∧
    ((((request ratNum 10 .linear (.time 10) false car).andThen (frames 1 [road 20])).andThen
      (request ratNum 21 .linear (.time 10) false)).andThen (frames 1 [road 20])).speed = some 6 := by
  decide +kernel

end Verif.Pace
