import Verif.Speed.Lemmas
import Mathlib.Algebra.Order.Ring.Rat
import Mathlib.Data.Rat.Floor
import Mathlib.Tactic.LinearCombination
/-
C33: limits of the speed planner. C34: convergence. C57: the stopping distance. C58: the estimated duration of a speed change.
C59: constraints planned for a given time.
-/
namespace Verif.Speed

variable {K : Type} [Field K] [LinearOrder K] [IsStrictOrderedRing K]

/-- Sensible constraints used in the examples: the defaults of the message. -/
def standard : Constraints Rat := ⟨10, 3, 10, 3, 50⟩

theorem standard_valid : Valid standard := ⟨by decide +kernel, by decide +kernel, by decide +kernel, by decide +kernel, by decide +kernel⟩

/-! ### C33 -/

/-- C33, speed. A step is always defined and never exceeds the speed limit, in either direction, whatever the state
and the target. -/
theorem C33_speed_limit (dt : K) (hdt : 0 < dt) (c : Constraints K) (hc : Valid c) (target : K) (s : State K) :
    ∃ n, step dt c target s = some n ∧ -c.maxSpeed ≤ n.speed ∧ n.speed ≤ c.maxSpeed :=
  ⟨_, step_eq hdt hc target s, after_bounds dt hc _ s⟩

/-- C33, target. The speed moves toward the target, or toward the limit if that is lower, and not beyond it. -/
theorem C33_no_overshoot (dt : K) (hdt : 0 < dt) (c : Constraints K) (hc : Valid c) (target : K) (ht : -c.maxSpeed ≤ target)
    (s n : State K) (h : step dt c target s = some n) :
    (s.speed ≤ min target c.maxSpeed → s.speed ≤ n.speed ∧ n.speed ≤ min target c.maxSpeed) ∧
    (min target c.maxSpeed ≤ s.speed → min target c.maxSpeed ≤ n.speed ∧ n.speed ≤ s.speed) := by
  rw [step_eq hdt hc] at h
  obtain rfl := Option.some.inj h
  have h1 : min target c.maxSpeed ≤ c.maxSpeed := min_le_right _ _
  have h2 : -c.maxSpeed ≤ min target c.maxSpeed := le_min ht (by linarith [hc.speed])
  constructor
  · intro hs
    obtain ⟨_, a, b⟩ := after_up hdt hs h1 h2
    exact ⟨a, b⟩
  · intro hs
    rcases hs.eq_or_lt with hs | hs
    · obtain ⟨_, a, b⟩ := after_up hdt hs.ge h1 h2
      exact ⟨hs.le.trans a, b.trans hs.le⟩
    · obtain ⟨_, a, b⟩ := after_down hdt hc hs h1 h2
      exact ⟨b, a⟩

/-- C33, acceleration. From a state within the speed limit the acceleration is within its limits and is the one by which
the speed changes. Missing: states beyond the speed limit (see below). -/
theorem C33_acceleration_partial (dt : K) (hdt : 0 < dt) (c : Constraints K) (hc : Valid c) (target : K)
    (ht : -c.maxSpeed ≤ target) (s n : State K) (h : step dt c target s = some n)
    (h1 : -c.maxSpeed ≤ s.speed) (h2 : s.speed ≤ c.maxSpeed) :
    -c.maxDeceleration ≤ n.acceleration ∧ n.acceleration ≤ c.maxAcceleration ∧ n.speed = s.speed + n.acceleration * dt ∧
    n.acceleration = s.acceleration + n.jerk * dt := by
  rw [step_eq hdt hc] at h
  obtain rfl := Option.some.inj h
  have e := after_inside hdt hc (t := min target c.maxSpeed) (s := s) (min_le_right _ _) (le_min ht (by linarith [hc.speed])) h1 h2
  have : (after dt c (min target c.maxSpeed) s - s.speed) / dt = wanted dt c (min target c.maxSpeed) s := by
    rw [e]; field_simp; ring
  simp only [this]
  obtain ⟨a, b⟩ := wanted_range hdt hc (min target c.maxSpeed) s
  refine ⟨a, b, e, ?_⟩
  field_simp
  ring

/-- C33, jerk. If the present acceleration points toward the target, it changes by at most the jerk limit in that
direction; and it changes by exactly that much unless the acceleration limit or the target is reached. Missing: see the
next theorem. -/
theorem C33_jerk_partial (dt : K) (hdt : 0 < dt) (c : Constraints K) (hc : Valid c) (target : K)
    (ht : -c.maxSpeed ≤ target) (s n : State K) (h : step dt c target s = some n)
    (h1 : -c.maxSpeed ≤ s.speed) (h2 : s.speed ≤ c.maxSpeed) :
    (s.speed ≤ min target c.maxSpeed → 0 ≤ s.acceleration →
      n.acceleration ≤ s.acceleration + dt * c.maxAccelerationRate ∧
      (n.acceleration = s.acceleration + dt * c.maxAccelerationRate ∨ n.acceleration = c.maxAcceleration ∨ n.speed = min target c.maxSpeed)) ∧
    (min target c.maxSpeed < s.speed → s.acceleration ≤ 0 →
      s.acceleration - dt * c.maxDecelerationRate ≤ n.acceleration ∧
      (n.acceleration = s.acceleration - dt * c.maxDecelerationRate ∨ n.acceleration = -c.maxDeceleration ∨ n.speed = min target c.maxSpeed)) := by
  rw [step_eq hdt hc] at h
  obtain rfl := Option.some.inj h
  have ht1 : min target c.maxSpeed ≤ c.maxSpeed := min_le_right _ _
  have ht2 : -c.maxSpeed ≤ min target c.maxSpeed := le_min ht (by linarith [hc.speed])
  have e := after_inside hdt hc (t := min target c.maxSpeed) (s := s) ht1 ht2 h1 h2
  have e' : (after dt c (min target c.maxSpeed) s - s.speed) / dt = wanted dt c (min target c.maxSpeed) s := by
    rw [e]; field_simp; ring
  simp only [e']
  generalize hT : min target c.maxSpeed = t at *
  constructor
  · intro hs ha
    have hJ : 0 ≤ dt * c.maxAccelerationRate := mul_nonneg hdt.le hc.accRate
    have h0 : (0 : K) ≤ (t - s.speed) / dt := div_nonneg (by linarith) hdt.le
    have hw : wanted dt c t s = min (s.acceleration + dt * c.maxAccelerationRate) (min c.maxAcceleration ((t - s.speed) / dt)) := by
      unfold wanted
      rw [if_pos hs, max_eq_right (le_min (by linarith) (le_min hc.acc h0))]
    refine ⟨hw ▸ min_le_left _ _, ?_⟩
    rcases min_choice (s.acceleration + dt * c.maxAccelerationRate) (min c.maxAcceleration ((t - s.speed) / dt)) with hm | hm
    · exact .inl (hw.trans hm)
    · rcases min_choice c.maxAcceleration ((t - s.speed) / dt) with hn | hn
      · exact .inr (.inl (hw.trans (hm.trans hn)))
      · refine .inr (.inr ?_)
        rw [e, hw.trans (hm.trans hn)]
        field_simp
        ring
  · intro hs ha
    have hJ : 0 ≤ dt * c.maxDecelerationRate := mul_nonneg hdt.le hc.decRate
    have hw : wanted dt c t s = max (max (c.maxDeceleration * -1) ((t - s.speed) / dt)) (s.acceleration - dt * c.maxDecelerationRate) := by
      unfold wanted
      rw [if_neg (not_le.mpr hs), min_eq_left (by linarith)]
    refine ⟨hw ▸ le_max_right _ _, ?_⟩
    rcases max_choice (max (c.maxDeceleration * -1) ((t - s.speed) / dt)) (s.acceleration - dt * c.maxDecelerationRate) with hm | hm
    · rcases max_choice (c.maxDeceleration * -1) ((t - s.speed) / dt) with hn | hn
      · exact .inr (.inl ((hw.trans (hm.trans hn)).trans (by ring)))
      · refine .inr (.inr ?_)
        rw [e, hw.trans (hm.trans hn)]
        field_simp
        ring
    · exact .inl (hw.trans hm)

example : step (1 / 10) standard 20 ⟨5, 1, 0⟩ = some ⟨513 / 100, 13 / 10, 3⟩ := by decide +kernel

/-- C33 is false for the jerk when the present acceleration points away from the target: braking at 5 m/s² ends within
one step, a jerk of 50 m/s³ where 3 m/s³ is the limit. -/
theorem C33_jerk_violated : step (1 / 10) standard 20 ⟨5, -5, 0⟩ = some ⟨5, 0, 50⟩ := by decide +kernel

/-- C33 is false for the acceleration when the entity is faster than its limit: it is slowed to the limit at once, here
with 100 m/s² where 10 m/s² is the limit. -/
theorem C33_beyond_limit_violated : step (1 / 10) standard 50 ⟨60, 0, 0⟩ = some ⟨50, -100, -1000⟩ := by decide +kernel

/-! ### C34 -/

/-- C34. With a fixed target within the speed limit and limits that permit any change at all, the planner reaches the
target from every state after finitely many steps and stays there. -/
theorem C34_converges [Archimedean K] (dt : K) (hdt : 0 < dt) (c : Constraints K) (hA : 0 < c.maxAcceleration)
    (hJ : 0 < c.maxAccelerationRate) (hD : 0 < c.maxDeceleration) (hJD : 0 < c.maxDecelerationRate)
    (target : K) (ht : target ≤ c.maxSpeed) (ht' : -c.maxSpeed ≤ target) (s : State K) :
    ∃ N, ∀ n, N ≤ n → ∃ r, run dt c target n s = some r ∧ r.speed = target := by
  have hc : Valid c := ⟨hA.le, hJ.le, hD.le, hJD.le, by linarith⟩
  rcases le_or_gt s.speed target with h | h
  · obtain ⟨_, a2, a3⟩ := after_up hdt (c := c) h ht ht'
    have hm : 0 < min (dt * c.maxAccelerationRate) c.maxAcceleration * dt := mul_pos (lt_min (mul_pos hdt hJ) hA) hdt
    obtain ⟨m, hm⟩ := Archimedean.arch (target - after dt c target s) hm
    refine ⟨m + 1, fun n hn => ?_⟩
    obtain ⟨n, rfl⟩ : ∃ k, n = k + 1 := ⟨n - 1, by omega⟩
    rw [run_succ, step_eq hdt hc, min_eq_left ht]
    refine run_up hdt hc ht ht' m n _ (by omega) a3 (div_nonneg (by linarith) hdt.le) ?_
    simpa [nsmul_eq_mul] using hm
  · obtain ⟨_, a2, a3⟩ := after_down hdt hc h ht ht'
    have hm : 0 < min (dt * c.maxDecelerationRate) c.maxDeceleration * dt := mul_pos (lt_min (mul_pos hdt hJD) hD) hdt
    obtain ⟨m, hm⟩ := Archimedean.arch (after dt c target s - target) hm
    refine ⟨m + 1, fun n hn => ?_⟩
    obtain ⟨n, rfl⟩ : ∃ k, n = k + 1 := ⟨n - 1, by omega⟩
    rw [run_succ, step_eq hdt hc, min_eq_left ht]
    refine run_down hdt hc ht ht' m n _ (by omega) a3 (div_nonpos_of_nonpos_of_nonneg (by linarith) hdt.le) ?_
    simpa [nsmul_eq_mul] using hm

example : ∃ N, ∀ n, N ≤ n → ∃ r, run (1 / 10) standard 20 n ⟨5, -5, 0⟩ = some r ∧ r.speed = 20 :=
  C34_converges _ (by decide +kernel) _ (by decide +kernel) (by decide +kernel) (by decide +kernel) (by decide +kernel) _
    (by decide +kernel) (by decide +kernel) _

/-! ### C57 -/

omit [IsStrictOrderedRing K] in
theorem runningLoop_ends (dt : K) (c : Constraints K) (target : K) (n : Nat) : ∀ (s r : State K) (ret : K),
    run dt c target (n + 1) s = some r → isTargetSpeedReached target r.speed = true →
    ∃ d, runningLoop dt c target s ret = some d := by
  induction n with
  | zero =>
    intro s r ret h hr
    rw [run_succ] at h
    rw [runningLoop.eq_def]
    cases hs : step dt c target s with
    | none => rw [hs] at h; cases h
    | some m =>
      rw [hs] at h
      simp only [Option.bind_some, run, Option.some.injEq] at h
      subst h
      simp only [Option.bind_eq_bind, Option.bind_some]
      rw [if_pos hr]
      exact ⟨_, rfl⟩
  | succ n ih =>
    intro s r ret h hr
    rw [run_succ] at h
    rw [runningLoop.eq_def]
    cases hs : step dt c target s with
    | none => rw [hs] at h; cases h
    | some m =>
      rw [hs] at h
      simp only [Option.bind_some] at h
      simp only [Option.bind_eq_bind, Option.bind_some]
      split
      · exact ⟨_, rfl⟩
      · exact ih m r _ h hr

/-- C57. The stopping distance is computed in finitely many steps from every state if the limits permit braking and
accelerating. Missing: that it is the distance travelled, see below. -/
theorem C57_terminates_partial [Archimedean K] (dt : K) (hdt : 0 < dt) (c : Constraints K) (hA : 0 < c.maxAcceleration)
    (hJ : 0 < c.maxAccelerationRate) (hD : 0 < c.maxDeceleration) (hJD : 0 < c.maxDecelerationRate) (hV : 0 ≤ c.maxSpeed)
    (s : State K) : ∃ d, runningDistance dt c 0 s = some d := by
  unfold runningDistance
  split
  · exact ⟨0, rfl⟩
  · obtain ⟨N, hN⟩ := C34_converges dt hdt c hA hJ hD hJD 0 hV (by linarith) s
    obtain ⟨r, h1, h2⟩ := hN (N + 1) (by omega)
    exact runningLoop_ends dt c 0 N s r 0 h1 (by simp [isTargetSpeedReached, h2])

/-- The distance travelled in `n` frames, and the state after them. -/
def travelled (dt : K) (c : Constraints K) (target : K) : Nat → State K → Option (K × State K)
  | 0, s => some (0, s)
  | n + 1, s => (step dt c target s).bind fun m => (travelled dt c target n m).map fun r => (moved dt s m + r.1, r.2)

omit [IsStrictOrderedRing K] in
theorem step_derivatives {dt : K} (hdt : dt ≠ 0) {c : Constraints K} {target : K} {s n : State K}
    (h : step dt c target s = some n) : n.acceleration * dt = n.speed - s.speed ∧ n.jerk * dt = n.acceleration - s.acceleration := by
  unfold step at h
  simp only [Option.bind_eq_bind, Option.bind_eq_some_iff] at h
  obtain ⟨_, _, _, _, v, _, h⟩ := h
  simp only [Option.pure_def, Option.some.injEq] at h
  subst h
  exact ⟨div_mul_cancel₀ _ hdt, div_mul_cancel₀ _ hdt⟩

/-- C57, in part: the computed distance is that travelled until the target is reached for the first time, apart from an error
that depends on the first and the last state only: the step time times the change of speed, and a sixth of the square of the
step time times the change of acceleration. (When braking to a stop it is too short by about one frame's motion.) -/
theorem C57_error_partial (dt : K) (hdt : 0 < dt) (c : Constraints K) (target : K) (s : State K) (d : K)
    (h : runningDistance dt c target s = some d) :
    ∃ n x r, travelled dt c target n s = some (x, r) ∧ |target - r.speed| ≤ 1 / 100 ∧
      (∀ m < n, ∀ y q, travelled dt c target m s = some (y, q) → ¬ |target - q.speed| ≤ 1 / 100) ∧
      d = x + dt * (r.speed - s.speed) + dt * dt / 6 * (r.acceleration - s.acceleration) := by
  have key : ∀ s ret d, runningLoop dt c target s ret = some d → ∃ n x r, travelled dt c target (n + 1) s = some (x, r) ∧
      |target - r.speed| ≤ 1 / 100 ∧
      (∀ m < n, ∀ y q, travelled dt c target (m + 1) s = some (y, q) → ¬ |target - q.speed| ≤ 1 / 100) ∧
      d = ret + x + dt * (r.speed - s.speed) + dt * dt / 6 * (r.acceleration - s.acceleration) := by
    refine runningLoop.partial_correctness dt c target (fun s ret d => ∃ n x r, travelled dt c target (n + 1) s = some (x, r) ∧
      |target - r.speed| ≤ 1 / 100 ∧
      (∀ m < n, ∀ y q, travelled dt c target (m + 1) s = some (y, q) → ¬ |target - q.speed| ≤ 1 / 100) ∧
      d = ret + x + dt * (r.speed - s.speed) + dt * dt / 6 * (r.acceleration - s.acceleration)) ?_
    intro f ih s ret d h
    simp only [Option.bind_eq_bind, Option.bind_eq_some_iff] at h
    obtain ⟨m, hm, h⟩ := h
    obtain ⟨h1, h2⟩ := step_derivatives hdt.ne' hm
    have e : m.speed * dt + m.acceleration * dt * dt / 2 + m.jerk * dt * dt * dt / 6 =
        moved dt s m + dt * (m.speed - s.speed) + dt * dt / 6 * (m.acceleration - s.acceleration) := by
      rw [h1, h2]; unfold moved; ring
    split at h
    · next hr =>
      obtain rfl := Option.some.inj h
      refine ⟨0, moved dt s m + 0, m, by simp [travelled, hm], by simpa [isTargetSpeedReached] using hr, by intro m hm; omega, ?_⟩
      linear_combination e
    · next hr =>
      obtain ⟨n, x, r, i1, i2, i3, i4⟩ := ih _ _ _ h
      refine ⟨n + 1, moved dt s m + x, r, by rw [travelled, hm, Option.bind_some, i1]; rfl, i2, ?_, ?_⟩
      · intro k hk y q hy
        rw [travelled, hm, Option.bind_some, Option.map_eq_some_iff] at hy
        obtain ⟨⟨y', q'⟩, hy, e⟩ := hy
        cases e
        cases k with
        | zero => cases hy; simpa [isTargetSpeedReached] using hr
        | succ k => exact i3 k (by omega) _ _ hy
      · rw [i4]; linear_combination e
  unfold runningDistance at h
  split at h
  · next hr =>
    obtain rfl := Option.some.inj h
    exact ⟨0, 0, s, rfl, by simpa [isTargetSpeedReached] using hr, by intro m hm; omega, by ring⟩
  · next hr =>
    obtain ⟨n, x, r, i1, i2, i3, i4⟩ := key _ _ _ h
    refine ⟨n + 1, x, r, i1, i2, ?_, by rw [i4]; ring⟩
    intro m hm y q hy
    cases m with
    | zero => cases hy; simpa [isTargetSpeedReached] using hr
    | succ m => exact i3 m (by omega) y q hy

/-- C57 is false: for an entity that stops within one frame the computed stopping distance is negative, although it
moves forward. -/
theorem C57_distance_violated :
    runningDistance (1 / 10) (⟨10, 1000, 10, 1000, 50⟩ : Constraints Rat) 0 ⟨1, 0, 0⟩ = some (-(1 / 15)) ∧
    step (1 / 10) (⟨10, 1000, 10, 1000, 50⟩ : Constraints Rat) 0 ⟨1, 0, 0⟩ = some ⟨0, -10, -100⟩ ∧
    moved (1 / 10) (⟨1, 0, 0⟩ : State Rat) ⟨0, -10, -100⟩ = 1 / 20 := by
  have h : step (1 / 10) (⟨10, 1000, 10, 1000, 50⟩ : Constraints Rat) 0 ⟨1, 0, 0⟩ = some ⟨0, -10, -100⟩ := by decide +kernel
  refine ⟨?_, h, by decide +kernel⟩
  unfold runningDistance
  rw [if_neg (by decide +kernel), runningLoop.eq_def, h]
  simp only [Option.bind_eq_bind, Option.bind_some]
  rw [if_pos (by decide +kernel)]
  decide +kernel

/-- C57 is false for an entity which cannot brake: the computation never ends. -/
theorem C57_no_braking_violated (dt : K) (hdt : 0 < dt) (c : Constraints K) (hc : Valid c) (hD : c.maxDeceleration = 0) (s : State K)
    (h1 : 1 / 100 < s.speed) (h2 : s.speed ≤ c.maxSpeed) : runningDistance dt c 0 s = none := by
  have key : ∀ s ret r, runningLoop dt c 0 s ret = some r → 1 / 100 < s.speed → s.speed ≤ c.maxSpeed → False := by
    refine runningLoop.partial_correctness dt c 0 (fun s _ _ => 1 / 100 < s.speed → s.speed ≤ c.maxSpeed → False) ?_
    intro f ih s ret r hr h1 h2
    have h0 : (0 : K) < s.speed := lt_trans (by norm_num) h1
    have hw : wanted dt c 0 s = 0 := by
      have a := (wanted_range hdt hc 0 s).1
      have b := (wanted_down hdt hc h0).1
      rw [hD] at a
      exact le_antisymm b (by linarith)
    have hn := after_inside hdt hc (t := 0) (s := s) hc.speed (by linarith) (by linarith) h2
    rw [hw, zero_mul, add_zero] at hn
    rw [step_eq hdt hc, min_eq_left hc.speed] at hr
    simp only [Option.bind_eq_bind, Option.bind_some, hn] at hr
    rw [if_neg (by simp only [isTargetSpeedReached, decide_eq_true_eq, not_le, zero_sub, abs_neg]; rw [abs_of_pos h0]; exact h1)] at hr
    exact ih _ _ _ hr h1 h2
  have h0 : (0 : K) < s.speed := lt_trans (by norm_num) h1
  unfold runningDistance
  rw [if_neg (by simp only [isTargetSpeedReached, decide_eq_true_eq, not_le, zero_sub, abs_neg]; rw [abs_of_pos h0]; exact h1)]
  cases hx : runningLoop dt c 0 s 0 with
  | none => rfl
  | some d => exact (key s 0 d hx h1 h2).elim

/-! ### C58 and C59 -/

/-- The speed after time `T` of an entity which raises its acceleration with constant jerk `j` up to time `t₁` and keeps
it constant from then on. -/
def profile (s : State K) (j t₁ T : K) : K :=
  s.speed + s.acceleration * t₁ + j * t₁ * t₁ / 2 + (s.acceleration + j * t₁) * (T - t₁)

/-- C58. The estimated duration of an acceleration is the time at which the entity has the target speed, if it gets to its
acceleration limit before and not within a hundredth of the target. Missing: other accelerations, and braking, see below. -/
theorem C58_duration_partial (sqrt : K → K) (c : Constraints K) (target : K) (s : State K) (hA : 0 < c.maxAcceleration)
    (hJ : 0 < c.maxAccelerationRate) (hs : s.speed ≤ target)
    (hlong : velocityWithConstantJerk s c.maxAccelerationRate ((c.maxAcceleration - s.acceleration) / c.maxAccelerationRate) < target - 1 / 100) :
    profile s c.maxAccelerationRate ((c.maxAcceleration - s.acceleration) / c.maxAccelerationRate) (accelerationDuration sqrt c target s) = target := by
  have hacc : isAccelerating target s = true := by simpa [isAccelerating] using hs
  generalize hv : velocityWithConstantJerk s c.maxAccelerationRate ((c.maxAcceleration - s.acceleration) / c.maxAccelerationRate) = v at *
  have hq : quadraticDuration sqrt c target s = (c.maxAcceleration - s.acceleration) / c.maxAccelerationRate := by
    unfold quadraticDuration
    rw [if_pos hacc]
    simp only [hv]
    rw [if_pos (by have : (0 : K) < 1 / 100 := by norm_num
                   linarith)]
  have hl : linearDuration sqrt c target s = (target - v) / c.maxAcceleration := by
    unfold linearDuration velocityToward
    simp only [hq, hacc, if_true, hv]
    rw [if_neg]
    rw [abs_of_neg (by have : (0 : K) < 1 / 100 := by norm_num
                       linarith), abs_of_pos (by norm_num)]
    linarith
  unfold accelerationDuration profile
  rw [hq, hl, ← hv]
  unfold velocityWithConstantJerk
  field_simp
  ring

example : profile (⟨0, 0, 0⟩ : State Rat) 3 (10 / 3) (accelerationDuration id standard 40 ⟨0, 0, 0⟩) = 40 := by decide +kernel

/-- C58 is false for braking, where the estimate is negative, here for braking from 10 m/s to a stop; and for short accelerations, where the
speed limit is used in place of the target: gaining 1 m/s with a jerk of 2 m/s³ takes one second, the estimate is 2.6. -/
theorem C58_violated (sqrt : Rat → Rat) (h : sqrt 100 = 10) :
    quadraticDuration sqrt standard 0 ⟨10, 0, 0⟩ = -(10 / 3) ∧ accelerationDuration sqrt standard 0 ⟨10, 0, 0⟩ < 0 ∧
    accelerationDuration sqrt ⟨10, 2, 10, 2, 25⟩ 1 ⟨0, 0, 0⟩ = 13 / 5 ∧
    velocityWithConstantJerk (⟨0, 0, 0⟩ : State Rat) 2 1 = 1 := by
  have h1 : quadraticDuration sqrt standard 0 ⟨10, 0, 0⟩ = -(10 / 3) := by
    unfold quadraticDuration
    rw [if_neg (by decide +kernel)]
    simp only
    rw [if_pos (by decide +kernel)]
    decide +kernel
  have h2 : quadraticDuration sqrt ⟨10, 2, 10, 2, 25⟩ 1 ⟨0, 0, 0⟩ = 5 := by
    unfold quadraticDuration
    rw [if_pos (by decide +kernel)]
    simp only
    rw [if_neg (by decide +kernel)]
    unfold quadraticToMaxSpeed
    rw [if_pos (by decide +kernel)]
    have e : ((0 : Rat) * 0 + 2 * 2 * (25 - 0)) = 100 := by norm_num
    simp only [e, h]
    norm_num
  refine ⟨h1, ?_, ?_, by decide +kernel⟩
  · unfold accelerationDuration linearDuration
    rw [h1]
    decide +kernel
  · unfold accelerationDuration linearDuration
    rw [h2]
    decide +kernel

/-- C59. Constraints planned for an acceleration with a given duration make the speed profile arrive at the target at exactly
that time. If the limit on acceleration is not reached within the time, the jerk is chosen, otherwise the limit. Missing:
braking, see below. -/
theorem C59_time_constraint_partial (sqrt : K → K) (c c' : Constraints K) (target : K) (s : State K) (T : K) (hT : 0 < T)
    (hJ : 0 < c.maxAccelerationRate) (hs : s.speed ≤ target)
    (hsqrt : ∀ x, x = c.maxAccelerationRate * T * c.maxAccelerationRate * T + 2 * c.maxAccelerationRate * (s.speed + s.acceleration * T - target) →
      0 ≤ x → 0 ≤ sqrt x ∧ sqrt x * sqrt x = x)
    (h : planConstraints sqrt c target s T = some c') :
    (T ≤ quadraticDuration sqrt c target s ∧ profile s c'.maxAccelerationRate T T = target) ∨
    (quadraticDuration sqrt c target s < T ∧ c'.maxAccelerationRate = c.maxAccelerationRate ∧
      (c'.maxAcceleration - s.acceleration) / c.maxAccelerationRate ≤ T ∧
      (s.speed + s.acceleration * T ≤ target → 0 ≤ (c'.maxAcceleration - s.acceleration) / c.maxAccelerationRate) ∧
      profile s c.maxAccelerationRate ((c'.maxAcceleration - s.acceleration) / c.maxAccelerationRate) T = target) := by
  have hacc : isAccelerating target s = true := by simpa [isAccelerating] using hs
  unfold planConstraints at h
  by_cases hq : T ≤ quadraticDuration sqrt c target s
  · rw [if_pos hq] at h
    left
    refine ⟨hq, ?_⟩
    obtain rfl := Option.some.inj h
    unfold profile
    field_simp
    ring
  · right
    rw [if_neg hq, if_pos hacc] at h
    simp only at h
    split at h
    · cases h
    · next hd =>
      obtain rfl := Option.some.inj h
      refine ⟨not_le.mp hq, rfl, ?_⟩
      obtain ⟨hnn, this⟩ := hsqrt _ rfl (not_lt.mp hd)
      generalize sqrt (c.maxAccelerationRate * T * c.maxAccelerationRate * T + 2 * c.maxAccelerationRate * (s.speed + s.acceleration * T - target)) = q at *
      refine ⟨?_, fun hle => ?_, ?_⟩
      · simp only
        rw [div_le_iff₀ hJ]
        linarith
      · simp only
        apply div_nonneg _ hJ.le
        have hJT : 0 ≤ c.maxAccelerationRate * T := (mul_pos hJ hT).le
        have : q * q ≤ (c.maxAccelerationRate * T) * (c.maxAccelerationRate * T) := by
          rw [this]
          have := mul_nonneg hJ.le (sub_nonneg.mpr hle)
          linarith
        have := abs_le_of_sq_le_sq' (by simpa [sq] using this) hJT
        linarith [this.2]
      · unfold profile
        simp only
        field_simp
        linear_combination (-1 : K) * this

/-- C59 is false for braking: planned from a steady speed, the limit on deceleration is negative for every target,
duration and constraint. The planner is then undefined. -/
theorem C59_braking_violated (sqrt : K → K) (c c' : Constraints K) (target : K) (s : State K) (T : K) (hT : 0 < T)
    (hJ : 0 < c.maxDecelerationRate) (hs : target < s.speed) (ha : s.acceleration = 0)
    (hsqrt : ∀ x, x = c.maxDecelerationRate * T * c.maxDecelerationRate * T - 2 * c.maxDecelerationRate * (s.speed - s.acceleration * T - target) →
      0 ≤ x → 0 ≤ sqrt x ∧ sqrt x * sqrt x = x)
    (hq : quadraticDuration sqrt c target s < T) (h : planConstraints sqrt c target s T = some c') :
    c'.maxDeceleration < 0 ∧ (target ≤ c.maxSpeed → ∀ dt, 0 < dt → step dt c' target s = none) := by
  have hacc : isAccelerating target s = false := by simpa [isAccelerating] using hs
  unfold planConstraints at h
  rw [if_neg (not_le.mpr hq), hacc, if_neg (by simp)] at h
  simp only at h
  split at h
  · cases h
  · next hd =>
    obtain rfl := Option.some.inj h
    have hneg : -c.maxDecelerationRate * T + sqrt (c.maxDecelerationRate * T * c.maxDecelerationRate * T
      - 2 * c.maxDecelerationRate * (s.speed - s.acceleration * T - target)) + s.acceleration < 0 := by
      obtain ⟨h0, h1⟩ := hsqrt _ rfl (not_lt.mp hd)
      generalize hx : sqrt (c.maxDecelerationRate * T * c.maxDecelerationRate * T
        - 2 * c.maxDecelerationRate * (s.speed - s.acceleration * T - target)) = q at *
      rw [ha] at h1 ⊢
      have hJT : 0 < c.maxDecelerationRate * T := mul_pos hJ hT
      have hpos : 0 < c.maxDecelerationRate * (s.speed - target) := mul_pos hJ (by linarith)
      by_contra hc
      have : c.maxDecelerationRate * T ≤ q := by linarith
      nlinarith [mul_le_mul this this hJT.le h0]
    refine ⟨hneg, fun htV dt hdt => ?_⟩
    unfold step planLinearJerk
    simp only [if_neg (not_lt.mpr htV), hacc]
    rw [if_neg (by simp)]
    unfold clamp
    rw [if_pos (lt_max_of_lt_left (by linarith))]
    rfl

/-- A square root sufficient for the examples. -/
def root (x : Rat) : Rat := if x = 36 then 6 else 0

example : (planConstraints root ⟨3, 2, 10, 2, 50⟩ 16 ⟨0, 0, 0⟩ 5).map (·.maxAcceleration) = some 4 ∧ profile (⟨0, 0, 0⟩ : State Rat) 2 (4 / 2) 5 = 16 := by
  decide +kernel

/-- Braking from 16 m/s to a stop in five seconds. -/
example : (planConstraints root ⟨3, 2, 10, 2, 50⟩ 0 ⟨16, 0, 0⟩ 5).map (·.maxDeceleration) = some (-4) := by decide +kernel

end Verif.Speed
