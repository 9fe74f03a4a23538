import Verif.Speed.Model
import Mathlib.Tactic.Linarith
import Mathlib.Tactic.Ring
import Mathlib.Tactic.FieldSimp
import Mathlib.Algebra.Order.Archimedean.Basic
/- Lemmas about the speed planner. -/
namespace Verif.Speed

variable {K : Type} [Field K] [LinearOrder K] [IsStrictOrderedRing K]

/-- Constraints that make sense. -/
structure Valid (c : Constraints K) : Prop where
  acc : 0 ≤ c.maxAcceleration
  accRate : 0 ≤ c.maxAccelerationRate
  dec : 0 ≤ c.maxDeceleration
  decRate : 0 ≤ c.maxDecelerationRate
  speed : 0 ≤ c.maxSpeed

theorem clamp_eq {x lo hi : K} (h : lo ≤ hi) : clamp x lo hi = some (max lo (min x hi)) := by
  unfold clamp
  rw [if_neg (not_lt.mpr h)]
  congr 1
  split
  · next h1 => rw [max_eq_left]; exact (min_le_left _ _).trans h1.le
  · next h1 =>
    split
    · next h2 => rw [min_eq_right h2.le, max_eq_right h]
    · next h2 => rw [min_eq_left (not_lt.mp h2), max_eq_right (not_lt.mp h1)]

/-- The acceleration the planner asks for. -/
def wanted (dt : K) (c : Constraints K) (t : K) (s : State K) : K :=
  if s.speed ≤ t then max 0 (min (s.acceleration + dt * c.maxAccelerationRate) (min c.maxAcceleration ((t - s.speed) / dt)))
  else max (max (c.maxDeceleration * -1) ((t - s.speed) / dt)) (min (s.acceleration - dt * c.maxDecelerationRate) 0)

def after (dt : K) (c : Constraints K) (t : K) (s : State K) : K :=
  max (-1 * c.maxSpeed) (min (s.speed + wanted dt c t s * dt) c.maxSpeed)

theorem wanted_range {dt : K} (hdt : 0 < dt) {c : Constraints K} (hc : Valid c) (t : K) (s : State K) :
    -c.maxDeceleration ≤ wanted dt c t s ∧ wanted dt c t s ≤ c.maxAcceleration := by
  unfold wanted
  split
  · next h =>
    refine ⟨le_max_of_le_left (by linarith [hc.dec]), max_le hc.acc ?_⟩
    exact (min_le_right _ _).trans (min_le_left _ _)
  · next h =>
    refine ⟨le_max_of_le_left (le_max_of_le_left (by linarith)), max_le (max_le (by linarith [hc.dec, hc.acc]) ?_) ?_⟩
    · have : (t - s.speed) / dt ≤ 0 := div_nonpos_of_nonpos_of_nonneg (by linarith) hdt.le
      linarith [hc.acc]
    · exact (min_le_right _ _).trans hc.acc

theorem step_eq {dt : K} (hdt : 0 < dt) {c : Constraints K} (hc : Valid c) (target : K) (s : State K) :
    step dt c target s = some ⟨after dt c (min target c.maxSpeed) s, (after dt c (min target c.maxSpeed) s - s.speed) / dt,
      ((after dt c (min target c.maxSpeed) s - s.speed) / dt - s.acceleration) / dt⟩ := by
  have ht : (if c.maxSpeed < target then c.maxSpeed else target) = min target c.maxSpeed := by
    split
    · next h => rw [min_eq_right h.le]
    · next h => rw [min_eq_left (not_lt.mp h)]
  unfold step
  simp only [ht]
  generalize min target c.maxSpeed = t
  have hp : planLinearJerk dt c t s = some ((wanted dt c t s - s.acceleration) / dt) := by
    unfold planLinearJerk wanted isAccelerating
    by_cases h : s.speed ≤ t
    · rw [if_pos (by simpa using h), if_pos h]
      rw [clamp_eq (le_min hc.acc (div_nonneg (by linarith) hdt.le))]
      rfl
    · rw [if_neg (by simpa using h), if_neg h]
      rw [clamp_eq (max_le (by linarith [hc.dec]) (div_nonpos_of_nonpos_of_nonneg (by linarith) hdt.le))]
      rfl
  have hf : forwardAccel dt c ((wanted dt c t s - s.acceleration) / dt) s.acceleration = some (wanted dt c t s) := by
    unfold forwardAccel
    obtain ⟨h1, h2⟩ := wanted_range hdt hc t s
    have e : s.acceleration + dt * ((wanted dt c t s - s.acceleration) / dt) = wanted dt c t s := by
      field_simp; ring
    rw [e, clamp_eq (by linarith [hc.dec, hc.acc]), min_eq_left h2, max_eq_right (by linarith)]
  have hv : forwardTwist dt c (wanted dt c t s) s.speed = some (after dt c t s) := by
    unfold forwardTwist after
    rw [clamp_eq (by linarith [hc.speed])]
  rw [hp]
  simp only [Option.bind_eq_bind, Option.bind_some]
  rw [hf]
  simp only [Option.bind_some]
  rw [hv]
  rfl

theorem after_bounds (dt : K) {c : Constraints K} (hc : Valid c) (t : K) (s : State K) :
    -c.maxSpeed ≤ after dt c t s ∧ after dt c t s ≤ c.maxSpeed := by
  unfold after
  exact ⟨le_max_of_le_left (by linarith), max_le (by linarith [hc.speed]) (min_le_right _ _)⟩

theorem wanted_up {dt : K} (hdt : 0 < dt) {c : Constraints K} {t : K} {s : State K} (h : s.speed ≤ t) :
    0 ≤ wanted dt c t s ∧ s.speed + wanted dt c t s * dt ≤ t := by
  unfold wanted
  rw [if_pos h]
  refine ⟨le_max_left _ _, ?_⟩
  have h0 : (0 : K) ≤ (t - s.speed) / dt := div_nonneg (by linarith) hdt.le
  have : max 0 (min (s.acceleration + dt * c.maxAccelerationRate) (min c.maxAcceleration ((t - s.speed) / dt))) ≤ (t - s.speed) / dt :=
    max_le h0 ((min_le_right _ _).trans (min_le_right _ _))
  have := mul_le_mul_of_nonneg_right this hdt.le
  rw [div_mul_cancel₀ _ hdt.ne'] at this
  linarith

theorem wanted_down {dt : K} (hdt : 0 < dt) {c : Constraints K} (hc : Valid c) {t : K} {s : State K} (h : t < s.speed) :
    wanted dt c t s ≤ 0 ∧ t ≤ s.speed + wanted dt c t s * dt := by
  unfold wanted
  rw [if_neg (not_le.mpr h)]
  have h0 : (t - s.speed) / dt ≤ 0 := div_nonpos_of_nonpos_of_nonneg (by linarith) hdt.le
  refine ⟨max_le (max_le (by linarith [hc.dec]) h0) (min_le_right _ _), ?_⟩
  have : (t - s.speed) / dt ≤ max (max (c.maxDeceleration * -1) ((t - s.speed) / dt)) (min (s.acceleration - dt * c.maxDecelerationRate) 0) :=
    (le_max_right _ _).trans (le_max_left _ _)
  have := mul_le_mul_of_nonneg_right this hdt.le
  rw [div_mul_cancel₀ _ hdt.ne'] at this
  linarith

theorem after_up {dt : K} (hdt : 0 < dt) {c : Constraints K} {t : K} {s : State K} (h : s.speed ≤ t)
    (ht : t ≤ c.maxSpeed) (ht' : -c.maxSpeed ≤ t) :
    s.speed + wanted dt c t s * dt ≤ after dt c t s ∧ s.speed ≤ after dt c t s ∧ after dt c t s ≤ t := by
  obtain ⟨h1, h2⟩ := wanted_up hdt (c := c) h
  have h3 : 0 ≤ wanted dt c t s * dt := mul_nonneg h1 hdt.le
  unfold after
  rw [min_eq_left (by linarith)]
  exact ⟨le_max_right _ _, le_max_of_le_right (by linarith), max_le (by linarith) h2⟩

theorem after_down {dt : K} (hdt : 0 < dt) {c : Constraints K} (hc : Valid c) {t : K} {s : State K} (h : t < s.speed)
    (ht : t ≤ c.maxSpeed) (ht' : -c.maxSpeed ≤ t) :
    after dt c t s ≤ s.speed + wanted dt c t s * dt ∧ after dt c t s ≤ s.speed ∧ t ≤ after dt c t s := by
  obtain ⟨h1, h2⟩ := wanted_down hdt hc h
  have h3 : wanted dt c t s * dt ≤ 0 := mul_nonpos_of_nonpos_of_nonneg h1 hdt.le
  unfold after
  have e : max (-1 * c.maxSpeed) (min (s.speed + wanted dt c t s * dt) c.maxSpeed) = min (s.speed + wanted dt c t s * dt) c.maxSpeed :=
    max_eq_right (le_min (by linarith) (by linarith [hc.speed]))
  rw [e]
  exact ⟨min_le_left _ _, (min_le_left _ _).trans (by linarith), le_min h2 ht⟩

/-- Within the speed limit the last limitation changes nothing. -/
theorem after_inside {dt : K} (hdt : 0 < dt) {c : Constraints K} (hc : Valid c) {t : K} {s : State K}
    (ht : t ≤ c.maxSpeed) (ht' : -c.maxSpeed ≤ t) (h1 : -c.maxSpeed ≤ s.speed) (h2 : s.speed ≤ c.maxSpeed) :
    after dt c t s = s.speed + wanted dt c t s * dt := by
  rcases le_or_gt s.speed t with h | h
  · obtain ⟨a, b⟩ := wanted_up hdt (c := c) h
    have := mul_nonneg a hdt.le
    unfold after
    rw [min_eq_left (by linarith), max_eq_right (by linarith)]
  · obtain ⟨a, b⟩ := wanted_down hdt hc h
    have := mul_nonpos_of_nonpos_of_nonneg a hdt.le
    unfold after
    rw [min_eq_left (by linarith), max_eq_right (by linarith)]

theorem wanted_up_least {dt : K} {c : Constraints K} {t : K} {s : State K} (h : s.speed ≤ t)
    (ha : 0 ≤ s.acceleration) :
    min (min (dt * c.maxAccelerationRate) c.maxAcceleration) ((t - s.speed) / dt) ≤ wanted dt c t s := by
  unfold wanted
  rw [if_pos h]
  refine le_max_of_le_right (le_min ?_ (le_min ?_ ?_))
  · exact (min_le_left _ _).trans ((min_le_left _ _).trans (by linarith))
  · exact (min_le_left _ _).trans (min_le_right _ _)
  · exact min_le_right _ _

theorem wanted_down_most {dt : K} {c : Constraints K} {t : K} {s : State K} (h : t < s.speed)
    (ha : s.acceleration ≤ 0) :
    wanted dt c t s ≤ max (max (-(dt * c.maxDecelerationRate)) (-c.maxDeceleration)) ((t - s.speed) / dt) := by
  unfold wanted
  rw [if_neg (not_le.mpr h)]
  refine max_le (max_le ?_ ?_) ?_
  · exact le_max_of_le_left (le_max_of_le_right (by linarith))
  · exact le_max_right _ _
  · exact (min_le_left _ _).trans (le_max_of_le_left (le_max_of_le_left (by linarith)))

/-- One frame of acceleration reaches the target or gains at least a fixed amount. -/
theorem gain_up {dt : K} (hdt : 0 < dt) {c : Constraints K} {t : K} {s : State K} (h : s.speed ≤ t)
    (ht : t ≤ c.maxSpeed) (ht' : -c.maxSpeed ≤ t) (ha : 0 ≤ s.acceleration) :
    after dt c t s = t ∨ s.speed + min (dt * c.maxAccelerationRate) c.maxAcceleration * dt ≤ after dt c t s := by
  obtain ⟨a1, _, a3⟩ := after_up hdt h ht ht'
  have hw := wanted_up_least (dt := dt) (c := c) h ha
  rcases le_total (min (dt * c.maxAccelerationRate) c.maxAcceleration) ((t - s.speed) / dt) with hm | hm
  · right
    rw [min_eq_left hm] at hw
    have := mul_le_mul_of_nonneg_right hw hdt.le
    linarith
  · left
    rw [min_eq_right hm] at hw
    have := mul_le_mul_of_nonneg_right hw hdt.le
    rw [div_mul_cancel₀ _ hdt.ne'] at this
    exact le_antisymm a3 (by linarith)

theorem gain_down {dt : K} (hdt : 0 < dt) {c : Constraints K} (hc : Valid c) {t : K} {s : State K} (h : t < s.speed)
    (ht : t ≤ c.maxSpeed) (ht' : -c.maxSpeed ≤ t) (ha : s.acceleration ≤ 0) :
    after dt c t s = t ∨ after dt c t s ≤ s.speed - min (dt * c.maxDecelerationRate) c.maxDeceleration * dt := by
  obtain ⟨a1, _, a3⟩ := after_down hdt hc h ht ht'
  have hw := wanted_down_most (dt := dt) (c := c) h ha
  have e : max (-(dt * c.maxDecelerationRate)) (-c.maxDeceleration) = -min (dt * c.maxDecelerationRate) c.maxDeceleration := by
    rcases le_total (dt * c.maxDecelerationRate) c.maxDeceleration with h | h
    · rw [min_eq_left h, max_eq_left (by linarith)]
    · rw [min_eq_right h, max_eq_right (by linarith)]
  rw [e] at hw
  rcases le_total ((t - s.speed) / dt) (-min (dt * c.maxDecelerationRate) c.maxDeceleration) with hm | hm
  · right
    rw [max_eq_left hm] at hw
    have := mul_le_mul_of_nonneg_right hw hdt.le
    linarith
  · left
    rw [max_eq_right hm] at hw
    have := mul_le_mul_of_nonneg_right hw hdt.le
    rw [div_mul_cancel₀ _ hdt.ne'] at this
    exact le_antisymm (by linarith) a3

omit [IsStrictOrderedRing K] in
theorem run_succ (dt : K) (c : Constraints K) (target : K) (n : Nat) (s : State K) :
    run dt c target (n + 1) s = (step dt c target s).bind (run dt c target n) := rfl

/-- At the target the speed stays. -/
theorem run_stay {dt : K} (hdt : 0 < dt) {c : Constraints K} (hc : Valid c) {t : K} (ht : t ≤ c.maxSpeed)
    (ht' : -c.maxSpeed ≤ t) (n : Nat) : ∀ s : State K, s.speed = t → ∃ r, run dt c t n s = some r ∧ r.speed = t := by
  induction n with
  | zero => intro s h; exact ⟨s, rfl, h⟩
  | succ n ih =>
    intro s h
    obtain ⟨_, a2, a3⟩ := after_up hdt (c := c) (s := s) (t := t) h.le ht ht'
    rw [run_succ, step_eq hdt hc, min_eq_left ht]
    exact ih _ (le_antisymm a3 (by rw [h] at a2; exact a2))

theorem run_up {dt : K} (hdt : 0 < dt) {c : Constraints K} (hc : Valid c) {t : K} (ht : t ≤ c.maxSpeed)
    (ht' : -c.maxSpeed ≤ t) (m : Nat) : ∀ (n : Nat) (s : State K), m ≤ n → s.speed ≤ t → 0 ≤ s.acceleration →
      t - s.speed ≤ m * (min (dt * c.maxAccelerationRate) c.maxAcceleration * dt) →
      ∃ r, run dt c t n s = some r ∧ r.speed = t := by
  induction m with
  | zero =>
    intro n s _ h1 _ h3
    refine run_stay hdt hc ht ht' n s (le_antisymm h1 ?_)
    simp only [Nat.cast_zero, zero_mul] at h3
    linarith
  | succ m ih =>
    intro n s hn h1 h2 h3
    obtain ⟨n, rfl⟩ : ∃ k, n = k + 1 := ⟨n - 1, by omega⟩
    obtain ⟨_, a2, a3⟩ := after_up hdt (c := c) h1 ht ht'
    rw [run_succ, step_eq hdt hc, min_eq_left ht]
    simp only [Option.bind_some]
    rcases gain_up hdt h1 ht ht' h2 with h | h
    · exact run_stay hdt hc ht ht' n _ h
    · refine ih n _ (by omega) a3 (div_nonneg (by linarith) hdt.le) ?_
      push_cast at h3
      simp only
      linarith

theorem run_down {dt : K} (hdt : 0 < dt) {c : Constraints K} (hc : Valid c) {t : K} (ht : t ≤ c.maxSpeed)
    (ht' : -c.maxSpeed ≤ t) (m : Nat) : ∀ (n : Nat) (s : State K), m ≤ n → t ≤ s.speed → s.acceleration ≤ 0 →
      s.speed - t ≤ m * (min (dt * c.maxDecelerationRate) c.maxDeceleration * dt) →
      ∃ r, run dt c t n s = some r ∧ r.speed = t := by
  induction m with
  | zero =>
    intro n s _ h1 _ h3
    refine run_stay hdt hc ht ht' n s (le_antisymm ?_ h1)
    simp only [Nat.cast_zero, zero_mul] at h3
    linarith
  | succ m ih =>
    intro n s hn h1 h2 h3
    rcases h1.eq_or_lt with h1 | h1
    · exact run_stay hdt hc ht ht' n s h1.symm
    obtain ⟨n, rfl⟩ : ∃ k, n = k + 1 := ⟨n - 1, by omega⟩
    obtain ⟨_, a2, a3⟩ := after_down hdt hc h1 ht ht'
    rw [run_succ, step_eq hdt hc, min_eq_left ht]
    simp only [Option.bind_some]
    rcases gain_down hdt hc h1 ht ht' h2 with h | h
    · exact run_stay hdt hc ht ht' n _ h
    · refine ih n _ (by omega) a3 (div_nonpos_of_nonpos_of_nonneg (by linarith) hdt.le) ?_
      push_cast at h3
      simp only
      linarith

end Verif.Speed
