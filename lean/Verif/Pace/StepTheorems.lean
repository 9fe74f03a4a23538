import Verif.Pace.LinearTheorems
import Mathlib.Algebra.Order.Archimedean.Basic
/-
C225: changes of speed at once. C227: the limits after a change of speed. C228: how long a speed is kept.
-/
namespace Verif.Pace
open Verif.Job
set_option linter.unusedSectionVars false
variable {K : Type} [Field K] [LinearOrder K] [IsStrictOrderedRing K]

/-! ### C225 -/

theorem append_jumps {v : K} {c : Bool} {s : S (Ent K) K} (hp : s.st.planner = true) (hacc : (Speed.isTargetSpeedReached v s.st.motion.speed && !c) = false) :
    ∃ s', ((plain v c s).bind fun s => Res.ok (setSpeed v s)) = .ok s' ∧ s'.st.motion.speed = v := by
  rw [plain_ok hp hacc]
  exact ⟨_, rfl, rfl⟩

/-- C225. A change of speed in a step, with a time or an acceleration, is made at once, whatever other request is under way; only if the
speed is nearly the wanted one already it may be left as it is. -/
theorem C225_step_partial (N : Num K) (v : K) (x : K) (c : Constraint K) (hc : c = .acceleration x ∨ c = .time x) (cont : Bool) (s : S (Ent K) K)
    (hp : s.st.planner = true) :
    ∃ s', request N v .step c cont s = .ok s' ∧ (s'.st.motion.speed = v ∨ (Near v s.st.motion.speed ∧ s' = s)) := by
  cases hr : Speed.isTargetSpeedReached v s.st.motion.speed with
  | false =>
    have hacc : (Speed.isTargetSpeedReached v s.st.motion.speed && !cont) = false := by rw [hr]; rfl
    have hacc' : (Speed.isTargetSpeedReached v s.st.motion.speed && !false) = false := by rw [hr]; rfl
    unfold request
    rw [asking_ok hp, hacc]
    rcases hc with rfl | rfl
    · obtain ⟨s', h1, h2⟩ := append_jumps hp hacc
      refine ⟨s', ?_, .inl h2⟩
      simp only [Bool.false_eq_true, if_false]
      unfold withAcceleration
      rw [asking_ok hp, hacc]
      simpa using h1
    · obtain ⟨s', h1, h2⟩ := append_jumps hp hacc'
      refine ⟨s', ?_, .inl h2⟩
      simp only [Bool.false_eq_true, if_false]
      unfold withTime
      rw [asking_ok hp, hr]
      simpa using h1
  | true =>
    unfold request
    rw [asking_ok hp, hr]
    cases cont with
    | false => exact ⟨s, by simp, .inr ⟨(near_iff _ _).mp hr, rfl⟩⟩
    | true =>
      have hacc : (Speed.isTargetSpeedReached v s.st.motion.speed && !true) = false := by rw [hr]; rfl
      rcases hc with rfl | rfl
      · obtain ⟨s', h1, h2⟩ := append_jumps hp hacc
        refine ⟨s', ?_, .inl h2⟩
        simp only [Bool.not_true, Bool.and_false, Bool.false_eq_true, if_false]
        unfold withAcceleration
        rw [asking_ok hp, hacc]
        simpa using h1
      · refine ⟨s, ?_, .inr ⟨(near_iff _ _).mp hr, rfl⟩⟩
        simp only [Bool.not_true, Bool.and_false, Bool.false_eq_true, if_false]
        unfold withTime
        rw [asking_ok hp, hr]
        simp

/-- C225. A change of speed in no time is a step, whatever the transition. -/
theorem C225_no_time (N : Num K) (v T : K) (hT : |T| ≤ N.eps) (tr : Transition) (cont : Bool) (s : S (Ent K) K) :
    request N v tr (.time T) cont s = request N v .step (.time T) cont s := by
  unfold request
  by_cases hp : s.st.planner = true
  · rw [asking_ok hp, asking_ok hp]
    split
    · rfl
    · unfold withTime
      dsimp only
      rw [asking_ok hp, asking_ok hp]
      cases hr : Speed.isTargetSpeedReached v s.st.motion.speed with
      | true => rfl
      | false =>
        cases tr with
        | step => rfl
        | linear =>
          simp only [Bool.false_eq_true, if_false]
          rw [if_pos ⟨hT, by simp⟩, if_neg (by simp)]
          unfold stepTime
          rw [asking_ok hp, hr]
          simp
        | auto =>
          simp only [Bool.false_eq_true, if_false]
          rw [if_pos ⟨hT, by simp⟩, if_neg (by simp)]
          unfold stepTime
          rw [asking_ok hp, hr]
          simp
  · unfold asking
    rw [if_neg hp, if_neg hp]

example : (request ratNum 10 .step (.time 0) false car).speed = some 10 ∧ (request ratNum 10 .linear (.time 0) false car).speed = some 10 ∧
    (request ratNum 10 .step (.acceleration 1) true car).speed = some 10 := by decide +kernel

/-- C225 is false without a constraint: a step leaves the speed as it is. -/
theorem C225_no_constraint_violated (N : Num K) (v : K) (cont : Bool) (s : S (Ent K) K) (hi : Idle s) (hp : s.st.planner = true) :
    ∃ s', request N v .step .none cont s = .ok s' ∧ s'.st.motion.speed = s.st.motion.speed := by
  unfold request
  rw [asking_ok hp]
  cases h : (Speed.isTargetSpeedReached v s.st.motion.speed && !cont) with
  | true => exact ⟨s, by simp, rfl⟩
  | false =>
    simp only [Bool.false_eq_true, if_false]
    rw [plain_ok hp h, append_free _ _ _ { s with st := { s.st with target := some v } } (fun j hj => .inr (hi j hj))]
    exact ⟨_, rfl, rfl⟩

/-! ### C227 -/

/-- C227. When a linear change of speed has come to its end, the limits are again those that were in force before, if these were the
default ones. Missing: other limits, see the next theorem. -/
theorem C227_restored_partial (N : Num K) (dt : K) (hdt : 0 < dt) (v T : K) (hT : N.eps < T) (hT0 : 0 < T) (s s' t : S (Ent K) K)
    (hi : Idle s) (hp : s.st.planner = true) (hs : Sound s.st) (hv : Possible v s.st) (hn : ¬ Near v s.st.motion.speed)
    (hd : s.st.constraints = s.st.standard) (h : request N v .linear (.time T) false s = .ok s') (ws : List (World K))
    (hj : ∀ j : ℕ, 0 < j → j < ws.length → ¬ Near v (ramp s.st.motion.speed v T (dt * j))) (ht : frames dt ws s' = .ok t)
    (hlen : T ≤ dt * ws.length) : t.st.constraints = s.st.constraints := by
  obtain ⟨s1, h1, h2⟩ := C223_time_partial N dt hdt v T hT hT0 false s hi hp hs hv hn
  rw [h] at h1
  cases h1
  obtain ⟨t1, h3, _, h4⟩ := h2 ws hj
  rw [ht] at h3
  cases h3
  rw [(h4 hlen).2.2.1, hd]

example : (request ratNum 10 .linear (.time 2) false car).limit = some 5 ∧
    ((request ratNum 10 .linear (.time 2) false car).andThen (frames 1 [road 20, road 20])).limit = some 10 := by decide +kernel

/-- C227 is false for limits that were set before: they are lost with the first change of speed. -/
theorem C227_set_before_violated (N : Num K) (dt : K) (hdt : 0 < dt) (v T : K) (hT : N.eps < T) (hT0 : 0 < T) (s s' t : S (Ent K) K)
    (hi : Idle s) (hp : s.st.planner = true) (hs : Sound s.st) (hv : Possible v s.st) (hn : ¬ Near v s.st.motion.speed)
    (hd : s.st.constraints ≠ s.st.standard) (h : request N v .linear (.time T) false s = .ok s') (ws : List (World K))
    (hj : ∀ j : ℕ, 0 < j → j < ws.length → ¬ Near v (ramp s.st.motion.speed v T (dt * j))) (ht : frames dt ws s' = .ok t)
    (hlen : T ≤ dt * ws.length) : t.st.constraints ≠ s.st.constraints := by
  obtain ⟨s1, h1, h2⟩ := C223_time_partial N dt hdt v T hT hT0 false s hi hp hs hv hn
  rw [h] at h1
  cases h1
  obtain ⟨t1, h3, _, h4⟩ := h2 ws hj
  rw [ht] at h3
  cases h3
  rw [(h4 hlen).2.2.1]
  exact Ne.symm hd

/-- C227 is false for a request made while another one is under way: its limit is taken away by the end of the other one, and the
default one is in force from the start. -/
theorem C227_superseded_violated (N : Num K) (v a v' a' : K) (cont cont' : Bool) (s s1 s2 : S (Ent K) K) (hi : Idle s)
    (hp : s.st.planner = true) (h : s.st.motion.speed ≤ v) (h' : s.st.motion.speed ≤ v')
    (hn : cont = true ∨ ¬ Near v s.st.motion.speed) (hn' : cont' = true ∨ ¬ Near v' s.st.motion.speed)
    (h1 : request N v .auto (.acceleration a) cont s = .ok s1) (h2 : request N v' .auto (.acceleration a') cont' s1 = .ok s2) :
    s2.st.constraints = s.st.standard := by
  have hacc := accepted hn
  have hacc' := accepted hn'
  rw [request_eq N v a .auto (by simp) cont s hp hacc, if_neg (by simp)] at h1
  obtain ⟨s1', g1, g2, g3⟩ := auto_up v a cont s hi hp hacc h
  rw [g1] at h1
  cases h1
  have hp1 : s1.st.planner = true := by rw [g2]; exact hp
  have hm1 : s1.st.motion = s.st.motion := by rw [g2]
  have hacc1 : (Speed.isTargetSpeedReached v' s1.st.motion.speed && !cont') = false := by rw [hm1]; exact hacc'
  rw [request_eq N v' a' .auto (by simp) cont' s1 hp1 hacc1, if_neg (by simp)] at h2
  unfold autoAcceleration at h2
  rw [asking_ok hp1, hacc1] at h2
  simp only [Bool.false_eq_true, if_false] at h2
  rw [if_pos (by rw [hm1]; exact h')] at h2
  unfold setAccelerationLimit at h2
  rw [if_neg (not_lt.mpr (abs_nonneg a'))] at h2
  simp only [Res.bind] at h2
  obtain ⟨pre, d1, d2, hpre, hj⟩ := g3
  have hstd : s1.st.standard = s.st.standard := by rw [g2]
  have hw : ∃ j1, watch (fun w => decide (v' ≤ w)) (setConstraints { s1.st.constraints with maxAcceleration := |a'| } s1) =
      ⟨{ s1.st with constraints := s.st.standard }, j1, (watch (fun w => decide (v' ≤ w)) (setConstraints { s1.st.constraints with maxAcceleration := |a'| } s1)).log⟩ ∧
      ∃ p, (∀ j ∈ p, j.active = false) ∧ j1 = p ++ [velJob v cont true d2, accJob (fun w => decide (v' ≤ w)) true 0] := by
    refine ⟨(watch (fun w => decide (v' ≤ w)) (setConstraints { s1.st.constraints with maxAcceleration := |a'| } s1)).jobs, ?_, ?_⟩
    · unfold watch append setConstraints
      simp only [hj]
      rw [inactivateLoop_append _ _ pre 0 _ hpre]
      simp [inactivateLoop, accJob, velJob, reset, hstd]
    · refine ⟨pre ++ [accJob (fun w => decide (v ≤ w)) false d1], ?_, ?_⟩
      · intro j hjm
        simp only [List.mem_append, List.mem_cons, List.not_mem_nil, or_false] at hjm
        rcases hjm with hjm | rfl
        · exact hpre j hjm
        · rfl
      · unfold watch append setConstraints
        simp only [hj]
        rw [inactivateLoop_append _ _ pre 0 _ hpre]
        simp [inactivateLoop, accJob, velJob]
  obtain ⟨j1, hw, p, hp', hj1⟩ := hw
  rw [hw, plain_ok (s := ⟨{ s1.st with constraints := s.st.standard }, j1, _⟩) hp1 hacc1] at h2
  cases h2
  unfold append
  simp only [hj1]
  rw [inactivateLoop_append _ _ p 0 _ hp']
  cases cont <;> simp [inactivateLoop, accJob, velJob, plainCleanup]

/-- A limit of 2 m/s² is asked for while another request is under way; the limit in force is the default of 10 m/s². -/
example : (request ratNum 10 .auto (.acceleration 1) true car).limit = some 1 ∧
    ((request ratNum 10 .auto (.acceleration 1) true car).andThen (request ratNum 20 .auto (.acceleration 2) true)).limit = some 10 := by
  decide +kernel

/-! ### C228 -/

/-- C228. A continuous request with an acceleration brings the entity to the speed and keeps it there for ever: from some number of
frames on the speed is the target. -/
theorem C228_kept_partial [Archimedean K] (N : Num K) (dt : K) (hdt : 0 < dt) (v a : K) (s : S (Ent K) K) (hi : Idle s) (hp : s.st.planner = true)
    (hs : Sound s.st) (hv : Possible v s.st) (h : (s.st.motion.speed < v ∧ 0 < a) ∨ (v < s.st.motion.speed ∧ a < 0)) :
    ∃ s' n, request N v .linear (.acceleration a) true s = .ok s' ∧ ∀ ws : List (World K), n ≤ ws.length →
      ∃ t, frames dt ws s' = .ok t ∧ t.st.motion.speed = v ∧ t.st.target = some v := by
  rcases h with ⟨h, ha⟩ | ⟨h, ha⟩
  · obtain ⟨n, hn⟩ := Archimedean.arch (v - s.st.motion.speed) (mul_pos ha hdt)
    obtain ⟨s', h1, h2⟩ := C224_up N dt hdt v a ha true s hi hp hs hv h (.inl rfl)
    refine ⟨s', n, h1, fun ws hws => ?_⟩
    obtain ⟨t, ht, g1, _, _, g2⟩ := h2 ws (.inl rfl)
    have hle : v ≤ s.st.motion.speed + a * dt * ws.length := by
      have : a * dt * n ≤ a * dt * ws.length := mul_le_mul_of_nonneg_left (Nat.cast_le.mpr hws) (mul_pos ha hdt).le
      rw [nsmul_eq_mul] at hn
      linarith
    exact ⟨t, ht, g1.trans (min_eq_left hle), by simpa using (g2 hle).2.1⟩
  · obtain ⟨n, hn⟩ := Archimedean.arch (s.st.motion.speed - v) (mul_pos (neg_pos.mpr ha) hdt)
    obtain ⟨s', h1, h2⟩ := C224_down_partial N dt hdt v a ha true s hi hp hs hv h (.inl rfl)
    refine ⟨s', n, h1, fun ws hws => ?_⟩
    obtain ⟨t, ht, g1, _, _, g2⟩ := h2 ws (.inl rfl)
    have hle : s.st.motion.speed + a * dt * ws.length ≤ v := by
      have : -a * dt * n ≤ -a * dt * ws.length := mul_le_mul_of_nonneg_left (Nat.cast_le.mpr hws) (mul_pos (neg_pos.mpr ha) hdt).le
      rw [nsmul_eq_mul] at hn
      linarith
    exact ⟨t, ht, g1.trans (max_eq_left hle), by simpa using (g2 hle).2.1⟩

/-- C228 is false with a time: the request of a scenario for 10 m/s in two seconds is continuous. The car has 10 m/s after two frames of one
second and then goes on to speed up. -/
theorem C228_time_violated :
    ((request ratNum 10 .linear (.time 2) true car).andThen (frames 1 [road 20, road 20])).speed = some 10 ∧
    ((request ratNum 10 .linear (.time 2) true car).andThen (frames 1 [road 20, road 20, road 20])).speed = some 18 := by
  decide +kernel

/-- C228 is false before the first frame: no planner has been made yet and every request calls a function of it. -/
theorem C228_first_frame_violated (N : Num K) (v : K) (tr : Transition) (c : Constraint K) (cont : Bool) (s : S (Ent K) K)
    (hp : s.st.planner = false) : request N v tr c cont s = .undefined := by
  unfold request asking
  rw [hp]
  rfl

end Verif.Pace
