import Verif.Pace.LinearTheorems
import Verif.Speed.Theorems
/-
C223, with the automatic transition.
-/
namespace Verif.Pace
open Verif.Job
set_option linter.unusedSectionVars false
variable {K : Type} [Field K] [LinearOrder K] [IsStrictOrderedRing K]

theorem auto_time (N : Num K) (v T : K) (hT : N.eps < T) (hT0 : 0 < T) (cont : Bool) (s s' : S (Ent K) K) (hi : Idle s)
    (hp : s.st.planner = true) (hn : ¬ Near v s.st.motion.speed) (h : request N v .auto (.time T) cont s = .ok s') :
    ∃ c, Speed.planConstraints N.sqrt s.st.constraints v s.st.motion T = some c ∧
      s'.st = { s.st with constraints := c, target := some v } ∧ Shape (fun w => decide (|w - v| < 1 / 100)) v false true true s' := by
  have hr := (near_false _ _).mpr hn
  unfold request at h
  rw [asking_ok hp, hr] at h
  simp only [Bool.false_and, Bool.false_eq_true, if_false] at h
  unfold withTime at h
  rw [asking_ok hp, hr] at h
  simp only [Bool.false_eq_true, if_false] at h
  rw [if_neg (by rw [abs_of_pos hT0]; rintro ⟨h, _⟩; exact absurd h (not_le.mpr hT))] at h
  cases hc : Speed.planConstraints N.sqrt s.st.constraints v s.st.motion T with
  | none =>
    rw [hc] at h
    cases h
  | some c =>
    rw [hc] at h
    dsimp only at h
    obtain ⟨s1, g1, g2, g3⟩ := two_jobs (fun w => decide (|w - v| < 1 / 100)) v false (setConstraints c s) hi hp (by
      show (Speed.isTargetSpeedReached v s.st.motion.speed && !false) = false
      rw [hr]; rfl)
    rw [g1] at h
    cases h
    exact ⟨c, rfl, g2, g3⟩

/-- C223 is false for braking with the automatic transition: asked, at a steady speed, for a lower speed in a given time that the limits allow, the
entity gets a negative limit, with which the next frame is undefined. -/
theorem C223_auto_violated (N : Num K) (dt : K) (hdt : 0 < dt) (v T : K) (hT : N.eps < T) (hT0 : 0 < T) (cont : Bool) (s s' : S (Ent K) K)
    (hi : Idle s) (hp : s.st.planner = true) (hv : Possible v s.st) (hn : ¬ Near v s.st.motion.speed)
    (hs : v < s.st.motion.speed) (ha : s.st.motion.acceleration = 0) (hJ : 0 < s.st.constraints.maxDecelerationRate)
    (hsqrt : ∀ x, x = s.st.constraints.maxDecelerationRate * T * s.st.constraints.maxDecelerationRate * T
        - 2 * s.st.constraints.maxDecelerationRate * (s.st.motion.speed - s.st.motion.acceleration * T - v) →
      0 ≤ x → 0 ≤ N.sqrt x ∧ N.sqrt x * N.sqrt x = x)
    (hq : Speed.quadraticDuration N.sqrt s.st.constraints v s.st.motion < T) (h : request N v .auto (.time T) cont s = .ok s')
    (w : World K) : frame dt w s' = .undefined := by
  obtain ⟨c, h1, h2, pre, d1, d2, hpre, hj⟩ := auto_time N v T hT hT0 cont s s' hi hp hn h
  obtain ⟨_, hstep⟩ := Speed.C59_braking_violated N.sqrt s.st.constraints c v s.st.motion T hT0 hJ hs ha hsqrt hq h1
  have hskip : ∀ j ∈ s'.jobs, j.active = false ∨ j.event ≠ Event.pre := by
    intro j hjm
    rw [hj] at hjm
    simp only [List.mem_append, List.mem_cons, List.not_mem_nil, or_false] at hjm
    rcases hjm with h | rfl | rfl
    · exact .inl (hpre j h)
    · exact .inr (by simp [accJob])
    · exact .inr (by simp [velJob])
  unfold frame
  rw [update_skip dt .pre { s' with st := { s'.st with others := w.others } } hskip]
  have : Speed.step dt s'.st.constraints (s'.st.target.getD w.lane) s'.st.motion = none := by
    rw [h2]
    exact hstep hv.2.1 dt hdt
  simp only [Bool.false_eq_true, if_false, this]

/-- From 10 m/s to 14/3 m/s in two seconds: the limit of the deceleration is -4 m/s². -/
example : (match request (⟨fun x => if x = 4 then 2 else 0, 0⟩ : Num Rat) (14 / 3) .auto (.time 2) true
      { car with st := { car.st with motion := ⟨10, 0, 0⟩ } } with
    | .ok s => some s.st.constraints.maxDeceleration
    | _ => none) = some (-4) ∧
    (match (request (⟨fun x => if x = 4 then 2 else 0, 0⟩ : Num Rat) (14 / 3) .auto (.time 2) true
      { car with st := { car.st with motion := ⟨10, 0, 0⟩ } }).andThen (frames 1 [road 20]) with
    | .undefined => true
    | _ => false) = true := by
  decide +kernel

end Verif.Pace
