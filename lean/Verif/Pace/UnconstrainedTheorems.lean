import Verif.Pace.RelativeTheorems
/-
C226: relative speeds without a constraint, and relative to the entity itself.
-/
namespace Verif.Pace
open Verif.Job
set_option linter.unusedSectionVars false
variable {K : Type} [Field K] [LinearOrder K] [IsStrictOrderedRing K]

theorem absolute_own {r : Relative K} {e : Ent K} (h : e.others r.reference = none) (hn : e.name = r.reference) :
    absolute r e = some (r.of e.motion.speed) := by
  obtain ⟨ref, k, val⟩ := r
  cases k <;> simp_all [absolute, Relative.of]

/-- C226. Relative to the entity itself, a target stands for a speed relative to its own. -/
theorem C226_own (N : Num K) (r : Relative K) (tr : Transition) (htr : tr ≠ .step) (T : K) (hT : N.eps < |T|) (s : S (Ent K) K)
    (h : s.st.others r.reference = none) (hn : s.st.name = r.reference) :
    requestRelative N r tr (.time T) false s = request N (r.of s.st.motion.speed) tr (.time T) false s := by
  unfold requestRelative askingRelative request
  rw [absolute_own h hn]
  dsimp only
  by_cases hp : s.st.planner = true
  · rw [asking_ok hp, asking_ok hp]
    cases hr : Speed.isTargetSpeedReached (r.of s.st.motion.speed) s.st.motion.speed with
    | true => rfl
    | false =>
      simp only [Bool.false_and, Bool.false_eq_true, if_false]
      unfold relativeTime askingRelative
      rw [absolute_own h hn]
      dsimp only
      rw [asking_ok hp, hr]
      simp only [Bool.false_eq_true, if_false]
      rw [if_neg (by rintro ⟨h, _⟩; exact absurd h (not_le.mpr hT))]
      cases tr with
      | step => exact absurd rfl htr
      | linear => rfl
      | auto => rfl
  · unfold asking
    rw [if_neg hp, if_neg hp]

/-- The job of a relative request without a constraint. -/
def PlainShape (r : Relative K) (cont : Bool) (s : S (Ent K) K) : Prop :=
  ∃ pre d, (∀ j ∈ pre, j.active = false) ∧ s.jobs = pre ++ [⟨relativeBody r cont, plainCleanup cont, .linearVelocity, true, .post, true, d⟩]

/-- The request goes on in a frame that ends with this speed. -/
def GoesOn (r : Relative K) (cont : Bool) (w : World K) (v : K) : Prop :=
  ∃ x, w.others r.reference = some x ∧ (cont = true ∨ ¬ Near (r.of x) v)

theorem plain_frame (dt : K) (hdt : 0 < dt) (r : Relative K) (cont : Bool) (s : S (Ent K) K) (hsh : PlainShape r cont s)
    (hv : Speed.Valid s.st.constraints) (w : World K) :
    ∃ s', frame dt w s = .ok s' ∧ s'.st.constraints = s.st.constraints ∧
      (GoesOn r cont w s'.st.motion.speed → PlainShape r cont s' ∧ ∀ x, w.others r.reference = some x → s'.st.target = some (r.of x)) ∧
      (¬ GoesOn r cont w s'.st.motion.speed → Idle s' ∧ (cont = false → s'.st.target = none)) := by
  obtain ⟨pre, d, hpre, hj⟩ := hsh
  have hskip : ∀ j ∈ s.jobs, j.active = false ∨ j.event ≠ Event.pre := by
    intro j hjm
    rw [hj] at hjm
    simp only [List.mem_append, List.mem_cons, List.not_mem_nil, or_false] at hjm
    rcases hjm with h | rfl
    · exact .inl (hpre j h)
    · exact .inr (by simp)
  have hm := Speed.step_eq hdt hv (s.st.target.getD w.lane) s.st.motion
  unfold frame
  rw [update_skip dt .pre { s with st := { s.st with others := w.others } } hskip]
  simp only [Bool.false_eq_true, if_false, hm]
  unfold update
  simp only [hj]
  rw [updateLoop_append dt .post _ pre 0 _ hpre]
  generalize hE : ({ s.st with others := w.others, motion := _, planner := true } : Ent K) = E
  have hEo : E.others = w.others := by rw [← hE]
  have hEc : E.constraints = s.st.constraints := by rw [← hE]
  -- the body in the frame
  have hoff : ¬ GoesOn r cont w E.motion.speed → relativeBody r cont d E = (E, .returns true) := by
    intro hg
    unfold relativeBody
    rw [hEo]
    cases hw : w.others r.reference with
    | none => rfl
    | some x =>
      dsimp only
      rw [absolute_of (w := x) (by rw [hEo]; exact hw)]
      dsimp only
      have hc : cont = false := by
        cases hc : cont with
        | false => rfl
        | true => exact absurd ⟨x, hw, Or.inl hc⟩ hg
      have hnear : Speed.isTargetSpeedReached (r.of x) E.motion.speed = true := by
        cases hn : Speed.isTargetSpeedReached (r.of x) E.motion.speed with
        | true => rfl
        | false => exact absurd ⟨x, hw, Or.inr ((near_false _ _).1 hn)⟩ hg
      rw [hc, hnear]
      rfl
  have hon : ∀ x, w.others r.reference = some x → GoesOn r cont w E.motion.speed →
      relativeBody r cont d E = ({ E with target := some (r.of x) }, .returns false) := by
    rintro x hw ⟨x', hw', hg⟩
    rw [hw] at hw'
    cases hw'
    unfold relativeBody
    rw [hEo, hw]
    dsimp only
    rw [absolute_of (w := x) (by rw [hEo]; exact hw)]
    dsimp only
    rw [show (!cont && Speed.isTargetSpeedReached (r.of x) E.motion.speed) = false from by
      rcases hg with hg | hg
      · simp [hg]
      · simp [(near_false _ _).2 hg]]
    rfl
  by_cases hg : GoesOn r cont w E.motion.speed
  · obtain ⟨x, hw, _⟩ := id hg
    have hl : updateLoop dt .post (0 + pre.length) E [⟨relativeBody r cont, plainCleanup cont, .linearVelocity, true, .post, true, d⟩] =
        ({ E with target := some (r.of x) }, [⟨relativeBody r cont, plainCleanup cont, .linearVelocity, true, .post, true, d + dt⟩],
          [.ran (0 + pre.length)], false) := by
      simp [updateLoop, hon x hw hg]
    rw [hl]
    refine ⟨_, rfl, hEc, fun _ => ⟨⟨pre, d + dt, hpre, rfl⟩, fun y hy => ?_⟩, fun h => absurd hg h⟩
    rw [hw] at hy; cases hy; rfl
  · have hl : updateLoop dt .post (0 + pre.length) E [⟨relativeBody r cont, plainCleanup cont, .linearVelocity, true, .post, true, d⟩] =
        (plainCleanup cont E, [⟨relativeBody r cont, plainCleanup cont, .linearVelocity, true, .post, false, d + dt⟩],
          [.ran (0 + pre.length), .cleaned (0 + pre.length)], false) := by
      simp [updateLoop, hoff hg]
    rw [hl]
    have hpm : (plainCleanup cont E).motion = E.motion := by unfold plainCleanup; split <;> rfl
    have hpc : (plainCleanup cont E).constraints = E.constraints := by unfold plainCleanup; split <;> rfl
    refine ⟨_, rfl, hpc.trans hEc, fun h => absurd (by simpa [hpm] using h) hg, fun _ => ⟨?_, ?_⟩⟩
    · intro j hjm
      simp only [List.mem_append, List.mem_cons, List.not_mem_nil, or_false] at hjm
      rcases hjm with h | rfl
      · exact hpre j h
      · rfl
    · intro hc; simp [plainCleanup, hc]

theorem plain_frames (dt : K) (hdt : 0 < dt) (r : Relative K) (cont : Bool) : ∀ (ws : List (World K)) (s : S (Ent K) K),
    PlainShape r cont s → Speed.Valid s.st.constraints →
      (∀ ws' w, ws' ++ [w] <+: ws → ∀ u, frames dt (ws' ++ [w]) s = .ok u → GoesOn r cont w u.st.motion.speed) →
      ∃ t, frames dt ws s = .ok t ∧ PlainShape r cont t ∧ Speed.Valid t.st.constraints ∧
        ∀ ws' w x, ws = ws' ++ [w] → w.others r.reference = some x → t.st.target = some (r.of x) := by
  intro ws
  induction ws with
  | nil => exact fun s h hv _ => ⟨s, rfl, h, hv, fun _ _ _ h => absurd h (by simp)⟩
  | cons w ws ih =>
    intro s hsh hv hall
    obtain ⟨s1, hf, hc, hon, _⟩ := plain_frame dt hdt r cont s hsh hv w
    have hg := hall [] w (by simp) s1 (by rw [List.nil_append, frames_cons hf]; rfl)
    obtain ⟨hsh1, htg⟩ := hon hg
    obtain ⟨t, ht, hts, htv, hlast⟩ := ih s1 hsh1 (by rw [hc]; exact hv) (fun ws' w' hp u hu =>
      hall (w :: ws') w' (by simpa using hp) u (by rw [List.cons_append, frames_cons hf]; exact hu))
    rw [frames_cons hf]
    refine ⟨t, ht, hts, htv, fun ws' w' y hws hy => ?_⟩
    cases ws' with
    | cons b bs =>
      rw [List.cons_append] at hws
      injection hws with _ h2
      exact hlast bs w' y h2 hy
    | nil =>
      rw [List.nil_append] at hws
      injection hws with h1 h2
      subst h1 h2
      cases ht
      exact htg y hy

/-- C226. Without a constraint the target follows the reference entity as long as this exists and, if the request is not
continuous, the speed is not reached; in the first frame in which it is otherwise the request ends, without an error, and one
that is not continuous leaves no target. -/
theorem C226_unconstrained (N : Num K) (dt : K) (hdt : 0 < dt) (r : Relative K) (tr : Transition) (cont : Bool) (s : S (Ent K) K) (hi : Idle s)
    (hp : s.st.planner = true) (hs : Sound s.st) (v : K) (h : s.st.others r.reference = some v)
    (hn : cont = true ∨ ¬ Near (r.of v) s.st.motion.speed) :
    ∃ s', requestRelative N r tr .none cont s = .ok s' ∧
      ∀ ws : List (World K), (∀ ws' w, ws' ++ [w] <+: ws → ∀ u, frames dt (ws' ++ [w]) s' = .ok u →
          ∃ x, w.others r.reference = some x ∧ (cont = true ∨ ¬ Near (r.of x) u.st.motion.speed)) →
        ∃ t, frames dt ws s' = .ok t ∧ ¬ Idle t ∧
          (∀ ws' w x, ws = ws' ++ [w] → w.others r.reference = some x → t.st.target = some (r.of x)) ∧
          ∀ w, ∃ t', frame dt w t = .ok t' ∧
            ((¬ ∃ x, w.others r.reference = some x ∧ (cont = true ∨ ¬ Near (r.of x) t'.st.motion.speed)) →
              Idle t' ∧ (cont = false → t'.st.target = none)) := by
  refine ⟨{ s with jobs := s.jobs ++ [⟨relativeBody r cont, plainCleanup cont, .linearVelocity, true, .post, true, 0⟩] }, ?_,
    fun ws hall => ?_⟩
  · unfold requestRelative askingRelative
    rw [absolute_of h]
    dsimp only
    rw [asking_ok hp, accepted hn]
    simp only [Bool.false_eq_true, if_false]
    unfold plainRelative askingRelative
    rw [absolute_of h]
    dsimp only
    rw [asking_ok hp, accepted hn]
    simp only [Bool.false_eq_true, if_false]
    rw [append_free _ _ _ s (fun j hj => .inr (hi j hj))]
  · obtain ⟨t, ht, hts, htv, hlast⟩ := plain_frames dt hdt r cont ws
      { s with jobs := s.jobs ++ [⟨relativeBody r cont, plainCleanup cont, .linearVelocity, true, .post, true, 0⟩] } ⟨s.jobs, 0, hi, rfl⟩ (sound_valid hs).1 hall
    refine ⟨t, ht, ?_, hlast, fun w => ?_⟩
    · obtain ⟨pre, d, _, hj⟩ := hts
      intro hidle
      exact absurd (hidle _ (by rw [hj]; exact List.mem_append_right _ (List.mem_singleton.2 rfl))) (by simp)
    · obtain ⟨t', hf, _, _, hoff⟩ := plain_frame dt hdt r cont t hts htv w
      exact ⟨t', hf, hoff⟩

/-- Behind a lead vehicle with 12 m/s that disappears in the second frame. -/
example : ((requestRelative ratNum ⟨"lead", .delta, 3⟩ .auto .none false follower).andThen (frames 1 [road 20])).speed = some 3 ∧
    ((requestRelative ratNum ⟨"lead", .delta, 3⟩ .auto .none false follower).andThen (frames 1 [road 20, ⟨20, fun _ => none⟩])).speed.isSome = true := by
  decide +kernel

/-- 5 m/s more than now. -/
example : (requestRelative ratNum ⟨car.st.name, .delta, 5⟩ .linear (.time 5) false { car with st := { car.st with others := fun _ => none } }).speed = some 0 ∧
    ((requestRelative ratNum ⟨car.st.name, .delta, 5⟩ .linear (.time 5) false { car with st := { car.st with others := fun _ => none } }).andThen (frames 1 [⟨20, fun _ => none⟩])).speed = some 1 := by
  decide +kernel

end Verif.Pace
