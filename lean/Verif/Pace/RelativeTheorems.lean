import Verif.Pace.LinearTheorems
/-
C226: changes of speed relative to another entity.
-/
namespace Verif.Pace
open Verif.Job
set_option linter.unusedSectionVars false
variable {K : Type} [Field K] [LinearOrder K] [IsStrictOrderedRing K]

/-- The speed a relative target stands for, given the speed of the reference entity. -/
def Relative.of (r : Relative K) (w : K) : K :=
  match r.kind with
  | .delta => w + r.value
  | .factor => w * r.value

theorem absolute_of {r : Relative K} {e : Ent K} {w : K} (h : e.others r.reference = some w) : absolute r e = some (r.of w) := by
  obtain ⟨ref, k, val⟩ := r
  cases k <;> simp_all [absolute, Relative.of]

theorem absolute_none {r : Relative K} {e : Ent K} (h : e.others r.reference = none) (hn : e.name ≠ r.reference) : absolute r e = none := by
  unfold absolute
  rw [h]
  simp [hn]

/-- C226. A request relative to an entity that does not exist is refused, whatever the transition and the constraint. -/
theorem C226_missing (N : Num K) (r : Relative K) (tr : Transition) (c : Constraint K) (cont : Bool) (s : S (Ent K) K)
    (h : s.st.others r.reference = none) (hn : s.st.name ≠ r.reference) : requestRelative N r tr c cont s = .throws := by
  unfold requestRelative askingRelative
  rw [absolute_none h hn]

/-- C226. A continuous request with a time is refused. -/
theorem C226_continuous_time (N : Num K) (r : Relative K) (tr : Transition) (T w : K) (s : S (Ent K) K)
    (h : s.st.others r.reference = some w) (hp : s.st.planner = true) : requestRelative N r tr (.time T) true s = .throws := by
  unfold requestRelative askingRelative
  rw [absolute_of h]
  dsimp only
  rw [asking_ok hp]
  simp

/-- C226. With a time, a request is one for the speed which the target stands for at the time of the request. -/
theorem C226_time (N : Num K) (r : Relative K) (tr : Transition) (htr : tr ≠ .step) (T w : K) (hT : N.eps < |T|) (s : S (Ent K) K)
    (h : s.st.others r.reference = some w) : requestRelative N r tr (.time T) false s = request N (r.of w) tr (.time T) false s := by
  unfold requestRelative askingRelative request
  rw [absolute_of h]
  dsimp only
  by_cases hp : s.st.planner = true
  · rw [asking_ok hp, asking_ok hp]
    cases hr : Speed.isTargetSpeedReached (r.of w) s.st.motion.speed with
    | true => rfl
    | false =>
      simp only [Bool.false_and, Bool.false_eq_true, if_false]
      unfold relativeTime askingRelative
      rw [absolute_of h]
      dsimp only
      rw [asking_ok hp, hr]
      simp only [Bool.false_eq_true, if_false]
      rw [if_neg (by rintro ⟨h, _⟩; exact absurd h (not_le.mpr hT))]
      cases tr with
      | step => exact absurd rfl htr
      | linear => rfl
      | auto => rfl
  · unfold asking
    rw [if_neg hp, if_neg hp]

/-- C226. In a step, or in no time, the entity gets the speed the target stands for. -/
theorem C226_step (N : Num K) (r : Relative K) (tr : Transition) (c : Constraint K) (x : K)
    (hc : (c = .acceleration x ∧ tr = .step) ∨ (c = .time x ∧ (tr = .step ∨ |x| ≤ N.eps))) (s : S (Ent K) K) (hi : Idle s) (w : K)
    (h : s.st.others r.reference = some w) (hp : s.st.planner = true) (hn : ¬ Near (r.of w) s.st.motion.speed) :
    ∃ s', requestRelative N r tr c false s = .ok s' ∧ s'.st.motion.speed = r.of w := by
  have hr := (near_false _ _).mpr hn
  have hj : ∃ s', jump r false s = .ok s' ∧ s'.st.motion.speed = r.of w := by
    unfold jump plainRelative askingRelative
    rw [absolute_of h]
    dsimp only
    rw [asking_ok hp, hr]
    simp only [Bool.false_and, Bool.false_eq_true, if_false]
    rw [append_free _ _ _ s (fun j hj => .inr (hi j hj))]
    simp only [Res.bind]
    rw [absolute_of h]
    exact ⟨_, rfl, rfl⟩
  have e : requestRelative N r tr c false s = jump r false s := by
    unfold requestRelative askingRelative
    rw [absolute_of h]
    dsimp only
    rw [asking_ok hp, hr]
    simp only [Bool.false_and, Bool.false_eq_true, if_false]
    rcases hc with ⟨rfl, rfl⟩ | ⟨rfl, hc⟩
    · unfold relativeAcceleration askingRelative
      rw [absolute_of h]
      dsimp only
      rw [asking_ok hp, hr]
      simp
    · dsimp only
      unfold relativeTime askingRelative
      rw [absolute_of h]
      dsimp only
      rw [asking_ok hp, hr]
      simp only [Bool.false_eq_true, if_false]
      rcases hc with rfl | hc
      · simp
      · cases tr with
        | step => simp
        | linear => rw [if_pos ⟨hc, by simp⟩]
        | auto => rw [if_pos ⟨hc, by simp⟩]
  rw [e]
  exact hj

/-- A car beside a lead vehicle with 12 m/s. -/
def follower : S (Ent Rat) Rat := { car with st := { car.st with others := (road 20).others } }

example : (requestRelative ratNum ⟨"lead", .delta, 3⟩ .step (.time 1) false follower).speed = some 15 ∧
    (requestRelative ratNum ⟨"lead", .factor, 2⟩ .step (.acceleration 1) false follower).speed = some 24 ∧
    ((requestRelative ratNum ⟨"lead", .delta, 3⟩ .linear (.time 5) false follower).andThen (frames 1 [road 20])).speed = some 3 := by
  decide +kernel

/-! ### While the request is under way -/

/-- The jobs of a relative request with an acceleration. -/
def RelShape (r : Relative K) (a : K) (cont : Bool) (s : S (Ent K) K) : Prop :=
  ∃ pre d1 d2, (∀ j ∈ pre, j.active = false) ∧ s.jobs = pre ++
    [⟨limitBody r a, reset, .linearAcceleration, true, .post, true, d1⟩,
      ⟨relativeBody r cont, plainCleanup cont, .linearVelocity, true, .post, true, d2⟩]

theorem relative_start (N : Num K) (r : Relative K) (tr : Transition) (htr : tr ≠ .step) (a : K) (cont : Bool) (s : S (Ent K) K) (hi : Idle s)
    (w : K) (h : s.st.others r.reference = some w) (hp : s.st.planner = true) (hn : cont = true ∨ ¬ Near (r.of w) s.st.motion.speed) :
    ∃ s', requestRelative N r tr (.acceleration a) cont s = .ok s' ∧
      s'.st = (if tr = .linear then setAcceleration a s else s).st ∧ RelShape r a cont s' := by
  have hacc := accepted hn
  have hauto : ∀ s0 : S (Ent K) K, Idle s0 → s0.st.others r.reference = some w → s0.st.planner = true →
      s0.st.motion.speed = s.st.motion.speed → ∃ s', autoRelative r a cont s0 = .ok s' ∧ s'.st = s0.st ∧ RelShape r a cont s' := by
    intro s0 hi0 h0 hp0 hm0
    unfold autoRelative askingRelative
    rw [absolute_of h0]
    dsimp only
    rw [asking_ok hp0, hm0, hacc]
    simp only [Bool.false_eq_true, if_false]
    rw [append_free _ _ _ s0 (fun j hj => .inr (hi0 j hj))]
    unfold plainRelative askingRelative
    dsimp only
    rw [absolute_of h0]
    dsimp only
    rw [asking_ok hp0, hm0, hacc]
    simp only [Bool.false_eq_true, if_false]
    rw [append_free]
    · exact ⟨_, rfl, rfl, s0.jobs, 0, 0, hi0, by simp⟩
    · intro j hj
      simp only [List.mem_append, List.mem_cons, List.not_mem_nil, or_false] at hj
      rcases hj with hj | rfl
      · exact .inr (hi0 j hj)
      · exact .inl rfl
  have e : requestRelative N r tr (.acceleration a) cont s = autoRelative r a cont (if tr = .linear then setAcceleration a s else s) := by
    unfold requestRelative askingRelative
    rw [absolute_of h]
    dsimp only
    rw [asking_ok hp, hacc]
    simp only [Bool.false_eq_true, if_false]
    unfold relativeAcceleration askingRelative
    rw [absolute_of h]
    dsimp only
    rw [asking_ok hp, hacc]
    cases tr <;> simp_all
  rw [e]
  exact hauto _ (by split <;> exact hi) (by split <;> exact h) (by split <;> exact hp) (by split <;> rfl)

/-- A frame of a relative request with an acceleration. -/
theorem follows_frame (dt : K) (r : Relative K) (a : K) (cont : Bool) (s : S (Ent K) K) (hsh : RelShape r a cont s) (w : World K) (u : K)
    (hw : w.others r.reference = some u) (m : Speed.State K)
    (hm : Speed.step dt s.st.constraints (s.st.target.getD w.lane) s.st.motion = some m) (hfar : 1 / 10 < |r.of u - m.speed|) :
    ∃ s', frame dt w s = .ok s' ∧ s'.st.motion = m ∧ s'.st.target = some (r.of u) ∧ RelShape r a cont s' ∧
      (m.speed < r.of u → s'.st.constraints = { s.st.constraints with maxAcceleration := |a| }) ∧
      (r.of u < m.speed → s'.st.constraints = { s.st.constraints with maxDeceleration := |a| }) := by
  obtain ⟨pre, d1, d2, hpre, hj⟩ := hsh
  have hskip : ∀ j ∈ s.jobs, j.active = false ∨ j.event ≠ Event.pre := by
    intro j hjm
    rw [hj] at hjm
    simp only [List.mem_append, List.mem_cons, List.not_mem_nil, or_false] at hjm
    rcases hjm with h | rfl | rfl
    · exact .inl (hpre j h)
    · exact .inr (by simp)
    · exact .inr (by simp)
  unfold frame
  rw [update_skip dt .pre { s with st := { s.st with others := w.others } } hskip]
  simp only [Bool.false_eq_true, if_false, hm]
  unfold update
  simp only [hj]
  rw [updateLoop_append dt .post _ pre 0 _ hpre]
  generalize hE : ({ s.st with others := w.others, motion := m, planner := true } : Ent K) = E
  have hEm : E.motion = m := by rw [← hE]
  have hEo : E.others r.reference = some u := by rw [← hE]; exact hw
  have hEc : E.constraints = s.st.constraints := by rw [← hE]
  have hfar' : ¬ |r.of u - E.motion.speed| ≤ 1 / 10 := by rw [hEm]; exact not_le.mpr hfar
  have hnr : Speed.isTargetSpeedReached (r.of u) E.motion.speed = false := by
    unfold Speed.isTargetSpeedReached
    rw [decide_eq_false_iff_not, hEm]
    intro hle
    have : (1 / 100 : K) ≤ 1 / 10 := by norm_num
    exact absurd (hle.trans this) (not_le.mpr hfar)
  have key : ∀ d : K, ∃ c' : Speed.Constraints K, limitBody r a d E = ({ E with constraints := c' }, .returns false) ∧
      (m.speed < r.of u → c' = { s.st.constraints with maxAcceleration := |a| }) ∧
      (r.of u < m.speed → c' = { s.st.constraints with maxDeceleration := |a| }) := by
    intro d
    unfold limitBody
    rw [absolute_of hEo]
    dsimp only
    rw [if_neg hfar']
    rcases lt_or_ge (1 / 10) (r.of u - E.motion.speed) with h1 | h1
    · rw [if_pos h1]
      refine ⟨_, rfl, fun _ => by rw [hEc], fun h => ?_⟩
      rw [hEm] at h1
      have : (0 : K) < 1 / 10 := by norm_num
      linarith
    · rw [if_neg (not_lt.mpr h1)]
      have h2 : r.of u - E.motion.speed < -(1 / 10) := by
        by_contra hc
        exact hfar' (abs_le.mpr ⟨not_lt.mp hc, h1⟩)
      rw [if_pos h2]
      refine ⟨_, rfl, fun h => ?_, fun _ => by rw [hEc]⟩
      rw [hEm] at h2
      have : (0 : K) < 1 / 10 := by norm_num
      linarith
  obtain ⟨c', hl, hl1, hl2⟩ := key d1
  have hv : relativeBody r cont d2 { E with constraints := c' } = ({ E with constraints := c', target := some (r.of u) }, .returns false) := by
    unfold relativeBody
    have h1 : ({ E with constraints := c' } : Ent K).others r.reference = some u := hEo
    rw [h1]
    dsimp only
    rw [absolute_of h1]
    dsimp only
    rw [hnr]
    simp
  have hloop : updateLoop dt .post (0 + pre.length) E
      [⟨limitBody r a, reset, .linearAcceleration, true, .post, true, d1⟩,
        ⟨relativeBody r cont, plainCleanup cont, .linearVelocity, true, .post, true, d2⟩] =
      ({ E with constraints := c', target := some (r.of u) },
        [⟨limitBody r a, reset, .linearAcceleration, true, .post, true, d1 + dt⟩,
          ⟨relativeBody r cont, plainCleanup cont, .linearVelocity, true, .post, true, d2 + dt⟩],
        [.ran (0 + pre.length), .ran (0 + pre.length + 1)], false) := by
    simp [updateLoop, hl, hv]
  rw [hloop]
  simp only [Bool.false_eq_true, if_false]
  exact ⟨_, rfl, hEm, rfl, ⟨pre, d1 + dt, d2 + dt, hpre, rfl⟩, hl1, hl2⟩

theorem ok_near (dt : K) (r : Relative K) (a : K) (cont : Bool) (s : S (Ent K) K) (hsh : RelShape r a cont s) (w : World K) (u : K)
    (hw : w.others r.reference = some u) (m : Speed.State K)
    (hm : Speed.step dt s.st.constraints (s.st.target.getD w.lane) s.st.motion = some m) (hnear : |r.of u - m.speed| ≤ 1 / 10) :
    ∃ s', frame dt w s = .ok s' ∧ s'.st.motion.speed = m.speed := by
  obtain ⟨pre, d1, d2, hpre, hj⟩ := hsh
  have hskip : ∀ j ∈ s.jobs, j.active = false ∨ j.event ≠ Event.pre := by
    intro j hjm
    rw [hj] at hjm
    simp only [List.mem_append, List.mem_cons, List.not_mem_nil, or_false] at hjm
    rcases hjm with h | rfl | rfl
    · exact .inl (hpre j h)
    · exact .inr (by simp)
    · exact .inr (by simp)
  unfold frame
  rw [update_skip dt .pre { s with st := { s.st with others := w.others } } hskip]
  simp only [Bool.false_eq_true, if_false, hm]
  unfold update
  simp only [hj]
  rw [updateLoop_append dt .post _ pre 0 _ hpre]
  generalize hE : ({ s.st with others := w.others, motion := m, planner := true } : Ent K) = E
  have hEm : E.motion = m := by rw [← hE]
  have hEo : E.others r.reference = some u := by rw [← hE]; exact hw
  have hl : limitBody r a d1 E = (E, .returns true) := by
    unfold limitBody
    rw [absolute_of hEo]
    dsimp only
    rw [if_pos (by rw [hEm]; exact hnear)]
  have hv : ∃ tg b, relativeBody r cont d2 (reset E) = ({ reset E with target := tg }, .returns b) := by
    unfold relativeBody
    have h1 : (reset E).others r.reference = some u := hEo
    rw [h1]
    dsimp only
    rw [absolute_of h1]
    dsimp only
    split
    · exact ⟨(reset E).target, true, rfl⟩
    · exact ⟨_, false, rfl⟩
  obtain ⟨tg, b, hv⟩ := hv
  have hrm : (reset E).motion = m := hEm
  cases b <;> cases cont <;> simp [updateLoop, hl, hv, plainCleanup, hrm]

theorem follows_frames (dt : K) (hdt : 0 < dt) (r : Relative K) (a : K) (cont : Bool) :
    ∀ (ws : List (World K)) (s : S (Ent K) K), RelShape r a cont s → Speed.Valid s.st.constraints →
      (∀ ws' w, ws' ++ [w] <+: ws → ∃ x, w.others r.reference = some x ∧
        ∀ u, frames dt (ws' ++ [w]) s = .ok u → 1 / 10 < |r.of x - u.st.motion.speed|) →
      ∃ t, frames dt ws s = .ok t ∧ ∀ ws' w x, ws = ws' ++ [w] → w.others r.reference = some x →
        t.st.target = some (r.of x) ∧ (t.st.motion.speed < r.of x → t.st.constraints.maxAcceleration = |a|) ∧
        (r.of x < t.st.motion.speed → t.st.constraints.maxDeceleration = |a|) := by
  intro ws
  induction ws with
  | nil => exact fun s _ _ _ => ⟨s, rfl, fun ws' w x h => absurd h (by simp)⟩
  | cons w ws ih =>
    intro s hsh hval hall
    have hm := Speed.step_eq hdt hval (s.st.target.getD w.lane) s.st.motion
    obtain ⟨x, hx, hfar⟩ := hall [] w (by simp)
    have hfar' : 1 / 10 < |r.of x - Speed.after dt s.st.constraints (min (s.st.target.getD w.lane) s.st.constraints.maxSpeed) s.st.motion| := by
      by_contra hc
      obtain ⟨s1, hf, hmo⟩ : ∃ s1, frame dt w s = .ok s1 ∧ s1.st.motion.speed =
          Speed.after dt s.st.constraints (min (s.st.target.getD w.lane) s.st.constraints.maxSpeed) s.st.motion :=
        ok_near dt r a cont s hsh w x hx _ hm (not_lt.mp hc)
      have := hfar s1 (by rw [List.nil_append, frames_cons hf]; rfl)
      rw [hmo] at this
      exact hc this
    obtain ⟨s1, hf, hmo, htg, hsh1, hup, hdown⟩ := follows_frame dt r a cont s hsh w x hx _ hm hfar'
    have hval1 : Speed.Valid s1.st.constraints := by
      rcases lt_trichotomy (Speed.after dt s.st.constraints (min (s.st.target.getD w.lane) s.st.constraints.maxSpeed) s.st.motion) (r.of x) with h | h | h
      · rw [hup h]
        exact ⟨abs_nonneg a, hval.accRate, hval.dec, hval.decRate, hval.speed⟩
      · rw [h, sub_self, abs_zero] at hfar'
        exact absurd hfar' (by norm_num)
      · rw [hdown h]
        exact ⟨hval.acc, hval.accRate, abs_nonneg a, hval.decRate, hval.speed⟩
    rw [frames_cons hf]
    obtain ⟨t, ht, hlast⟩ := ih s1 hsh1 hval1 (fun ws' w' hp => by
      obtain ⟨y, hy, hy'⟩ := hall (w :: ws') w' (by simpa using hp)
      exact ⟨y, hy, fun u hu => hy' u (by rw [List.cons_append, frames_cons hf]; exact hu)⟩)
    refine ⟨t, ht, fun ws' w' y hws hy => ?_⟩
    cases ws' with
    | cons b bs =>
      rw [List.cons_append] at hws
      injection hws with _ h2
      exact hlast bs w' y h2 hy
    | nil =>
      rw [List.nil_append] at hws
      injection hws with h1 h2
      subst h1 h2
      cases ht
      rw [hx] at hy
      cases hy
      refine ⟨htg, fun h => ?_, fun h => ?_⟩
      · rw [hmo] at h
        rw [hup h]
      · rw [hmo] at h
        rw [hdown h]

/-- C226. A request with an acceleration follows the reference entity. At the end of every frame the target is what the relative target stands
for with the present speed of the reference entity, and the limit in the direction of the change is the acceleration asked for.
This is said as long as the reference entity exists and the speed differs from the target by more than 0.1 m/s. -/
theorem C226_follows_partial (N : Num K) (dt : K) (hdt : 0 < dt) (r : Relative K) (tr : Transition) (htr : tr ≠ .step) (a : K) (cont : Bool)
    (s : S (Ent K) K) (hi : Idle s) (hp : s.st.planner = true) (hs : Sound s.st) (v : K) (h : s.st.others r.reference = some v)
    (hn : cont = true ∨ ¬ Near (r.of v) s.st.motion.speed) :
    ∃ s', requestRelative N r tr (.acceleration a) cont s = .ok s' ∧
      ∀ (ws : List (World K)) (w : World K) (x : K), w.others r.reference = some x →
        (∀ ws' w', ws' ++ [w'] <+: ws ++ [w] → ∃ y, w'.others r.reference = some y ∧
          ∀ u, frames dt (ws' ++ [w']) s' = .ok u → 1 / 10 < |r.of y - u.st.motion.speed|) →
        ∃ t, frames dt (ws ++ [w]) s' = .ok t ∧ t.st.target = some (r.of x) ∧
          (t.st.motion.speed < r.of x → t.st.constraints.maxAcceleration = |a|) ∧
          (r.of x < t.st.motion.speed → t.st.constraints.maxDeceleration = |a|) := by
  obtain ⟨s', h1, h2, h3⟩ := relative_start N r tr htr a cont s hi v h hp hn
  refine ⟨s', h1, fun ws w x hx hall => ?_⟩
  have hval : Speed.Valid s'.st.constraints := by
    have : s'.st.constraints = s.st.constraints := by rw [h2]; split <;> rfl
    rw [this]
    exact (sound_valid hs).1
  obtain ⟨t, ht, hlast⟩ := follows_frames dt hdt r a cont (ws ++ [w]) s' h3 hval hall
  exact ⟨t, ht, hlast ws w x rfl hx⟩

/-- Behind a lead vehicle with 12 m/s, asked for 3 m/s more with 2 m/s²; the speed is 3 m/s after the first frame, in which there is no limit
yet, and then 5 and 7 m/s. -/
example : ((requestRelative ratNum ⟨"lead", .delta, 3⟩ .auto (.acceleration 2) true follower).andThen (frames 1 [road 20])).speed = some 3 ∧
    ((requestRelative ratNum ⟨"lead", .delta, 3⟩ .auto (.acceleration 2) true follower).andThen (frames 1 [road 20])).limit = some 2 ∧
    ((requestRelative ratNum ⟨"lead", .delta, 3⟩ .auto (.acceleration 2) true follower).andThen (frames 1 [road 20, road 20])).speed = some 5 ∧
    ((requestRelative ratNum ⟨"lead", .delta, 3⟩ .auto (.acceleration 2) true follower).andThen (frames 1 [road 20, road 20, road 20])).speed = some 7 := by
  decide +kernel

/-- C226 is false in the first frame: the limit is only set at its end. The car above speeds up by 3 m/s² where 2 m/s² have been asked for. -/
theorem C226_first_frame_violated :
    ((requestRelative ratNum ⟨"lead", .delta, 3⟩ .auto (.acceleration 2) true follower).andThen (frames 1 [road 20])).speed = some 3 ∧
    follower.st.motion.speed = 0 := by
  decide +kernel

/-- C226 is false when the reference entity disappears: a request with an acceleration then makes the next frame fail, and with it the
whole simulation. -/
theorem C226_disappears_violated (N : Num K) (r : Relative K) (tr : Transition) (htr : tr ≠ .step) (a : K) (cont : Bool) (s : S (Ent K) K)
    (hi : Idle s) (w : K) (h : s.st.others r.reference = some w) (hname : s.st.name ≠ r.reference) (hp : s.st.planner = true)
    (hn : cont = true ∨ ¬ Near (r.of w) s.st.motion.speed) (dt : K) (hdt : 0 < dt) (hs : Sound s.st) (next : World K)
    (hgone : next.others r.reference = none) :
    ∃ s', requestRelative N r tr (.acceleration a) cont s = .ok s' ∧ frame dt next s' = .throws := by
  obtain ⟨s', h1, h2, pre, d1, d2, hpre, hj⟩ := relative_start N r tr htr a cont s hi w h hp hn
  refine ⟨s', h1, ?_⟩
  have hskip : ∀ j ∈ s'.jobs, j.active = false ∨ j.event ≠ Event.pre := by
    intro j hjm
    rw [hj] at hjm
    simp only [List.mem_append, List.mem_cons, List.not_mem_nil, or_false] at hjm
    rcases hjm with h | rfl | rfl
    · exact .inl (hpre j h)
    · exact .inr (by simp)
    · exact .inr (by simp)
  have hcn : s'.st.constraints = s.st.constraints ∧ s'.st.name = s.st.name := by
    rw [h2]
    split <;> exact ⟨rfl, rfl⟩
  have hm := Speed.step_eq hdt (c := s'.st.constraints) (by rw [hcn.1]; exact (sound_valid hs).1) (s'.st.target.getD next.lane) s'.st.motion
  unfold frame
  rw [update_skip dt .pre { s' with st := { s'.st with others := next.others } } hskip]
  simp only [Bool.false_eq_true, if_false, hm]
  unfold update
  simp only [hj]
  rw [updateLoop_append dt .post _ pre 0 _ hpre]
  generalize hE : ({ s'.st with others := next.others, motion := _, planner := true } : Ent K) = E
  have hl : limitBody r a d1 E = (E, .throws) := by
    unfold limitBody
    rw [absolute_none (by rw [← hE]; exact hgone) (by rw [← hE]; show s'.st.name ≠ _; rw [hcn.2]; exact hname)]
  simp [updateLoop, hl]

/-- The same without a constraint goes on. -/
example : ((requestRelative ratNum ⟨"lead", .delta, 3⟩ .auto .none true follower).andThen (frames 1 [⟨20, fun _ => none⟩])).speed = some 3 ∧
    ((requestRelative ratNum ⟨"lead", .delta, 3⟩ .auto (.acceleration 1) true follower).andThen (frames 1 [⟨20, fun _ => none⟩])).speed = none := by
  decide +kernel

end Verif.Pace
