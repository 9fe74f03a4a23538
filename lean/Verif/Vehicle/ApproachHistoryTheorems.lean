import Verif.Vehicle.ApproachTheorems
/-
C95 and C96 over whole histories, and where the limits are not kept.
-/
namespace Verif.Vehicle
open Classical

theorem fixed_const (p : Params) : 0 < p.fixed.steerConst ∧ 0 < p.fixed.driveConst := by
  simp only [Params.fixed]
  constructor <;> exact lt_of_lt_of_le (by norm_num) (le_max_right _ _)

/-- C96, for every history: the steering angle of a delayed model stays within its limit, scaled; a constant bias of the measured angle is
kept until the first command. -/
theorem C96_steer_history (kind : Kind) (p : Params) (dt : ℝ) (map : AccMap) (m m' : Model) (l : List (Gear × Input))
    (hk : kind = .delayVel ∨ kind = .delayAcc ∨ kind = .delayAccGeared ∨ kind = .delayMapAccGeared ∨ kind = .delayAccGearedNoGuard)
    (hd : 0 ≤ dt) (hdt : dt ≤ max p.steerConst 0.03) (hl : 0 ≤ p.steerRateLim) (hs0 : 0 ≤ p.steerLim) (hb : 0 ≤ p.steerBand)
    (hm : Model.make kind p dt map = some m) (h : m.run dt l = some m') :
    (kind = .delayVel ∨ kind = .delayMapAccGeared → |m'.getSteer| ≤ p.steerLim) ∧
    (kind = .delayAcc ∨ kind = .delayAccGeared → |m'.getSteer| ≤ p.steerLim * max p.steerScale 0) ∧
    (kind = .delayAccGearedNoGuard → |m'.getSteer| ≤ max (p.steerLim * max p.steerScale 0) |p.steerBias|) := by
  obtain ⟨hs, hkind, _, hp⟩ := make_state hm
  have hdl : kind.delayed = true := by rcases hk with rfl | rfl | rfl | rfl | rfl <;> rfl
  rw [hdl] at hp
  simp only [if_true] at hp
  have inv : ∀ B : ℝ, (kind = .delayVel → B = p.steerLim) → (kind = .delayMapAccGeared → p.steerLim ≤ B) →
      (kind = .delayAcc ∨ kind = .delayAccGeared ∨ kind = .delayAccGearedNoGuard → p.steerLim * max p.steerScale 0 ≤ B) →
      |m.getSteer| ≤ B → |m'.getSteer| ≤ B := by
    intro B hB1 hB2 hB3 h0
    have := run_invariant (dt := dt) (P := fun m => m.kind = kind ∧ m.p = p.fixed ∧ |m.getSteer| ≤ B) ?_ l m m' ⟨hkind, hp, h0⟩ h
    · exact this.2.2
    · rintro m m' g u ⟨h1, h2, h3⟩ hst
      have hkp := step_kept hst
      refine ⟨hkp.kind.trans h1, hkp.p.trans h2, ?_⟩
      have hbt := C96_steer m m' g u dt
        (by
          rw [h1]
          rcases hk with rfl | rfl | rfl | rfl | rfl
          · left; exact ⟨rfl, by rw [h2]; exact le_trans h3 (le_of_eq (hB1 rfl))⟩
          all_goals simp)
        hd (by rw [h2]; exact (fixed_const p).1) (by rw [h2]; exact hdt) (by rw [h2]; exact hl) (by rw [h2]; exact hs0)
        (by rw [h2]; exact hb) hst
      refine between_abs hbt h3 ?_
      unfold steerGoal
      rw [h1, h2]
      have hsc : 0 ≤ p.fixed.steerScale := le_max_right _ _
      rcases hk with rfl | rfl | rfl | rfl | rfl
      · exact le_trans (limited_abs hs0) (le_of_eq (hB1 rfl).symm)
      · exact le_trans (scaled_abs hs0 hsc) (hB3 (by simp))
      · exact le_trans (scaled_abs hs0 hsc) (hB3 (by simp))
      · exact le_trans (limited_abs hs0) (hB2 rfl)
      · exact le_trans (scaled_abs hs0 hsc) (hB3 (by simp))
  have hnn : 0 ≤ p.steerLim * max p.steerScale 0 := mul_nonneg hs0 (le_max_right _ _)
  refine ⟨fun hc => inv _ (fun _ => rfl) (fun _ => le_refl _) ?_ ?_, fun hc => inv _ ?_ ?_ (fun _ => le_refl _) ?_,
    fun hc => inv _ ?_ ?_ (fun _ => le_max_left _ _) ?_⟩
  · rcases hc with rfl | rfl <;> simp
  · have : m.getSteer = 0 := by unfold Model.getSteer; rw [hkind, hs]; rcases hc with rfl | rfl <;> rfl
    rw [this, abs_zero]; exact hs0
  · rcases hc with rfl | rfl <;> simp
  · rcases hc with rfl | rfl <;> simp
  · have : m.getSteer = 0 := by unfold Model.getSteer; rw [hkind, hs]; rcases hc with rfl | rfl <;> rfl
    rw [this, abs_zero]; exact hnn
  · subst hc; simp
  · subst hc; simp
  · have : m.getSteer = p.steerBias := by unfold Model.getSteer; rw [hkind, hs, hc, hp]; simp [Params.fixed]
    rw [this]; exact le_max_right _ _

/-- C96, for every history: the acceleration that DELAY_STEER_ACC reports stays within its limit, if it is not scaled up. -/
theorem C96_acc_history_partial (p : Params) (dt : ℝ) (map : AccMap) (m m' : Model) (l : List (Gear × Input))
    (hd : 0 ≤ dt) (hdt : dt ≤ max p.driveConst 0.03) (hs : p.accScale ≤ 1) (hl : 0 ≤ p.vxRateLim)
    (hm : Model.make .delayAcc p dt map = some m) (h : m.run dt l = some m') : |m'.getAx| ≤ p.vxRateLim := by
  obtain ⟨hst, hkind, _, hp⟩ := make_state hm
  simp only [Kind.delayed, if_true] at hp
  have := run_invariant (dt := dt) (P := fun m => m.kind = .delayAcc ∧ m.p = p.fixed ∧ |m.getAx| ≤ p.vxRateLim) ?_ l m m' ⟨hkind, hp, ?_⟩ h
  · exact this.2.2
  · rintro m m' g u ⟨h1, h2, h3⟩ hst
    have hkp := step_kept hst
    refine ⟨hkp.kind.trans h1, hkp.p.trans h2, ?_⟩
    have hsc : 0 ≤ p.fixed.accScale := le_max_right _ _
    have hsc1 : p.fixed.accScale ≤ 1 := max_le hs (by norm_num)
    have hb := C96_acc_partial m m' g u dt h1 (by rw [h2]; exact h3) hd (by rw [h2]; exact (fixed_const p).2) (by rw [h2]; exact hdt)
      (by rw [h2]; exact hsc) (by rw [h2]; exact hsc1) (by rw [h2]; exact hl) hst
    rw [h2] at hb
    refine between_abs hb h3 (le_trans (scaled_abs hl hsc) ?_)
    change p.vxRateLim * _ ≤ _
    nlinarith
  · have : m.getAx = 0 := by unfold Model.getAx; rw [hkind, hst]
    rw [this, abs_zero]; exact hl

/-- C95, for every history: the velocity of DELAY_STEER_VEL stays within its limit, if the step is not longer than the time constant. -/
theorem C95_history_vel_partial (p : Params) (dt : ℝ) (map : AccMap) (m m' : Model) (l : List (Gear × Input))
    (hd : 0 ≤ dt) (hdt : dt ≤ max p.driveConst 0.03) (hl : 0 ≤ p.vxRateLim) (hl' : 0 ≤ p.vxLim)
    (hm : Model.make .delayVel p dt map = some m) (h : m.run dt l = some m') : |m'.getVx| ≤ p.vxLim := by
  obtain ⟨hst, hkind, _, hp⟩ := make_state hm
  simp only [Kind.delayed, if_true] at hp
  have := run_invariant (dt := dt) (P := fun m => m.kind = .delayVel ∧ m.p = p.fixed ∧ |m.getVx| ≤ p.vxLim) ?_ l m m' ⟨hkind, hp, ?_⟩ h
  · exact this.2.2
  · rintro m m' g u ⟨h1, h2, h3⟩ hst
    have hkp := step_kept hst
    refine ⟨hkp.kind.trans h1, hkp.p.trans h2, ?_⟩
    have hb := C96_speed_partial m m' g u dt h1 (by rw [h2]; exact h3) hd (by rw [h2]; exact (fixed_const p).2) (by rw [h2]; exact hdt)
      (by rw [h2]; exact hl) (by rw [h2]; exact hl') hst
    rw [h2] at hb
    exact between_abs hb h3 (limited_abs hl')
  · have : m.getVx = 0 := by unfold Model.getVx; rw [hkind, hst]
    rw [this, abs_zero]; exact hl'

/-- Parameters of the examples: velocity limit 50, steering limit 1, acceleration limit 7, steering rate limit 5, wheelbase 3, no delays,
time constants 1, scaling factors 1. -/
def sample : Params := ⟨50, 1, 7, 5, 3, 0, 1, 0, 1, 0, 0, 1, 1⟩

theorem queueSize_zero {dt : ℝ} (h : 0 < dt) : queueSize 0 dt = some 0 := by
  unfold queueSize
  rw [if_neg (by linarith), if_neg (by rw [zero_div]; norm_num), zero_div]
  norm_num

theorem make_sample (kind : Kind) (p : Params) {dt : ℝ} (hdt : 0 < dt) (h1 : p.driveDelay = 0) (h2 : p.steerDelay = 0) (map : AccMap)
    (hk : kind.delayed = true) : Model.make kind p dt map = some { kind, p := p.fixed, map } := by
  unfold Model.make
  rw [hk, h1, h2, queueSize_zero hdt]
  rfl

/-- The hypotheses of the theorems of C95 and C96 are met by every delayed model but the one with a map, for steps of 1/30 s. -/
example (kind : Kind) (hk : kind.delayed = true) (hm : kind ≠ .delayMapAccGeared) : ∃ m m', Model.make kind sample (1 / 30) ⟨[], [], []⟩ = some m ∧
    m.run (1 / 30) [(.drive 0, { drive := 1 }), (.drive 0, { drive := 2 })] = some m' ∧ (1 / 30 : ℝ) ≤ max sample.steerConst 0.03 := by
  refine ⟨{ kind, p := sample.fixed, map := ⟨[], [], []⟩ }, ?_⟩
  obtain ⟨m1, h1⟩ := step_total { kind, p := sample.fixed, map := ⟨[], [], []⟩ } hm (.drive 0) { drive := 1 } (1 / 30)
  obtain ⟨m2, h2⟩ := step_total m1 (by rw [(step_kept h1).kind]; exact hm) (.drive 0) { drive := 2 } (1 / 30)
  refine ⟨m2, make_sample kind sample (by norm_num) rfl rfl _ hk, ?_, ?_⟩
  · simp only [Model.run, h1, h2, Option.bind_eq_bind, Option.bind_some]
  · rw [show sample.steerConst = 1 from rfl]; exact le_max_of_le_left (by norm_num)

/-- C95 is violated by gears: an ego at 20 m/s that is put into PARK stands still after one step of 0.1 s, although the limit on the
acceleration is 7 m/s², and reports an acceleration of -200 m/s². -/
theorem C95_park_violated : ∃ (m m' : Model), m.kind = .delayAccGeared ∧ |m.getVx| ≤ m.p.vxLim ∧
    m.step .park {} (1 / 10) = some m' ∧ m.p.vxRateLim * (1 / 10) < |m'.getVx - m.getVx| ∧ m'.getAx = -200 := by
  refine ⟨{ kind := .delayAccGeared, p := sample, state := { vx := 20 } }, ?_⟩
  obtain ⟨m', h⟩ := step_total { kind := .delayAccGeared, p := sample, state := { vx := 20 } } (by simp) .park {} (1 / 10)
  refine ⟨m', rfl, ?_, h, ?_⟩
  · simp only [Model.getVx, sample]; norm_num
  · obtain ⟨s, _, e⟩ := step_delayAccGeared rfl h
    have hp := step_kept h
    rw [(withGear_spec _ _ _ _ _).2 (by rintro (⟨h, _⟩ | ⟨h, _⟩) <;> revert h <;> simp [Forward, Backward])] at e
    simp only [Model.getVx, Model.getAx, hp.kind, e, stopState, sample]
    constructor
    · norm_num
    · rw [if_pos trivial, max_eq_left (by norm_num)]; norm_num

/-- C95 is violated by DELAY_STEER_VEL when the step is longer than the time constant: with a limit of 0.1 m/s, a time constant of 0.03 s and
steps of 0.1 s, the first command of 0.1 m/s is answered by a velocity of 1/6 m/s. -/
theorem C95_overshoot_violated : ∃ (p : Params) (m m' : Model), Model.make .delayVel p (1 / 10) ⟨[], [], []⟩ = some m ∧
    m.run (1 / 10) [(.drive 0, { drive := 1 / 10 })] = some m' ∧ p.vxLim = 1 / 10 ∧ m'.getVx = 1 / 6 := by
  let p : Params := ⟨1 / 10, 1, 7, 5, 3, 0, 0, 0, 1, 0, 0, 1, 1⟩
  obtain ⟨m', h⟩ := step_total { kind := .delayVel, p := p.fixed, map := ⟨[], [], []⟩ } (by simp) (.drive 0) { drive := 1 / 10 } (1 / 10)
  refine ⟨p, _, m', make_sample _ _ (by norm_num) rfl rfl _ rfl, ?_, rfl, ?_⟩
  · simp only [Model.run, h, Option.bind_eq_bind, Option.bind_some]
  · have hp := step_kept h
    rw [getVx_eq (by rw [hp.kind]; simp)]
    obtain ⟨⟨k1, k2, k3, k4, h1, h2, h3, h4, e⟩, _⟩ := step_delayVel rfl h
    have hf : ∀ s, (calcDelayVel p.fixed (oldest { kind := .delayVel, p := p.fixed, map := ⟨[], [], []⟩ } { drive := 1 / 10 }) s).vx
        = limited (-(limited s.vx (1 / 10) - 1 / 10) / (3 / 100)) 7 := by
      intro s
      rw [calcDelayVel_vx]
      have e1 : p.fixed.driveConst = 3 / 100 := by
        simp only [Params.fixed, p]; norm_num
      have e2 : p.fixed.vxLim = 1 / 10 := rfl
      have e3 : p.fixed.vxRateLim = 7 := rfl
      rw [e1, e2, e3]
      have e4 : limited (oldest { kind := .delayVel, p := p.fixed, map := ⟨[], [], []⟩ } { drive := 1 / 10 }).drive (1 / 10) = 1 / 10 := by
        simp [oldest, limited]
      rw [e4]
    have q1 : k1.vx = 10 / 3 := by rw [h1, hf]; simp only [limited]; norm_num
    have q2 : k2.vx = 0 := by rw [h2, hf]; simp only [State.add, State.scale, q1, limited]; norm_num
    have q3 : k3.vx = 10 / 3 := by rw [h3, hf]; simp only [State.add, State.scale, q2, limited]; norm_num
    have q4 : k4.vx = 0 := by rw [h4, hf]; simp only [State.add, State.scale, q3, limited]; norm_num
    rw [e]
    simp only [mixed, State.add, State.scale, q1, q2, q3, q4]; norm_num

/-- C96 is violated when `debug_acc_scaling_factor` is greater than one: with an acceleration limit of 1 m/s², a factor of 2 and a constant
command of 1 m/s², the acceleration that is reported grows beyond every bound. -/
theorem C96_windup_violated : ∃ (p : Params) (m : Model), Model.make .delayAcc p 1 ⟨[], [], []⟩ = some m ∧ p.vxRateLim = 1 ∧
    ∀ B : ℝ, ∃ n m', m.run 1 (List.replicate n (.drive 0, { drive := 1 })) = some m' ∧ B < m'.getAx := by
  let p : Params := ⟨50, 1, 1, 5, 3, 0, 1, 0, 1, 0, 0, 2, 1⟩
  refine ⟨p, _, make_sample _ _ (by norm_num) rfl rfl _ rfl, rfl, ?_⟩
  have hf : ∀ m : Model, m.p = p.fixed → m.driveQueue = [] → ∀ s, (calcDelayAcc m.p (oldest m { drive := 1 }) s).acc = 2 - limited s.acc 1 := by
    intro m hm hq s
    have e4 : (oldest m { drive := 1 }).drive = 1 := by simp [oldest, hq]
    rw [calcDelayAcc_acc, hm, e4]
    have e1 : p.fixed.driveConst = 1 := by simp only [Params.fixed, p]; norm_num
    have e2 : p.fixed.vxRateLim = 1 := rfl
    have e3 : p.fixed.accScale = 2 := by simp only [Params.fixed, p]; norm_num
    rw [e1, e2, e3]
    have e5 : limited 1 1 = 1 := limited_self (by simp)
    rw [e5]; ring
  have hstep : ∀ m m' : Model, m.kind = .delayAcc → m.p = p.fixed → m.driveQueue = [] → m.step (.drive 0) { drive := 1 } 1 = some m' →
      (m.state.acc = 0 → 1 ≤ m'.state.acc) ∧ (1 ≤ m.state.acc → m'.state.acc = m.state.acc + 1) := by
    intro m m' hk hm hq h
    obtain ⟨s, ⟨k1, k2, k3, k4, h1, h2, h3, h4, hs⟩, e⟩ := step_delayAcc hk h
    have g := hf m hm hq
    constructor
    · intro h0
      have q1 : k1.acc = 2 := by rw [h1, g, h0]; simp [limited]
      have q2 : k2.acc = 1 := by rw [h2, g]; simp only [State.add, State.scale, q1, h0, limited]; norm_num
      have q3 : k3.acc = 3 / 2 := by rw [h3, g]; simp only [State.add, State.scale, q2, h0, limited]; norm_num
      have q4 : k4.acc = 1 := by rw [h4, g]; simp only [State.add, State.scale, q3, h0, limited]; norm_num
      rw [e, hs]
      simp only [mixed, State.add, State.scale, q1, q2, q3, q4, h0]; norm_num
    · intro h0
      have top : ∀ a : ℝ, 1 ≤ a → limited a 1 = 1 := by
        intro a ha; unfold limited; rw [min_eq_right ha, max_eq_right (by norm_num)]
      have q1 : k1.acc = 1 := by rw [h1, g, top _ h0]; norm_num
      have q2 : k2.acc = 1 := by
        rw [h2, g, top]
        · norm_num
        · simp only [State.add, State.scale, q1]; linarith
      have q3 : k3.acc = 1 := by
        rw [h3, g, top]
        · norm_num
        · simp only [State.add, State.scale, q2]; linarith
      have q4 : k4.acc = 1 := by
        rw [h4, g, top]
        · norm_num
        · simp only [State.add, State.scale, q3]; linarith
      rw [e, hs]
      simp only [mixed, State.add, State.scale, q1, q2, q3, q4]; ring
  have grow : ∀ (n : Nat) (m : Model), m.kind = .delayAcc → m.p = p.fixed → m.driveQueue = [] → 1 ≤ m.state.acc →
      ∃ m', m.run 1 (List.replicate n (.drive 0, { drive := 1 })) = some m' ∧ m'.kind = .delayAcc ∧ m'.state.acc = m.state.acc + n := by
    intro n
    induction n with
    | zero => intro m hk _ _ _; exact ⟨m, rfl, hk, by simp⟩
    | succ n ih =>
      intro m hk hm hq h1
      obtain ⟨m1, hs⟩ := step_total m (by rw [hk]; simp) (.drive 0) { drive := 1 } 1
      have hp := step_kept hs
      have ha := (hstep m m1 hk hm hq hs).2 h1
      obtain ⟨m2, hr, hk2, hacc⟩ := ih m1 (hp.kind.trans hk) (hp.p.trans hm) (by rw [hp.driveQueue (by rw [hk]; rfl), hq]; rfl) (by rw [ha]; linarith)
      refine ⟨m2, ?_, hk2, ?_⟩
      · rw [List.replicate_succ]
        simp only [Model.run, hs, Option.bind_eq_bind, Option.bind_some, hr]
      · rw [hacc, ha]; push_cast; ring
  intro B
  obtain ⟨n, hn⟩ := exists_nat_gt B
  let m0 : Model := { kind := .delayAcc, p := p.fixed, map := ⟨[], [], []⟩ }
  obtain ⟨m1, hs⟩ := step_total m0 (by simp [m0]) (.drive 0) { drive := 1 } 1
  have hp := step_kept hs
  have ha := (hstep m0 m1 rfl rfl rfl hs).1 rfl
  obtain ⟨m2, hr, hk2, hacc⟩ := grow n m1 hp.kind hp.p (by rw [hp.driveQueue rfl]; rfl) ha
  refine ⟨n + 1, m2, ?_, ?_⟩
  · rw [List.replicate_succ]
    simp only [Model.run]
    rw [hs]
    exact hr
  · have : m2.getAx = m2.state.acc := by simp [Model.getAx, hk2]
    rw [this, hacc]; linarith

end Verif.Vehicle
