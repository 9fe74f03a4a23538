import Verif.Vehicle.StepLemmas
/-
C95: the limits on velocity, acceleration and steering rate.
-/
namespace Verif.Vehicle
open Classical

theorem withGear_vx_bound {b : Bool} {s prev : State} {g : Gear} {dt l : ℝ} (hl : 0 ≤ l) (h : |s.vx| ≤ l) : |(withGear b s prev g dt).vx| ≤ l := by
  obtain ⟨h1, h2⟩ := withGear_spec b s prev g dt
  by_cases ha : Agrees g s.vx
  · rw [h1 ha]; exact h
  · rw [h2 ha]; simp [stopState, hl]

theorem withGear_steer (b : Bool) (s prev : State) (g : Gear) (dt : ℝ) : (withGear b s prev g dt).steer = s.steer := by
  obtain ⟨h1, h2⟩ := withGear_spec b s prev g dt
  by_cases ha : Agrees g s.vx
  · rw [h1 ha]
  · rw [h2 ha]; rfl

theorem getVx_eq {m : Model} (h : m.kind ≠ .idealVel) : m.getVx = m.state.vx := by
  unfold Model.getVx
  split
  · contradiction
  · rfl

/-- C95: after a step of a model with delayed acceleration the velocity is within the limit, whatever the state and the commands were. -/
theorem C95_speed (m m' : Model) (g : Gear) (u : Input) (dt : ℝ)
    (hk : m.kind = .delayAcc ∨ m.kind = .delayAccGeared ∨ m.kind = .delayMapAccGeared ∨ m.kind = .delayAccGearedNoGuard)
    (hl : 0 ≤ m.p.vxLim) (h : m.step g u dt = some m') : |m'.getVx| ≤ m.p.vxLim := by
  have hk' : m'.kind ≠ .idealVel := by
    rw [(step_kept h).kind]
    rcases hk with hk | hk | hk | hk <;> rw [hk] <;> simp
  rw [getVx_eq hk']
  rcases hk with hk | hk | hk | hk
  · obtain ⟨s, _, e⟩ := step_delayAcc hk h
    rw [e]; exact limited_abs hl
  · obtain ⟨s, _, e⟩ := step_delayAccGeared hk h
    rw [e]; exact withGear_vx_bound hl (limited_abs hl)
  · obtain ⟨s, _, e⟩ := step_map hk h
    rw [e]; exact withGear_vx_bound hl (limited_abs hl)
  · obtain ⟨s, d, _, _, e, _⟩ := step_noGuard hk h
    rw [e]
    split
    · simpa using hl
    · exact limited_abs hl

/-- What the slopes of `calcDelayAcc` are. -/
theorem calcDelayAcc_vx (p : Params) (u : Input) (s : State) : (calcDelayAcc p u s).vx = limited s.acc p.vxRateLim := by
  simp only [calcDelayAcc, sat_eq]

theorem calcDelayAcc_steer (p : Params) (u : Input) (s : State) :
    (calcDelayAcc p u s).steer = limited (-(deadBand (s.steer - limited u.steer p.steerLim * p.steerScale) p.steerBand) / p.steerConst) p.steerRateLim := by
  simp only [calcDelayAcc, sat_eq]

theorem calcDelayVel_vx (p : Params) (u : Input) (s : State) :
    (calcDelayVel p u s).vx = limited (-(limited s.vx p.vxLim - limited u.drive p.vxLim) / p.driveConst) p.vxRateLim := by
  simp only [calcDelayVel, sat_eq]

theorem calcDelayVel_steer (p : Params) (u : Input) (s : State) :
    (calcDelayVel p u s).steer =
      limited (-(deadBand (limited s.steer p.steerLim - limited u.steer p.steerLim) p.steerBand) / p.steerConst) p.steerRateLim := by
  simp only [calcDelayVel, sat_eq]

theorem calcMap_inv {p : Params} {map : AccMap} {u : Input} {s k : State} (h : calcMap p map u s = some k) :
    ∃ c, (if map.rows = [] then some (clamp u.drive (-p.vxRateLim) p.vxRateLim)
        else map.getAcceleration (clamp u.drive (-p.vxRateLim) p.vxRateLim) (clamp s.vx (-p.vxLim) p.vxLim)) = some c ∧
      k = { x := clamp s.vx (-p.vxLim) p.vxLim * Real.cos s.yaw, y := clamp s.vx (-p.vxLim) p.vxLim * Real.sin s.yaw
            yaw := clamp s.vx (-p.vxLim) p.vxLim * Real.tan s.steer / p.wheelbase, vx := clamp s.acc (-p.vxRateLim) p.vxRateLim
            steer := clamp (-(s.steer - clamp u.steer (-p.steerLim) p.steerLim) / p.steerConst) (-p.steerRateLim) p.steerRateLim
            acc := -(clamp s.acc (-p.vxRateLim) p.vxRateLim - c) / p.driveConst } := by
  unfold calcMap at h
  by_cases hr : map.rows = []
  · simp only [hr, if_true, Option.bind_eq_bind, Option.bind_some, Option.pure_def, Option.some.injEq] at h
    subst h
    exact ⟨_, by rw [if_pos hr], rfl⟩
  · simp only [hr, if_false, Option.bind_eq_bind, Option.bind_eq_some_iff, Option.pure_def, Option.some.injEq] at h
    obtain ⟨c, hc, rfl⟩ := h
    exact ⟨c, by rw [if_neg hr]; exact hc, rfl⟩

theorem steps_component {f : State → State} {dt : ℝ} {s s' : State} (c : State → ℝ) (B : ℝ)
    (hc : ∀ k1 k2 k3 k4, c (mixed s k1 k2 k3 k4 dt) = c s + (c k1 + c k2 * 2 + c k3 * 2 + c k4) * (1 / 6 * dt))
    (hd : 0 ≤ dt) (hB : ∀ s, |c (f s)| ≤ B) (h : Steps f dt s s') : |c s' - c s| ≤ B * dt := by
  obtain ⟨k1, k2, k3, k4, rfl, rfl, rfl, rfl, rfl⟩ := h
  rw [hc]
  exact mixed_bound hd (hB _) (hB _) (hB _) (hB _)

theorem rk_component {f : State → Option State} {dt : ℝ} {s s' : State} (c : State → ℝ) (B : ℝ)
    (hc : ∀ k1 k2 k3 k4, c (mixed s k1 k2 k3 k4 dt) = c s + (c k1 + c k2 * 2 + c k3 * 2 + c k4) * (1 / 6 * dt))
    (hd : 0 ≤ dt) (hB : ∀ s k, f s = some k → |c k| ≤ B) (h : rungeKutta f dt s = some s') : |c s' - c s| ≤ B * dt := by
  obtain ⟨k1, k2, k3, k4, h1, h2, h3, h4, rfl⟩ := rungeKutta_inv h
  rw [hc]
  exact mixed_bound hd (hB _ _ h1) (hB _ _ h2) (hB _ _ h3) (hB _ _ h4)

/-- C95: in one step the steering angle changes at most by the limit on its rate times the step time. -/
theorem C95_steer_rate (m m' : Model) (g : Gear) (u : Input) (dt : ℝ)
    (hk : m.kind = .delayVel ∨ m.kind = .delayAcc ∨ m.kind = .delayAccGeared ∨ m.kind = .delayMapAccGeared ∨
      m.kind = .delayAccGearedNoGuard)
    (hd : 0 ≤ dt) (hl : 0 ≤ m.p.steerRateLim) (h : m.step g u dt = some m') : |m'.getSteer - m.getSteer| ≤ m.p.steerRateLim * dt := by
  have hp := step_kept h
  have e0 : m'.getSteer - m.getSteer = m'.state.steer - m.state.steer := by
    unfold Model.getSteer
    rw [hp.kind, hp.p]
    rcases hk with hk | hk | hk | hk | hk <;> simp [hk]
  rw [e0]
  rcases hk with hk | hk | hk | hk | hk
  · obtain ⟨hs, _⟩ := step_delayVel hk h
    exact steps_component (·.steer) _ (fun _ _ _ _ => rfl) hd (fun s => by simp only [calcDelayVel_steer]; exact limited_abs hl) hs
  · obtain ⟨s, hs, e⟩ := step_delayAcc hk h
    rw [e]
    exact steps_component (s' := s) (·.steer) _ (fun _ _ _ _ => rfl) hd (fun s => by simp only [calcDelayAcc_steer]; exact limited_abs hl) hs
  · obtain ⟨s, hs, e⟩ := step_delayAccGeared hk h
    rw [e, withGear_steer]
    exact steps_component (s' := s) (·.steer) _ (fun _ _ _ _ => rfl) hd (fun s => by simp only [calcDelayAcc_steer]; exact limited_abs hl) hs
  · obtain ⟨s, hs, e⟩ := step_map hk h
    rw [e, withGear_steer]
    refine rk_component (s' := s) (·.steer) _ (fun _ _ _ _ => rfl) hd (fun s k hk => ?_) hs
    obtain ⟨c, _, rfl⟩ := calcMap_inv hk
    simp only [clamp_eq hl]
    exact limited_abs hl
  · obtain ⟨s, d, hd', hs, _, _, _, _, e, _⟩ := step_noGuard hk h
    rw [e, hs]
    simp only [State.add, State.scale, hd', calcNoGuard, sat_eq, add_sub_cancel_left, abs_mul, abs_of_nonneg hd]
    exact mul_le_mul_of_nonneg_right (limited_abs hl) hd

theorem limited_diff {a b l B : ℝ} (hb : |b| ≤ l) (h : |a - b| ≤ B) : |limited a l - b| ≤ B := by
  rw [← limited_self hb]
  exact le_trans limited_sub h

/-- C95: in one step of a model without gears the velocity changes at most by the limit on the acceleration times the step time. The
velocity before the step is within its limit, as it is after any step (`C95_speed`); DELAY_STEER_VEL does not need that. -/
theorem C95_speed_rate (m m' : Model) (g : Gear) (u : Input) (dt : ℝ)
    (hk : m.kind = .delayVel ∨ (m.kind = .delayAcc ∧ |m.getVx| ≤ m.p.vxLim)) (hd : 0 ≤ dt) (hl : 0 ≤ m.p.vxRateLim)
    (h : m.step g u dt = some m') : |m'.getVx - m.getVx| ≤ m.p.vxRateLim * dt := by
  have hp := (step_kept h).kind
  rcases hk with hk | ⟨hk, hv⟩
  · rw [getVx_eq (by rw [hp, hk]; simp), getVx_eq (by rw [hk]; simp)]
    obtain ⟨hs, _⟩ := step_delayVel hk h
    exact steps_component (·.vx) _ (fun _ _ _ _ => rfl) hd (fun s => by simp only [calcDelayVel_vx]; exact limited_abs hl) hs
  · rw [getVx_eq (by rw [hp, hk]; simp), getVx_eq (by rw [hk]; simp)]
    rw [getVx_eq (by rw [hk]; simp)] at hv
    obtain ⟨s, hs, e⟩ := step_delayAcc hk h
    rw [e]
    exact limited_diff hv
      (steps_component (·.vx) _ (fun _ _ _ _ => rfl) hd (fun s => by simp only [calcDelayAcc_vx]; exact limited_abs hl) hs)

/-- C95: with gears the same holds, unless the ego is stopped on the spot because of the gear. -/
theorem C95_speed_rate_geared (m m' : Model) (g : Gear) (u : Input) (dt : ℝ)
    (hk : m.kind = .delayAccGeared ∨ m.kind = .delayMapAccGeared) (hv : |m.getVx| ≤ m.p.vxLim) (hd : 0 ≤ dt) (hl : 0 ≤ m.p.vxRateLim)
    (h : m.step g u dt = some m') :
    |m'.getVx - m.getVx| ≤ m.p.vxRateLim * dt ∨
      (m'.getVx = 0 ∧ m'.state.x = m.state.x ∧ m'.state.y = m.state.y ∧ m'.state.yaw = m.state.yaw) := by
  have hp := (step_kept h).kind
  have hki : m.kind ≠ .idealVel := by rcases hk with hk | hk <;> rw [hk] <;> simp
  rw [getVx_eq (hp ▸ hki), getVx_eq hki]
  rw [getVx_eq hki] at hv
  have key : ∀ s : State, |s.vx - m.state.vx| ≤ m.p.vxRateLim * dt →
      m'.state = withGear true { s with vx := limited s.vx m.p.vxLim } m.state g dt →
      |m'.state.vx - m.state.vx| ≤ m.p.vxRateLim * dt ∨
      (m'.state.vx = 0 ∧ m'.state.x = m.state.x ∧ m'.state.y = m.state.y ∧ m'.state.yaw = m.state.yaw) := by
    intro s hs e
    obtain ⟨h1, h2⟩ := withGear_spec true { s with vx := limited s.vx m.p.vxLim } m.state g dt
    by_cases ha : Agrees g (limited s.vx m.p.vxLim)
    · left; rw [e, h1 ha]
      exact limited_diff hv hs
    · right; rw [e, h2 ha]
      simp [stopState]
  rcases hk with hk | hk
  · obtain ⟨s, hs, e⟩ := step_delayAccGeared hk h
    exact key s (steps_component (·.vx) _ (fun _ _ _ _ => rfl) hd (fun s => by simp only [calcDelayAcc_vx]; exact limited_abs hl) hs) e
  · obtain ⟨s, hs, e⟩ := step_map hk h
    refine key s (rk_component (·.vx) _ (fun _ _ _ _ => rfl) hd (fun s k hk => ?_) hs) e
    obtain ⟨c, _, rfl⟩ := calcMap_inv hk
    simp only [clamp_eq hl]
    exact limited_abs hl

theorem pedalAcc_abs (u : Input) (v p : ℝ) : |pedalAcc u v p| ≤ |p| + |u.slope| := by
  have h1 := abs_nonneg p
  have h2 := abs_nonneg u.slope
  have h3 := abs_add_le p u.slope
  have h4 := abs_add_le (-p) u.slope
  rw [abs_neg] at h4
  unfold pedalAcc
  split_ifs <;> first | (rw [abs_zero]; linarith) | linarith

/-- C95: without fall guard the acceleration of the slope comes on top of the limit. -/
theorem C95_speed_rate_slope (m m' : Model) (g : Gear) (u : Input) (dt : ℝ) (hk : m.kind = .delayAccGearedNoGuard)
    (hv : |m.getVx| ≤ m.p.vxLim) (hd : 0 ≤ dt) (hl : 0 ≤ m.p.vxRateLim) (h : m.step g u dt = some m') :
    |m'.getVx - m.getVx| ≤ (m.p.vxRateLim + |u.slope|) * dt := by
  have hp := (step_kept h).kind
  have hki : m.kind ≠ .idealVel := by rw [hk]; simp
  rw [getVx_eq (hp ▸ hki), getVx_eq hki]
  rw [getVx_eq hki] at hv
  obtain ⟨s, d, hd', hs, e, _⟩ := step_noGuard hk h
  have hb : |limited s.vx m.p.vxLim - m.state.vx| ≤ (m.p.vxRateLim + |u.slope|) * dt := by
    apply limited_diff hv
    rw [hs]
    simp only [State.add, State.scale, hd', calcNoGuard, sat_eq, add_sub_cancel_left, abs_mul, abs_of_nonneg hd]
    apply mul_le_mul_of_nonneg_right _ hd
    refine le_trans (pedalAcc_abs _ _ _) ?_
    have := limited_abs (v := m.state.pedal) hl
    simp only; linarith
  rw [e]
  split
  · rename_i hc
    refine le_trans ?_ hb
    obtain ⟨hc, _⟩ := hc
    generalize limited s.vx m.p.vxLim = w at *
    generalize m.state.vx = v at *
    rcases le_total 0 v with hv0 | hv0
    · rcases eq_or_lt_of_le hv0 with rfl | hv1
      · simp
      · have : w ≤ 0 := by by_contra hw; push Not at hw; nlinarith
        rw [abs_of_nonpos (by linarith), abs_of_nonpos (by linarith)]; linarith
    · rcases eq_or_lt_of_le hv0 with rfl | hv1
      · simp
      · have : 0 ≤ w := by by_contra hw; push Not at hw; nlinarith
        rw [abs_of_nonneg (by linarith), abs_of_nonneg (by linarith)]; linarith
  · exact hb

/-- C95: the acceleration that DELAY_STEER_VEL reports is within the limit. -/
theorem C95_reported (m m' : Model) (g : Gear) (u : Input) (dt : ℝ) (hk : m.kind = .delayVel) (hd : 0 < dt) (hl : 0 ≤ m.p.vxRateLim)
    (h : m.step g u dt = some m') : |m'.getAx| ≤ m.p.vxRateLim := by
  have h1 := C95_speed_rate m m' g u dt (Or.inl hk) hd.le hl h
  have hp := (step_kept h).kind
  have e : m'.getAx = (m'.getVx - m.getVx) / dt := by
    rw [getVx_eq (by rw [hp, hk]; simp), getVx_eq (by rw [hk]; simp)]
    simp only [Model.getAx, hp, hk]
    exact (step_delayVel hk h).2
  rw [e, abs_div, abs_of_pos hd, div_le_iff₀ hd]
  exact h1

theorem run_cons {m : Model} {dt : ℝ} {g : Gear} {u : Input} {l : List (Gear × Input)} {m' : Model} (h : m.run dt ((g, u) :: l) = some m') :
    ∃ n, m.step g u dt = some n ∧ n.run dt l = some m' := by
  unfold Model.run at h
  simp only [Option.bind_eq_bind, Option.bind_eq_some_iff] at h
  exact h

/-- Invariants of a run. -/
theorem run_invariant {dt : ℝ} (P : Model → Prop) (hs : ∀ m m' g u, P m → m.step g u dt = some m' → P m') :
    ∀ (l : List (Gear × Input)) (m m' : Model), P m → m.run dt l = some m' → P m' := by
  intro l
  induction l with
  | nil => intro m m' hP h; simp only [Model.run, Option.some.injEq] at h; subst h; exact hP
  | cons a l ih =>
    intro m m' hP h
    obtain ⟨g, u⟩ := a
    obtain ⟨n, h1, h2⟩ := run_cons h
    exact ih n m' (hs m n g u hP h1) h2

theorem make_state {kind : Kind} {p : Params} {dt : ℝ} {map : AccMap} {m : Model} (h : Model.make kind p dt map = some m) :
    m.state = {} ∧ m.kind = kind ∧ m.map = map ∧ m.p = (if kind.delayed then p.fixed else p) := by
  unfold Model.make at h
  split at h
  · rename_i hk
    simp only [Option.bind_eq_bind, Option.bind_eq_some_iff, Option.pure_def, Option.some.injEq] at h
    obtain ⟨n, _, k, _, rfl⟩ := h
    simp [hk]
  · rename_i hk
    simp only [Option.some.injEq] at h
    subst h
    simp [hk]

/-- C95, for every history: from construction on, the velocity of a model with delayed acceleration never exceeds the limit. -/
theorem C95_history (kind : Kind) (p : Params) (dt : ℝ) (map : AccMap) (m m' : Model) (l : List (Gear × Input))
    (hk : kind = .delayAcc ∨ kind = .delayAccGeared ∨ kind = .delayMapAccGeared ∨ kind = .delayAccGearedNoGuard) (hl : 0 ≤ p.vxLim)
    (hm : Model.make kind p dt map = some m) (h : m.run dt l = some m') : |m'.getVx| ≤ p.vxLim := by
  obtain ⟨hs, hkind, _, hp⟩ := make_state hm
  have hd : kind.delayed = true := by rcases hk with rfl | rfl | rfl | rfl <;> rfl
  rw [hd] at hp
  have := run_invariant (dt := dt) (P := fun m => m.kind = kind ∧ m.p = p.fixed ∧ |m.getVx| ≤ p.vxLim) ?_ l m m' ?_ h
  · exact this.2.2
  · rintro m m' g u ⟨h1, h2, _⟩ hst
    have hkp := step_kept hst
    refine ⟨hkp.kind.trans h1, hkp.p.trans h2, ?_⟩
    have := C95_speed m m' g u dt (by rw [h1]; exact hk) (by rw [h2]; exact hl) hst
    rwa [h2] at this
  · refine ⟨hkind, by simpa using hp, ?_⟩
    have : m.getVx = 0 := by
      rw [getVx_eq (by rw [hkind]; rcases hk with rfl | rfl | rfl | rfl <;> simp), hs]
    rw [this, abs_zero]; exact hl

end Verif.Vehicle
