import Verif.Vehicle.ApproachHistoryTheorems
import Mathlib.Analysis.Complex.ExponentialBounds
/-
C96: how fast the delayed models approach what is commanded.
-/
namespace Verif.Vehicle
open Classical

/-- A step of the fourth order Runge-Kutta method for one quantity. -/
noncomputable def rkScalar (φ : ℝ → ℝ) (a dt : ℝ) : ℝ :=
  let k1 := φ a
  let k2 := φ (a + k1 * (0.5 * dt))
  let k3 := φ (a + k2 * (0.5 * dt))
  let k4 := φ (a + k3 * dt)
  a + (k1 + k2 * 2 + k3 * 2 + k4) * (1 / 6 * dt)

theorem steps_scalar {f : State → State} {dt : ℝ} {s s' : State} (c : State → ℝ) (φ : ℝ → ℝ)
    (hc : ∀ k1 k2 k3 k4, c (mixed s k1 k2 k3 k4 dt) = c s + (c k1 + c k2 * 2 + c k3 * 2 + c k4) * (1 / 6 * dt))
    (hc' : ∀ k t, c (s.add (k.scale t)) = c s + c k * t)
    (hf : ∀ s, c (f s) = φ (c s)) (h : Steps f dt s s') : c s' = rkScalar φ (c s) dt := by
  obtain ⟨k1, k2, k3, k4, rfl, rfl, rfl, rfl, rfl⟩ := h
  simp only [hc, hc', hf, rkScalar]

/-- The rate of the steering towards `goal`. -/
noncomputable def steerRate (goal band tc r v : ℝ) : ℝ := limited (-(deadBand (v - goal) band) / tc) r

/-- The steering of a model that integrates with Runge-Kutta. -/
theorem steer_scalar {m m' : Model} {g : Gear} {u : Input} {dt : ℝ} (hl : 0 ≤ m.p.steerRateLim) (hs0 : 0 ≤ m.p.steerLim)
    (h : m.step g u dt = some m') :
    (m.kind = .delayAcc ∨ m.kind = .delayAccGeared → m'.getSteer = rkScalar
      (steerRate (steerGoal m ((m.steerQueue ++ [u.steer]).headD 0)) m.p.steerBand m.p.steerConst m.p.steerRateLim) m.getSteer dt) ∧
    (m.kind = .delayVel → m'.getSteer = rkScalar
      (fun v => steerRate (steerGoal m ((m.steerQueue ++ [u.steer]).headD 0)) m.p.steerBand m.p.steerConst m.p.steerRateLim (limited v m.p.steerLim))
      m.getSteer dt) ∧
    (m.kind = .delayMapAccGeared → m'.getSteer = rkScalar
      (steerRate (steerGoal m ((m.steerQueue ++ [u.steer]).headD 0)) 0 m.p.steerConst m.p.steerRateLim) m.getSteer dt) := by
  have hp := step_kept h
  refine ⟨?_, ?_, ?_⟩
  · rintro (hk | hk)
    · have e1 : m.getSteer = m.state.steer := by simp [Model.getSteer, hk]
      have e2 : m'.getSteer = m'.state.steer := by simp [Model.getSteer, hp.kind, hk]
      have e3 : steerGoal m ((m.steerQueue ++ [u.steer]).headD 0) = limited (oldest m u).steer m.p.steerLim * m.p.steerScale := by
        simp [steerGoal, hk, oldest]
      rw [e1, e2, e3]
      obtain ⟨s, hst, e⟩ := step_delayAcc hk h
      rw [e]
      exact steps_scalar (s' := s) (·.steer) _ (fun _ _ _ _ => rfl) (fun _ _ => rfl) (fun s => calcDelayAcc_steer _ _ _) hst
    · have e1 : m.getSteer = m.state.steer := by simp [Model.getSteer, hk]
      have e2 : m'.getSteer = m'.state.steer := by simp [Model.getSteer, hp.kind, hk]
      have e3 : steerGoal m ((m.steerQueue ++ [u.steer]).headD 0) = limited (oldest m u).steer m.p.steerLim * m.p.steerScale := by
        simp [steerGoal, hk, oldest]
      rw [e1, e2, e3]
      obtain ⟨s, hst, e⟩ := step_delayAccGeared hk h
      rw [e, withGear_steer]
      exact steps_scalar (s' := s) (·.steer) _ (fun _ _ _ _ => rfl) (fun _ _ => rfl) (fun s => calcDelayAcc_steer _ _ _) hst
  · intro hk
    have e1 : m.getSteer = m.state.steer := by simp [Model.getSteer, hk]
    have e2 : m'.getSteer = m'.state.steer := by simp [Model.getSteer, hp.kind, hk]
    have e3 : steerGoal m ((m.steerQueue ++ [u.steer]).headD 0) = limited (oldest m u).steer m.p.steerLim := by simp [steerGoal, hk, oldest]
    rw [e1, e2, e3]
    obtain ⟨hst, _⟩ := step_delayVel hk h
    exact steps_scalar (·.steer) _ (fun _ _ _ _ => rfl) (fun _ _ => rfl) (fun s => calcDelayVel_steer _ _ _) hst
  · intro hk
    have e1 : m.getSteer = m.state.steer := by simp [Model.getSteer, hk]
    have e2 : m'.getSteer = m'.state.steer := by simp [Model.getSteer, hp.kind, hk]
    have e3 : steerGoal m ((m.steerQueue ++ [u.steer]).headD 0) = limited (oldest m u).steer m.p.steerLim := by simp [steerGoal, hk, oldest]
    rw [e1, e2, e3]
    obtain ⟨s, hst, e⟩ := step_map hk h
    rw [e, withGear_steer]
    obtain ⟨k1, k2, k3, k4, h1, h2, h3, h4, rfl⟩ := rungeKutta_inv hst
    have hdb : ∀ d : ℝ, deadBand d 0 = d := by
      intro d; unfold deadBand
      split
      · ring
      · split
        · ring
        · rename_i h1 h2; linarith
    have hφ : ∀ s k, calcMap m.p m.map (oldest m u) s = some k →
        k.steer = steerRate (limited (oldest m u).steer m.p.steerLim) 0 m.p.steerConst m.p.steerRateLim s.steer := by
      intro s k hk
      obtain ⟨c, _, rfl⟩ := calcMap_inv hk
      simp only [clamp_eq hl, clamp_eq hs0, steerRate, hdb]
    simp only [mixed, State.add, State.scale, hφ _ _ h4, hφ _ _ h3, hφ _ _ h2, hφ _ _ h1, rkScalar]

theorem exp_close {r : ℝ} (h0 : 0 ≤ r) (h1 : r ≤ 1) : |1 - r + r ^ 2 / 2 - r ^ 3 / 6 + r ^ 4 / 24 - Real.exp (-r)| ≤ r ^ 5 / 100 := by
  have := Real.exp_bound (x := -r) (by rw [abs_neg, abs_of_nonneg h0]; exact h1) (n := 5) (by norm_num)
  rw [abs_neg, abs_of_nonneg h0, abs_sub_comm] at this
  have e : ∑ i ∈ Finset.range 5, (-r) ^ i / (i.factorial : ℝ) = 1 - r + r ^ 2 / 2 - r ^ 3 / 6 + r ^ 4 / 24 := by
    simp [Finset.sum_range_succ, Nat.factorial]; ring
  rw [e] at this
  refine le_trans this (le_of_eq ?_)
  simp [Nat.factorial]; ring

/-- A quantity that follows `goal` with the time constant `tc` on the way there. -/
theorem lag_scalar {φ : ℝ → ℝ} {a goal tc dt : ℝ} (htc : 0 < tc) (hd : 0 ≤ dt) (hdt : dt ≤ tc)
    (hφ : ∀ v, Between a goal v → φ v = -(v - goal) / tc) :
    |rkScalar φ a dt - (goal + (a - goal) * Real.exp (-(dt / tc)))| ≤ |a - goal| * ((dt / tc) ^ 5 / 100) := by
  obtain ⟨r, hr⟩ : ∃ r, r = dt / tc := ⟨_, rfl⟩
  have hdr : dt = r * tc := by rw [hr]; field_simp
  have h0 : 0 ≤ r := by rw [hr]; positivity
  have h1 : r ≤ 1 := by rw [hr]; exact (div_le_one htc).mpr hdt
  have mid : ∀ w, 0 ≤ w → w ≤ 1 → φ (goal + (a - goal) * w) = -((a - goal) * w) / tc := by
    intro w w0 w1
    rw [hφ]
    · congr 1; ring
    · rcases le_total a goal with h | h
      · exact Or.inl ⟨by nlinarith, by nlinarith⟩
      · exact Or.inr ⟨by nlinarith, by nlinarith⟩
  have step : ∀ w t : ℝ, a + -((a - goal) * w) / tc * (t * dt) = goal + (a - goal) * (1 - w * (t * r)) := by
    intro w t
    rw [hdr]; field_simp; ring
  have q1 : φ a = -((a - goal) * 1) / tc := by have := mid 1 (by norm_num) (le_refl _); rw [mul_one, add_sub_cancel] at this; rw [mul_one]; exact this
  have w1 : 0 ≤ 1 - r / 2 ∧ 1 - r / 2 ≤ 1 := ⟨by linarith, by linarith⟩
  have w2 : 0 ≤ 1 - (1 - r / 2) * (r / 2) ∧ 1 - (1 - r / 2) * (r / 2) ≤ 1 := ⟨by nlinarith, by nlinarith⟩
  have w3 : 0 ≤ 1 - (1 - (1 - r / 2) * (r / 2)) * r ∧ 1 - (1 - (1 - r / 2) * (r / 2)) * r ≤ 1 :=
    ⟨by nlinarith [mul_nonneg w2.1 h0], by nlinarith [mul_nonneg w2.1 h0]⟩
  have e : rkScalar φ a dt = goal + (a - goal) * (1 - r + r ^ 2 / 2 - r ^ 3 / 6 + r ^ 4 / 24) := by
    simp only [rkScalar]
    have p2 : φ (a + φ a * (0.5 * dt)) = -((a - goal) * (1 - r / 2)) / tc := by
      rw [q1, step]
      have : (1 : ℝ) - 1 * (0.5 * r) = 1 - r / 2 := by ring
      rw [this, mid _ w1.1 w1.2]
    have p3 : φ (a + φ (a + φ a * (0.5 * dt)) * (0.5 * dt)) = -((a - goal) * (1 - (1 - r / 2) * (r / 2))) / tc := by
      rw [p2, step]
      have : (1 : ℝ) - (1 - r / 2) * (0.5 * r) = 1 - (1 - r / 2) * (r / 2) := by ring
      rw [this, mid _ w2.1 w2.2]
    have p4 : φ (a + φ (a + φ (a + φ a * (0.5 * dt)) * (0.5 * dt)) * dt) =
        -((a - goal) * (1 - (1 - (1 - r / 2) * (r / 2)) * r)) / tc := by
      have s1 := step (1 - (1 - r / 2) * (r / 2)) 1
      rw [one_mul, one_mul] at s1
      rw [p3, s1, mid _ w3.1 w3.2]
    rw [p4, p3, p2, q1, hdr]
    field_simp
    ring
  rw [e, ← hr]
  have e2 : goal + (a - goal) * (1 - r + r ^ 2 / 2 - r ^ 3 / 6 + r ^ 4 / 24) - (goal + (a - goal) * Real.exp (-r)) =
      (a - goal) * (1 - r + r ^ 2 / 2 - r ^ 3 / 6 + r ^ 4 / 24 - Real.exp (-r)) := by ring
  rw [e2, abs_mul]
  exact mul_le_mul_of_nonneg_left (exp_close h0 h1) (abs_nonneg _)

/-- A quantity whose rate is at the limit all along. -/
theorem full_scalar {φ : ℝ → ℝ} {a dt k : ℝ} (hd : 0 ≤ dt) (hφ : ∀ v, |v - a| ≤ |k| * dt → φ v = k) : rkScalar φ a dt = a + k * dt := by
  have q1 : φ a = k := hφ a (by rw [sub_self, abs_zero]; positivity)
  have half : φ (a + k * (0.5 * dt)) = k := hφ _ (by
    rw [add_sub_cancel_left, abs_mul, abs_of_nonneg (show 0 ≤ 0.5 * dt by positivity)]
    nlinarith [mul_nonneg (abs_nonneg k) hd])
  have full : φ (a + k * dt) = k := hφ _ (by rw [add_sub_cancel_left, abs_mul, abs_of_nonneg hd])
  simp only [rkScalar, q1, half, full]
  ring

theorem steerRate_lag {goal b tc r a G v : ℝ} (htc : 0 < tc) (hb : 0 ≤ b)
    (hG : goal + b ≤ a ∧ G = goal + b ∨ a ≤ goal - b ∧ G = goal - b) (hr : |a - G| ≤ r * tc) (hv : Between a G v) :
    steerRate goal b tc r v = -(v - G) / tc := by
  have hdb : deadBand (v - goal) b = v - G := by
    unfold deadBand
    rcases hG with ⟨h1, rfl⟩ | ⟨h1, rfl⟩ <;> rcases hv with ⟨v1, v2⟩ | ⟨v1, v2⟩ <;> split_ifs <;> linarith
  unfold steerRate
  rw [hdb, limited_self]
  rw [abs_div, abs_neg, abs_of_pos htc, div_le_iff₀ htc]
  refine le_trans ?_ hr
  rcases hv with ⟨v1, v2⟩ | ⟨v1, v2⟩
  · rw [abs_of_nonpos (by linarith), abs_of_nonpos (by linarith)]; linarith
  · rw [abs_of_nonneg (by linarith), abs_of_nonneg (by linarith)]; linarith

theorem limited_top {x r : ℝ} (hr : 0 ≤ r) (h : r ≤ x) : limited x r = r := by
  unfold limited; rw [min_eq_right h, max_eq_right (by linarith)]

theorem limited_bottom {x r : ℝ} (hr : 0 ≤ r) (h : x ≤ -r) : limited x r = -r := by
  unfold limited; rw [min_eq_left (by linarith), max_eq_left h]

/-- C96: outside of the dead band and unless the rate is limited, the steering angle of the models that integrate with Runge-Kutta approaches
the edge of the dead band exponentially with the configured time constant: one step is that of the exponential function up to one part in
100 (dt/tc)⁻⁵. DELAY_STEER_MAP_ACC_GEARED has no dead band. -/
theorem C96_steer_lag (m m' : Model) (g : Gear) (u : Input) (dt b goal G : ℝ)
    (hk : m.kind = .delayVel ∧ |m.getSteer| ≤ m.p.steerLim ∧ b = m.p.steerBand ∨ (m.kind = .delayAcc ∨ m.kind = .delayAccGeared) ∧ b = m.p.steerBand ∨
      m.kind = .delayMapAccGeared ∧ b = 0)
    (hg : goal = steerGoal m ((m.steerQueue ++ [u.steer]).headD 0))
    (hG : goal + b ≤ m.getSteer ∧ G = goal + b ∨ m.getSteer ≤ goal - b ∧ G = goal - b)
    (hd : 0 ≤ dt) (hc : 0 < m.p.steerConst) (hdt : dt ≤ m.p.steerConst) (hs0 : 0 ≤ m.p.steerLim) (hl : 0 ≤ m.p.steerRateLim)
    (hb : 0 ≤ b) (hr : |m.getSteer - G| ≤ m.p.steerRateLim * m.p.steerConst) (h : m.step g u dt = some m') :
    |m'.getSteer - (G + (m.getSteer - G) * Real.exp (-(dt / m.p.steerConst)))| ≤ |m.getSteer - G| * ((dt / m.p.steerConst) ^ 5 / 100) := by
  obtain ⟨e1, e2, e3⟩ := steer_scalar hl hs0 h
  rw [← hg] at e1 e2 e3
  rcases hk with ⟨hk, hv, rfl⟩ | ⟨hk, rfl⟩ | ⟨hk, rfl⟩
  · rw [e2 hk]
    refine lag_scalar hc hd hdt fun v hv' => ?_
    have hgl : |goal| ≤ m.p.steerLim := by rw [hg]; simp only [steerGoal, hk]; exact limited_abs hs0
    have hGl : |v| ≤ m.p.steerLim := by
      rw [abs_le] at *
      rcases hG with ⟨h1, rfl⟩ | ⟨h1, rfl⟩ <;> rcases hv' with ⟨v1, v2⟩ | ⟨v1, v2⟩ <;> constructor <;> linarith [hv.1, hv.2, hgl.1, hgl.2]
    rw [limited_self hGl]
    exact steerRate_lag hc hb hG hr hv'
  · rw [e1 hk]
    exact lag_scalar hc hd hdt fun v hv' => steerRate_lag hc hb hG hr hv'
  · rw [e3 hk]
    exact lag_scalar hc hd hdt fun v hv' => steerRate_lag hc hb hG hr hv'

/-- C96: as long as the goal is far, the steering angle turns with the limit of its rate. -/
theorem C96_steer_full (m m' : Model) (g : Gear) (u : Input) (dt b goal : ℝ)
    (hk : (m.kind = .delayAcc ∨ m.kind = .delayAccGeared) ∧ b = m.p.steerBand ∨ m.kind = .delayMapAccGeared ∧ b = 0)
    (hg : goal = steerGoal m ((m.steerQueue ++ [u.steer]).headD 0))
    (hd : 0 ≤ dt) (hc : 0 < m.p.steerConst) (hs0 : 0 ≤ m.p.steerLim) (hl : 0 < m.p.steerRateLim) (hb : 0 ≤ b) (h : m.step g u dt = some m') :
    (goal + b + m.p.steerRateLim * (m.p.steerConst + dt) ≤ m.getSteer → m'.getSteer = m.getSteer - m.p.steerRateLim * dt) ∧
    (m.getSteer ≤ goal - b - m.p.steerRateLim * (m.p.steerConst + dt) → m'.getSteer = m.getSteer + m.p.steerRateLim * dt) := by
  obtain ⟨e1, _, e3⟩ := steer_scalar hl.le hs0 h
  rw [← hg] at e1 e3
  have he : m'.getSteer = rkScalar (steerRate goal b m.p.steerConst m.p.steerRateLim) m.getSteer dt := by
    rcases hk with ⟨hk, rfl⟩ | ⟨hk, rfl⟩
    · exact e1 hk
    · exact e3 hk
  rw [he]
  have hcl : 0 < m.p.steerRateLim * m.p.steerConst := mul_pos hl hc
  constructor
  · intro hfar
    rw [full_scalar hd (k := -m.p.steerRateLim) fun v hv => ?_]
    · ring
    · rw [abs_neg, abs_of_pos hl, abs_le] at hv
      have hx : m.p.steerRateLim * m.p.steerConst ≤ v - goal - b := by nlinarith [hv.1]
      unfold steerRate deadBand
      rw [if_pos (by linarith)]
      apply limited_bottom hl.le
      rw [div_le_iff₀ hc]; nlinarith
  · intro hfar
    rw [full_scalar hd (k := m.p.steerRateLim) fun v hv => ?_]
    · rw [abs_of_pos hl, abs_le] at hv
      have hx : v - goal + b ≤ -(m.p.steerRateLim * m.p.steerConst) := by nlinarith [hv.2]
      unfold steerRate deadBand
      rw [if_neg (by linarith), if_pos (by linarith)]
      apply limited_top hl.le
      rw [le_div_iff₀ hc]; nlinarith

/-- C96: the same for the model without fall guard, which integrates with the method of Euler: the way left shrinks by the share dt/tc. -/
theorem C96_steer_lag_noGuard (m m' : Model) (g : Gear) (u : Input) (dt goal G : ℝ) (hk : m.kind = .delayAccGearedNoGuard)
    (hg : goal = steerGoal m ((m.steerQueue ++ [u.steer]).headD 0))
    (hG : goal + m.p.steerBand ≤ m.getSteer ∧ G = goal + m.p.steerBand ∨ m.getSteer ≤ goal - m.p.steerBand ∧ G = goal - m.p.steerBand)
    (hc : 0 < m.p.steerConst) (hb : 0 ≤ m.p.steerBand) (hr : |m.getSteer - G| ≤ m.p.steerRateLim * m.p.steerConst)
    (h : m.step g u dt = some m') : m'.getSteer = G + (m.getSteer - G) * (1 - dt / m.p.steerConst) := by
  have hp := step_kept h
  have e1 : m.getSteer = m.state.steer + m.p.steerBias := by simp [Model.getSteer, hk]
  have e2 : m'.getSteer = m'.state.steer + m.p.steerBias := by simp [Model.getSteer, hp.kind, hp.p, hk]
  have e3 : steerGoal m ((m.steerQueue ++ [u.steer]).headD 0) = limited (oldest m u).steer m.p.steerLim * m.p.steerScale := by
    simp [steerGoal, hk, oldest]
  obtain ⟨s, d, hd', hs, _, _, _, _, e, _⟩ := step_noGuard hk h
  have e5 : d.steer = steerRate goal m.p.steerBand m.p.steerConst m.p.steerRateLim m.getSteer := by
    rw [e1, hd', hg, e3]; simp only [calcNoGuard, sat_eq, steerRate]
  have ha : Between m.getSteer G m.getSteer := by
    rcases le_total m.getSteer G with h | h
    · exact Or.inl ⟨le_refl _, h⟩
    · exact Or.inr ⟨h, le_refl _⟩
  rw [steerRate_lag hc hb hG hr ha] at e5
  have e4 : m'.getSteer = m.getSteer + d.steer * dt := by
    rw [e2, e1, e, hs]; simp only [State.add, State.scale]; ring
  rw [e4, e5]
  field_simp
  ring

/-- C96: unless the rate is limited, the velocity of DELAY_STEER_VEL follows the command exponentially with its time constant. -/
theorem C96_speed_lag (m m' : Model) (g : Gear) (u : Input) (dt goal : ℝ) (hk : m.kind = .delayVel) (hv : |m.getVx| ≤ m.p.vxLim)
    (hg : goal = limited ((m.driveQueue ++ [u.drive]).headD 0) m.p.vxLim)
    (hd : 0 ≤ dt) (hc : 0 < m.p.driveConst) (hdt : dt ≤ m.p.driveConst) (hl : 0 ≤ m.p.vxLim)
    (hr : |m.getVx - goal| ≤ m.p.vxRateLim * m.p.driveConst) (h : m.step g u dt = some m') :
    |m'.getVx - (goal + (m.getVx - goal) * Real.exp (-(dt / m.p.driveConst)))| ≤ |m.getVx - goal| * ((dt / m.p.driveConst) ^ 5 / 100) := by
  have hp := step_kept h
  have e1 : m.getVx = m.state.vx := by simp [Model.getVx, hk]
  have e2 : m'.getVx = m'.state.vx := by simp [Model.getVx, hp.kind, hk]
  obtain ⟨hst, _⟩ := step_delayVel hk h
  rw [e1] at hv hr ⊢
  rw [e2, steps_scalar (·.vx) (fun v => limited (-(limited v m.p.vxLim - goal) / m.p.driveConst) m.p.vxRateLim) (fun _ _ _ _ => rfl)
    (fun _ _ => rfl) (fun s => by rw [calcDelayVel_vx, hg]; rfl) hst]
  refine lag_scalar hc hd hdt fun v hv' => ?_
  have hgl : |goal| ≤ m.p.vxLim := by rw [hg]; exact limited_abs hl
  rw [limited_self (between_abs hv' hv hgl), limited_self]
  rw [abs_div, abs_neg, abs_of_pos hc, div_le_iff₀ hc]
  refine le_trans ?_ hr
  rcases hv' with ⟨v1, v2⟩ | ⟨v1, v2⟩
  · rw [abs_of_nonpos (by linarith), abs_of_nonpos (by linarith)]; linarith
  · rw [abs_of_nonneg (by linarith), abs_of_nonneg (by linarith)]; linarith

/-- C96: the acceleration of DELAY_STEER_ACC follows the command, limited and scaled, exponentially with its time constant. -/
theorem C96_acc_lag (m m' : Model) (g : Gear) (u : Input) (dt goal : ℝ) (hk : m.kind = .delayAcc) (hv : |m.getAx| ≤ m.p.vxRateLim)
    (hg : goal = limited ((m.driveQueue ++ [u.drive]).headD 0) m.p.vxRateLim * m.p.accScale) (hgl : |goal| ≤ m.p.vxRateLim)
    (hd : 0 ≤ dt) (hc : 0 < m.p.driveConst) (hdt : dt ≤ m.p.driveConst) (h : m.step g u dt = some m') :
    |m'.getAx - (goal + (m.getAx - goal) * Real.exp (-(dt / m.p.driveConst)))| ≤ |m.getAx - goal| * ((dt / m.p.driveConst) ^ 5 / 100) := by
  have hp := step_kept h
  have e1 : m.getAx = m.state.acc := by simp [Model.getAx, hk]
  have e2 : m'.getAx = m'.state.acc := by simp [Model.getAx, hp.kind, hk]
  obtain ⟨s, hst, e⟩ := step_delayAcc hk h
  rw [e1] at hv ⊢
  rw [e2, e]
  change |s.acc - _| ≤ _
  rw [steps_scalar (·.acc) (fun v => -(limited v m.p.vxRateLim - goal) / m.p.driveConst) (fun _ _ _ _ => rfl)
    (fun _ _ => rfl) (fun s => by rw [calcDelayAcc_acc, hg]; rfl) hst]
  exact lag_scalar hc hd hdt fun v hv' => by rw [limited_self (between_abs hv' hv hgl)]

/-- The hypotheses are met at the first step of a built model: steering from 0 to 0.5 with time constant 1 s and steps of 1/30 s. -/
example : ∃ m m' : Model, Model.make .delayAcc sample (1 / 30) ⟨[], [], []⟩ = some m ∧ m.step (.drive 0) { steer := 1 / 2 } (1 / 30) = some m' ∧
    steerGoal m ((m.steerQueue ++ [(1 / 2 : ℝ)]).headD 0) = 1 / 2 ∧ m.getSteer ≤ 1 / 2 - m.p.steerBand ∧
    |m.getSteer - 1 / 2| ≤ m.p.steerRateLim * m.p.steerConst := by
  obtain ⟨m', h⟩ := step_total { kind := .delayAcc, p := sample.fixed, map := ⟨[], [], []⟩ } (by simp) (.drive 0) { steer := 1 / 2 } (1 / 30)
  refine ⟨_, m', make_sample .delayAcc sample (by norm_num) rfl rfl _ rfl, h, ?_, ?_, ?_⟩
  · simp only [steerGoal, sample, Params.fixed, List.nil_append, List.headD_cons]
    rw [limited_self (by rw [abs_le]; constructor <;> norm_num)]; norm_num
  · simp only [Model.getSteer, sample, Params.fixed]; norm_num
  · simp only [Model.getSteer, sample, Params.fixed, zero_sub, abs_neg]; rw [abs_of_pos (by norm_num)]; norm_num

end Verif.Vehicle
