import Verif.Vehicle.DelayTheorems
import Mathlib.Tactic.LinearCombination
/-
C98: the pose follows from the velocity and the steering angle.
-/
namespace Verif.Vehicle
open Classical

/-- C98: one step of IDEAL_STEER_ACC with the acceleration `a` changes the velocity by `a·dt` and the heading by the distance
`v·dt + a·dt²/2` times the curvature; with the wheels straight the position moves by exactly that distance along the heading. -/
theorem C98_ideal_acc (m m' : Model) (g : Gear) (u : Input) (dt : ℝ) (hk : m.kind = .idealAcc) (h : m.step g u dt = some m') :
    m'.state.vx = m.state.vx + u.drive * dt ∧
    m'.state.yaw = m.state.yaw + (m.state.vx * dt + u.drive * dt ^ 2 / 2) * (Real.tan u.steer / m.p.wheelbase) ∧
    (Real.tan u.steer = 0 →
      m'.state.x = m.state.x + (m.state.vx * dt + u.drive * dt ^ 2 / 2) * Real.cos m.state.yaw ∧
      m'.state.y = m.state.y + (m.state.vx * dt + u.drive * dt ^ 2 / 2) * Real.sin m.state.yaw) := by
  obtain ⟨k1, k2, k3, k4, rfl, rfl, rfl, rfl, e⟩ := step_idealAcc hk h
  rw [e]
  refine ⟨?_, ?_, fun ht => ?_⟩
  · simp only [mixed, State.add, State.scale, calcIdealAcc]; ring
  · simp only [mixed, State.add, State.scale, calcIdealAcc]; ring
  · simp only [mixed, State.add, State.scale, calcIdealAcc, ht, mul_zero, zero_div, zero_mul, add_zero]
    constructor <;> ring

/-- C98: one step of IDEAL_STEER_VEL with the velocity `v` turns the heading by `v·dt` times the curvature, and with the wheels straight
moves the position by `v·dt` along the heading. -/
theorem C98_ideal_vel (m m' : Model) (g : Gear) (u : Input) (dt : ℝ) (hk : m.kind = .idealVel) (h : m.step g u dt = some m') :
    m'.getVx = u.drive ∧
    m'.state.yaw = m.state.yaw + u.drive * dt * (Real.tan u.steer / m.p.wheelbase) ∧
    (Real.tan u.steer = 0 →
      m'.state.x = m.state.x + u.drive * dt * Real.cos m.state.yaw ∧ m'.state.y = m.state.y + u.drive * dt * Real.sin m.state.yaw) := by
  have hp := step_kept h
  obtain ⟨⟨k1, k2, k3, k4, rfl, rfl, rfl, rfl, e⟩, _⟩ := step_idealVel hk h
  refine ⟨by simp [Model.getVx, hp.kind, hk, hp.input], ?_⟩
  rw [e]
  refine ⟨?_, fun ht => ?_⟩
  · simp only [mixed, State.add, State.scale, calcIdealVel]; ring
  · simp only [mixed, State.add, State.scale, calcIdealVel, ht, mul_zero, zero_div, zero_mul, add_zero]
    constructor <;> ring

/-- Lengths of vectors add up at most. -/
theorem sq_add {x y x' y' a b : ℝ} (ha : 0 ≤ a) (hb : 0 ≤ b) (h : x ^ 2 + y ^ 2 ≤ a ^ 2) (h' : x' ^ 2 + y' ^ 2 ≤ b ^ 2) :
    (x + x') ^ 2 + (y + y') ^ 2 ≤ (a + b) ^ 2 := by
  have h1 : (x * x' + y * y') ^ 2 ≤ (a * b) ^ 2 := by
    have e : (x * x' + y * y') ^ 2 = (x ^ 2 + y ^ 2) * (x' ^ 2 + y' ^ 2) - (x * y' - y * x') ^ 2 := by ring
    have : (x ^ 2 + y ^ 2) * (x' ^ 2 + y' ^ 2) ≤ a ^ 2 * b ^ 2 := mul_le_mul h h' (by positivity) (by positivity)
    nlinarith [sq_nonneg (x * y' - y * x')]
  have h2 : x * x' + y * y' ≤ a * b := le_trans (le_abs_self _) (abs_le_of_sq_le_sq h1 (mul_nonneg ha hb))
  nlinarith

theorem speed_sq {v θ B : ℝ} (h : |v| ≤ B) : (v * Real.cos θ) ^ 2 + (v * Real.sin θ) ^ 2 ≤ B ^ 2 := by
  have e : (v * Real.cos θ) ^ 2 + (v * Real.sin θ) ^ 2 = v ^ 2 := by
    have := Real.sin_sq_add_cos_sq θ
    linear_combination v ^ 2 * this
  rw [e]
  exact sq_le_sq' (by linarith [neg_abs_le v]) (le_trans (le_abs_self v) h)

theorem scale_sq {x y a k : ℝ} (h : x ^ 2 + y ^ 2 ≤ a ^ 2) : (x * k) ^ 2 + (y * k) ^ 2 ≤ (a * k) ^ 2 := by
  nlinarith [sq_nonneg k]

theorem mixed_within {s k1 k2 k3 k4 : State} {dt B1 B2 B3 B4 : ℝ} (h1 : k1.x ^ 2 + k1.y ^ 2 ≤ B1 ^ 2) (h2 : k2.x ^ 2 + k2.y ^ 2 ≤ B2 ^ 2)
    (h3 : k3.x ^ 2 + k3.y ^ 2 ≤ B3 ^ 2) (h4 : k4.x ^ 2 + k4.y ^ 2 ≤ B4 ^ 2) (b1 : 0 ≤ B1) (b2 : 0 ≤ B2) (b3 : 0 ≤ B3) (b4 : 0 ≤ B4) :
    Within s (mixed s k1 k2 k3 k4 dt) ((B1 + B2 * 2 + B3 * 2 + B4) / 6 * dt) := by
  have q2 := scale_sq (k := 2) h2
  have q3 := scale_sq (k := 2) h3
  have q := scale_sq (k := 1 / 6 * dt) (sq_add (by positivity) b4 (sq_add (by positivity) (by positivity) (sq_add b1 (by positivity) h1 q2) q3) h4)
  unfold Within
  simp only [mixed, State.add, State.scale]
  calc _ = _ := by ring
    _ ≤ _ := q
    _ = _ := by ring

theorem mixed_within_one {s k1 k2 k3 k4 : State} {dt B v : ℝ} (h1 : k1.x ^ 2 + k1.y ^ 2 ≤ B ^ 2) (h2 : k2.x ^ 2 + k2.y ^ 2 ≤ B ^ 2)
    (h3 : k3.x ^ 2 + k3.y ^ 2 ≤ B ^ 2) (h4 : k4.x ^ 2 + k4.y ^ 2 ≤ B ^ 2) (b : 0 ≤ B) :
    Within s { mixed s k1 k2 k3 k4 dt with vx := v } (B * dt) := by
  have := mixed_within (s := s) (dt := dt) h1 h2 h3 h4 b b b b
  rw [show (B + B * 2 + B * 2 + B) / 6 * dt = B * dt by ring] at this
  exact this

/-- C98: in one step an ego of DELAY_STEER_VEL, DELAY_STEER_ACC, their geared variants or IDEAL_STEER_VEL moves no further than its greatest
speed times the step time. -/
theorem C98_distance (m m' : Model) (g : Gear) (u : Input) (dt : ℝ) (hl : 0 ≤ m.p.vxLim) (h : m.step g u dt = some m') :
    (m.kind.delayed = true → Within m.state m'.state (m.p.vxLim * dt)) ∧
    (m.kind = .idealVel → Within m.state m'.state (u.drive * dt)) ∧
    (0 ≤ dt → m.kind = .idealAcc ∨ m.kind = .idealAccGeared → Within m.state m'.state (|m.state.vx| * dt + |u.drive| * dt ^ 2 / 2)) := by
  have stop : ∀ b s (d : ℝ), Within m.state s d → Within m.state (withGear b s m.state g dt) d := by
    intro b s d hw
    by_cases ha : Agrees g s.vx
    · rw [(withGear_spec b s m.state g dt).1 ha]; exact hw
    · rw [(withGear_spec b s m.state g dt).2 ha]; simp only [Within, stopState, sub_self]; nlinarith [sq_nonneg d]
  refine ⟨fun hk => ?_, fun hk => ?_, fun hd hk => ?_⟩
  · cases hm : m.kind <;> rw [hm] at hk <;> first | (simp [Kind.delayed] at hk; done) | skip
    · obtain ⟨s, ⟨k1, k2, k3, k4, rfl, rfl, rfl, rfl, rfl⟩, e⟩ := step_delayAcc hm h
      rw [e]
      have q : ∀ s, (calcDelayAcc m.p (oldest m u) s).x ^ 2 + (calcDelayAcc m.p (oldest m u) s).y ^ 2 ≤ m.p.vxLim ^ 2 := by
        intro s; simp only [calcDelayAcc, sat_eq]; exact speed_sq (limited_abs hl)
      exact mixed_within_one (q _) (q _) (q _) (q _) hl
    · obtain ⟨s, ⟨k1, k2, k3, k4, rfl, rfl, rfl, rfl, rfl⟩, e⟩ := step_delayAccGeared hm h
      rw [e]
      have q : ∀ s, (calcDelayAcc m.p (oldest m u) s).x ^ 2 + (calcDelayAcc m.p (oldest m u) s).y ^ 2 ≤ m.p.vxLim ^ 2 := by
        intro s; simp only [calcDelayAcc, sat_eq]; exact speed_sq (limited_abs hl)
      apply stop
      exact mixed_within_one (q _) (q _) (q _) (q _) hl
    · obtain ⟨s, d, hd, hs, _, hx, hy, _⟩ := step_noGuard hm h
      unfold Within
      rw [hx, hy, hs, hd]
      simp only [State.add, State.scale, calcNoGuard, sat_eq, add_sub_cancel_left]
      exact scale_sq (speed_sq (limited_abs hl))
    · obtain ⟨s, hs, e⟩ := step_map hm h
      obtain ⟨k1, k2, k3, k4, h1, h2, h3, h4, rfl⟩ := rungeKutta_inv hs
      rw [e]
      have q : ∀ s k, calcMap m.p m.map (oldest m u) s = some k → k.x ^ 2 + k.y ^ 2 ≤ m.p.vxLim ^ 2 := by
        intro s k hk
        obtain ⟨c, _, rfl⟩ := calcMap_inv hk
        simp only [clamp_eq hl]; exact speed_sq (limited_abs hl)
      apply stop
      exact mixed_within_one (q _ _ h1) (q _ _ h2) (q _ _ h3) (q _ _ h4) hl
    · obtain ⟨⟨k1, k2, k3, k4, rfl, rfl, rfl, rfl, e⟩, _⟩ := step_delayVel hm h
      rw [e]
      have q : ∀ s, (calcDelayVel m.p (oldest m u) s).x ^ 2 + (calcDelayVel m.p (oldest m u) s).y ^ 2 ≤ m.p.vxLim ^ 2 := by
        intro s; simp only [calcDelayVel, sat_eq]; exact speed_sq (limited_abs hl)
      exact mixed_within_one (q _) (q _) (q _) (q _) hl
  · obtain ⟨⟨k1, k2, k3, k4, rfl, rfl, rfl, rfl, e⟩, _⟩ := step_idealVel hk h
    rw [e]
    have q : ∀ s, (calcIdealVel m.p u s).x ^ 2 + (calcIdealVel m.p u s).y ^ 2 ≤ |u.drive| ^ 2 := by
      intro s; exact speed_sq (le_refl _)
    refine le_trans (mixed_within_one (v := 0) (q _) (q _) (q _) (q _) (abs_nonneg u.drive)) (le_of_eq ?_)
    rw [mul_pow, sq_abs, ← mul_pow]
  · have q : ∀ s, (calcIdealAcc m.p u s).x ^ 2 + (calcIdealAcc m.p u s).y ^ 2 ≤ |s.vx| ^ 2 := by
      intro s; exact speed_sq (le_refl _)
    have w : ∀ s, Steps (calcIdealAcc m.p u) dt m.state s → Within m.state s (|m.state.vx| * dt + |u.drive| * dt ^ 2 / 2) := by
      rintro s ⟨k1, k2, k3, k4, h1, h2, h3, h4, rfl⟩
      have e1 : ∀ t : ℝ, 0 ≤ t → |m.state.vx + u.drive * t| ≤ |m.state.vx| + |u.drive| * t := by
        intro t ht
        refine le_trans (abs_add_le _ _) ?_
        rw [abs_mul, abs_of_nonneg ht]
      have q' : ∀ (k : State) (t : ℝ), 0 ≤ t → k.vx = u.drive → (calcIdealAcc m.p u (m.state.add (k.scale t))).x ^ 2 +
          (calcIdealAcc m.p u (m.state.add (k.scale t))).y ^ 2 ≤ (|m.state.vx| + |u.drive| * t) ^ 2 := by
        intro k t ht hk
        refine le_trans (q _) ?_
        simp only [State.add, State.scale, hk]
        exact pow_le_pow_left₀ (abs_nonneg _) (e1 t ht) 2
      have hh : 0 ≤ 0.5 * dt := by positivity
      have nn : ∀ t : ℝ, 0 ≤ t → 0 ≤ |m.state.vx| + |u.drive| * t := fun t ht => by positivity
      have g1 := q m.state
      have g2 := q' k1 _ hh (by rw [h1]; rfl)
      have g3 := q' k2 _ hh (by rw [h2]; rfl)
      have g4 := q' k3 _ hd (by rw [h3]; rfl)
      rw [← h1] at g1
      rw [← h2] at g2
      rw [← h3] at g3
      rw [← h4] at g4
      have := mixed_within (s := m.state) (dt := dt) g1 g2 g3 g4 (abs_nonneg _) (nn _ hh) (nn _ hh) (nn _ hd)
      refine le_trans this (le_of_eq ?_)
      ring
    rcases hk with hk | hk
    · exact w _ (step_idealAcc hk h)
    · obtain ⟨s, hs, e, _⟩ := step_idealAccGeared hk h
      rw [e]
      exact stop _ _ _ (w _ hs)

/-- The slopes of a state at rest are zero, except the one of the steering. -/
def Still (k : State) : Prop := k.x = 0 ∧ k.y = 0 ∧ k.yaw = 0 ∧ k.vx = 0 ∧ k.acc = 0

theorem still_mixed {f : State → State → Prop} {s k1 k2 k3 k4 : State} {dt : ℝ} (hf : ∀ s k, s.vx = 0 → s.acc = 0 → f s k → Still k)
    (hv : s.vx = 0) (ha : s.acc = 0) (h1 : f s k1) (h2 : f (s.add (k1.scale (0.5 * dt))) k2) (h3 : f (s.add (k2.scale (0.5 * dt))) k3)
    (h4 : f (s.add (k3.scale dt)) k4) :
    (mixed s k1 k2 k3 k4 dt).x = s.x ∧ (mixed s k1 k2 k3 k4 dt).y = s.y ∧ (mixed s k1 k2 k3 k4 dt).yaw = s.yaw ∧
      (mixed s k1 k2 k3 k4 dt).vx = 0 ∧ (mixed s k1 k2 k3 k4 dt).acc = 0 := by
  have next : ∀ (k : State) (t : ℝ), Still k → (s.add (k.scale t)).vx = 0 ∧ (s.add (k.scale t)).acc = 0 := by
    rintro k t ⟨_, _, _, h, h'⟩
    simp only [State.add, State.scale, hv, ha, h, h']; constructor <;> ring
  have q1 := hf _ _ hv ha h1
  have n1 := next k1 (0.5 * dt) q1
  have q2 := hf _ _ n1.1 n1.2 h2
  have n2 := next k2 (0.5 * dt) q2
  have q3 := hf _ _ n2.1 n2.2 h3
  have n3 := next k3 dt q3
  have q4 := hf _ _ n3.1 n3.2 h4
  obtain ⟨a1, a2, a3, a4, a5⟩ := q1
  obtain ⟨b1, b2, b3, b4, b5⟩ := q2
  obtain ⟨c1, c2, c3, c4, c5⟩ := q3
  obtain ⟨d1, d2, d3, d4, d5⟩ := q4
  simp only [mixed, State.add, State.scale, a1, a2, a3, a4, a5, b1, b2, b3, b4, b5, c1, c2, c3, c4, c5, d1, d2, d3, d4, d5, hv, ha]
  refine ⟨?_, ?_, ?_, ?_, ?_⟩ <;> ring

theorem limited_zero {l : ℝ} (hl : 0 ≤ l) : limited 0 l = 0 := limited_self (by simpa using hl)

/-- C98: an ego at rest, on level ground and with the command 0 (or, if it has a delay, only commands 0 still to be answered), stays where it
is in any gear and however its wheels are turned. For the model with an acceleration map this is shown without a map. -/
theorem C98_rest (m m' : Model) (g : Gear) (u : Input) (dt : ℝ) (hv : m.state.vx = 0) (ha : m.state.acc = 0) (hp : m.state.pedal = 0)
    (hu : u.drive = 0) (hs : u.slope = 0) (hq : ∀ d ∈ m.driveQueue, d = 0) (hmap : m.kind = .delayMapAccGeared → m.map.rows = [])
    (hl : 0 ≤ m.p.vxLim) (hr : 0 ≤ m.p.vxRateLim) (h : m.step g u dt = some m') :
    m'.state.x = m.state.x ∧ m'.state.y = m.state.y ∧ m'.state.yaw = m.state.yaw ∧ m'.getVx = 0 ∧ m'.state.vx = 0 ∧ m'.state.acc = 0 := by
  have hkp := step_kept h
  have ho : (oldest m u).drive = 0 := by
    simp only [oldest, hu]
    cases hc : m.driveQueue with
    | nil => rfl
    | cons a l => exact hq a (by rw [hc]; simp)
  suffices m'.state.x = m.state.x ∧ m'.state.y = m.state.y ∧ m'.state.yaw = m.state.yaw ∧ m'.state.vx = 0 ∧ m'.state.acc = 0 by
    obtain ⟨h1, h2, h3, h4, h5⟩ := this
    refine ⟨h1, h2, h3, ?_, h4, h5⟩
    by_cases hk : m'.kind = .idealVel
    · simp [Model.getVx, hk, hkp.input, hu]
    · rw [getVx_eq hk]; exact h4
  have gear : ∀ (b : Bool) (s : State), s.x = m.state.x → s.y = m.state.y → s.yaw = m.state.yaw → s.vx = 0 → s.acc = 0 →
      (withGear b s m.state g dt).x = m.state.x ∧ (withGear b s m.state g dt).y = m.state.y ∧ (withGear b s m.state g dt).yaw = m.state.yaw ∧
      (withGear b s m.state g dt).vx = 0 ∧ (withGear b s m.state g dt).acc = 0 := by
    intro b s h1 h2 h3 h4 h5
    by_cases ha : Agrees g s.vx
    · rw [(withGear_spec b s m.state g dt).1 ha]; exact ⟨h1, h2, h3, h4, h5⟩
    · rw [(withGear_spec b s m.state g dt).2 ha]; simp [stopState, hv, h5]
  have acc : ∀ s k, s.vx = 0 → s.acc = 0 → k = calcDelayAcc m.p (oldest m u) s → Still k := by
    rintro s k h1 h2 rfl
    simp [Still, calcDelayAcc, sat_eq, h1, h2, ho, limited_zero hl, limited_zero hr]
  cases hm : m.kind
  · obtain ⟨s, ⟨k1, k2, k3, k4, h1, h2, h3, h4, rfl⟩, e⟩ := step_delayAcc hm h
    obtain ⟨a1, a2, a3, a4, a5⟩ := still_mixed (f := fun s k => k = calcDelayAcc m.p (oldest m u) s) acc hv ha h1 h2 h3 h4
    rw [e]
    exact ⟨a1, a2, a3, by simp only [a4]; exact limited_zero hl, a5⟩
  · obtain ⟨s, ⟨k1, k2, k3, k4, h1, h2, h3, h4, rfl⟩, e⟩ := step_delayAccGeared hm h
    obtain ⟨a1, a2, a3, a4, a5⟩ := still_mixed (f := fun s k => k = calcDelayAcc m.p (oldest m u) s) acc hv ha h1 h2 h3 h4
    rw [e]
    exact gear _ _ a1 a2 a3 (by simp only [a4]; exact limited_zero hl) a5
  · obtain ⟨s, d, hd, hs', hvx, hx, hy, hyaw, _, _, hacc⟩ := step_noGuard hm h
    have hda : pedalAcc { oldest m u with gear := u.gear, slope := u.slope } 0 0 = 0 := by
      simp only [pedalAcc, hs]; simp
    have hdx : d.x = 0 ∧ d.y = 0 ∧ d.yaw = 0 ∧ d.vx = 0 := by
      rw [hd]
      simp only [calcNoGuard, sat_eq, hv, hp, limited_zero hl, limited_zero hr, hda]
      simp
    obtain ⟨d1, d2, d3, d4⟩ := hdx
    have hsv : s.vx = 0 := by rw [hs']; simp [State.add, State.scale, hv, d4]
    have hvx' : m'.state.vx = 0 := by
      rw [hvx, hsv, limited_zero hl]; simp
    refine ⟨?_, ?_, ?_, hvx', ?_⟩
    · rw [hx, hs']; simp [State.add, State.scale, d1]
    · rw [hy, hs']; simp [State.add, State.scale, d2]
    · rw [hyaw, hs']; simp [State.add, State.scale, d3]
    · rw [hacc, hvx', hv]; simp
  · obtain ⟨s, hs', e⟩ := step_map hm h
    obtain ⟨k1, k2, k3, k4, h1, h2, h3, h4, rfl⟩ := rungeKutta_inv hs'
    obtain ⟨a1, a2, a3, a4, a5⟩ := still_mixed (f := fun s k => calcMap m.p m.map (oldest m u) s = some k) (by
      intro s k hv ha hk
      obtain ⟨c, hc, rfl⟩ := calcMap_inv hk
      rw [if_pos (hmap hm), ho, clamp_eq hr, limited_zero hr] at hc
      injection hc with hc
      simp [Still, clamp_eq hl, clamp_eq hr, hv, ha, limited_zero hl, limited_zero hr, ← hc]) hv ha h1 h2 h3 h4
    rw [e]
    exact gear _ _ a1 a2 a3 (by simp only [a4]; exact limited_zero hl) a5
  · obtain ⟨s, e⟩ := step_delayVel hm h
    obtain ⟨k1, k2, k3, k4, h1, h2, h3, h4, e'⟩ := s
    have := still_mixed (f := fun s k => k = calcDelayVel m.p (oldest m u) s) (by
      rintro s k h1 h2 rfl
      simp [Still, calcDelayVel, sat_eq, h1, ho, limited_zero hl, limited_zero hr]) hv ha h1 h2 h3 h4
    rw [e']; exact this
  · obtain ⟨k1, k2, k3, k4, h1, h2, h3, h4, e'⟩ := step_idealAcc hm h
    have := still_mixed (f := fun s k => k = calcIdealAcc m.p u s) (by
      rintro s k h1 h2 rfl
      simp [Still, calcIdealAcc, h1, hu]) hv ha h1 h2 h3 h4
    rw [e']; exact this
  · obtain ⟨s, ⟨k1, k2, k3, k4, h1, h2, h3, h4, rfl⟩, e, _⟩ := step_idealAccGeared hm h
    obtain ⟨a1, a2, a3, a4, a5⟩ := still_mixed (f := fun s k => k = calcIdealAcc m.p u s) (by
      rintro s k h1 h2 rfl
      simp [Still, calcIdealAcc, h1, hu]) hv ha h1 h2 h3 h4
    rw [e]
    exact gear _ _ a1 a2 a3 a4 a5
  · obtain ⟨⟨k1, k2, k3, k4, h1, h2, h3, h4, e'⟩, _⟩ := step_idealVel hm h
    have := still_mixed (f := fun s k => k = calcIdealVel m.p u s) (by
      rintro s k h1 h2 rfl
      simp [Still, calcIdealVel, hu]) hv ha h1 h2 h3 h4
    rw [e']; exact this

theorem deadBand_zero {b : ℝ} (hb : 0 ≤ b) : deadBand 0 b = 0 := by
  unfold deadBand
  rw [if_neg (by linarith), if_neg (by linarith)]

/-- C98: DELAY_STEER_ACC and its geared variant follow a constant acceleration with the wheels straight exactly, within the limits. -/
theorem C98_steady (m m' : Model) (g : Gear) (u : Input) (dt a : ℝ) (hk : m.kind = .delayAcc ∨ m.kind = .delayAccGeared ∧ Agrees g (m.state.vx + a * dt))
    (ha : m.state.acc = a) (hu : (m.driveQueue ++ [u.drive]).headD 0 = a) (hsc : m.p.accScale = 1) (hal : |a| ≤ m.p.vxRateLim)
    (hs : m.state.steer = 0) (hus : (m.steerQueue ++ [u.steer]).headD 0 = 0) (hsl : 0 ≤ m.p.steerLim) (hsr : 0 ≤ m.p.steerRateLim)
    (hb : 0 ≤ m.p.steerBand)
    (hv : |m.state.vx| ≤ m.p.vxLim) (hv' : |m.state.vx + a * dt| ≤ m.p.vxLim) (h : m.step g u dt = some m') :
    m'.getVx = m.state.vx + a * dt ∧ m'.getAx = a ∧ m'.getSteer = 0 ∧ m'.state.yaw = m.state.yaw ∧
    m'.state.x = m.state.x + (m.state.vx * dt + a * dt ^ 2 / 2) * Real.cos m.state.yaw ∧
    m'.state.y = m.state.y + (m.state.vx * dt + a * dt ^ 2 / 2) * Real.sin m.state.yaw := by
  have hkp := step_kept h
  have hmid : |m.state.vx + a * (0.5 * dt)| ≤ m.p.vxLim := by
    rw [abs_le] at *
    constructor <;> linarith [hv.1, hv.2, hv'.1, hv'.2]
  have hf : ∀ s : State, s.acc = a → s.steer = 0 → |s.vx| ≤ m.p.vxLim →
      calcDelayAcc m.p (oldest m u) s = { x := s.vx * Real.cos s.yaw, y := s.vx * Real.sin s.yaw, yaw := 0, vx := a, steer := 0, acc := 0 } := by
    intro s h1 h2 h3
    have e1 : (oldest m u).drive = a := hu
    have e2 : (oldest m u).steer = 0 := hus
    simp [calcDelayAcc, sat_eq, e1, e2, h1, h2, hsc, limited_self hal, limited_self h3, limited_zero hsl, limited_zero hsr, deadBand_zero hb]
  have key : ∀ s, Steps (calcDelayAcc m.p (oldest m u)) dt m.state s →
      s.vx = m.state.vx + a * dt ∧ s.acc = a ∧ s.steer = 0 ∧ s.yaw = m.state.yaw ∧
      s.x = m.state.x + (m.state.vx * dt + a * dt ^ 2 / 2) * Real.cos m.state.yaw ∧
      s.y = m.state.y + (m.state.vx * dt + a * dt ^ 2 / 2) * Real.sin m.state.yaw := by
    rintro s ⟨k1, k2, k3, k4, h1, h2, h3, h4, rfl⟩
    rw [hf _ ha hs hv] at h1
    subst h1
    rw [hf _ (by simp [State.add, State.scale, ha]) (by simp [State.add, State.scale, hs]) hmid] at h2
    subst h2
    rw [hf _ (by simp [State.add, State.scale, ha]) (by simp [State.add, State.scale, hs]) hmid] at h3
    subst h3
    rw [hf _ (by simp [State.add, State.scale, ha]) (by simp [State.add, State.scale, hs]) hv'] at h4
    subst h4
    simp only [mixed, State.add, State.scale, ha, hs, zero_mul, add_zero, true_and]
    refine ⟨?_, ?_, ?_⟩ <;> ring
  rcases hk with hk | ⟨hk, hg⟩
  · obtain ⟨s, hst, e⟩ := step_delayAcc hk h
    obtain ⟨a1, a2, a3, a4, a5, a6⟩ := key s hst
    simp only [Model.getVx, Model.getAx, Model.getSteer, hkp.kind, hk, e, a1, a2, a3, a4, a5, a6, limited_self hv', and_self]
  · obtain ⟨s, hst, e⟩ := step_delayAccGeared hk h
    obtain ⟨a1, a2, a3, a4, a5, a6⟩ := key s hst
    rw [(withGear_spec _ _ _ _ _).1 (by simp only [a1, limited_self hv']; exact hg)] at e
    simp only [Model.getVx, Model.getAx, Model.getSteer, hkp.kind, hk, e, a1, a2, a3, a4, a5, a6, limited_self hv', and_self]

/-- The hypotheses of `C98_steady` are met at 10 m/s with an acceleration of 2 m/s². -/
example : ∃ m m' : Model, m.kind = .delayAccGeared ∧ m.step (.drive 0) { drive := 2 } (1 / 30) = some m' ∧
    Agrees (.drive 0) (m.state.vx + 2 * (1 / 30)) ∧ m.state.acc = 2 ∧ (m.driveQueue ++ [(2 : ℝ)]).headD 0 = 2 ∧ m.p.accScale = 1 ∧
    |(2 : ℝ)| ≤ m.p.vxRateLim ∧ |m.state.vx + 2 * (1 / 30)| ≤ m.p.vxLim := by
  refine ⟨{ kind := .delayAccGeared, p := sample, state := { vx := 10, acc := 2 } }, ?_⟩
  obtain ⟨m', h⟩ := step_total { kind := .delayAccGeared, p := sample, state := { vx := 10, acc := 2 } } (by simp) (.drive 0) { drive := 2 } (1 / 30)
  refine ⟨m', rfl, h, Or.inl ⟨Or.inl ⟨0, rfl⟩, by norm_num⟩, rfl, rfl, rfl, ?_, ?_⟩ <;> simp only [sample] <;> norm_num

/-- The hypotheses of `C98_rest` are met by every model that was just built. -/
example (kind : Kind) (p : Params) (dt : ℝ) (m : Model) (h : Model.make kind p dt ⟨[], [], []⟩ = some m) :
    m.state.vx = 0 ∧ m.state.acc = 0 ∧ m.state.pedal = 0 ∧ (∀ d ∈ m.driveQueue, d = 0) ∧ m.map.rows = [] := by
  unfold Model.make at h
  split at h
  · simp only [Option.bind_eq_bind, Option.bind_eq_some_iff, Option.pure_def, Option.some.injEq] at h
    obtain ⟨n, _, k, _, rfl⟩ := h
    refine ⟨rfl, rfl, rfl, ?_, rfl⟩
    intro d hd
    exact (List.mem_replicate.mp hd).2
  · injection h with h
    subst h
    exact ⟨rfl, rfl, rfl, by simp, rfl⟩

end Verif.Vehicle
