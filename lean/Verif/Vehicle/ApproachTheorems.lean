import Verif.Vehicle.LimitTheorems
/-
C96: the delayed models approach what is commanded without overshooting it.
-/
namespace Verif.Vehicle
open Classical

/-- `φ` is the rate of a quantity that moves towards `d`, not faster than with time constant `tc`. -/
def Towards (φ : ℝ → ℝ) (d tc : ℝ) (ok : ℝ → Prop) : Prop :=
  ∀ v, ok v → (v ≤ d → 0 ≤ φ v ∧ φ v ≤ (d - v) / tc) ∧ (d ≤ v → (d - v) / tc ≤ φ v ∧ φ v ≤ 0)

theorem rk_up {φ : ℝ → ℝ} {a d tc dt : ℝ} (had : a ≤ d) (htc : 0 < tc) (hd : 0 ≤ dt) (hdt : dt ≤ tc)
    (hφ : ∀ v, a ≤ v → v ≤ d → 0 ≤ φ v ∧ φ v ≤ (d - v) / tc) (k1 k2 k3 k4 : ℝ) (h1 : k1 = φ a) (h2 : k2 = φ (a + k1 * (0.5 * dt)))
    (h3 : k3 = φ (a + k2 * (0.5 * dt))) (h4 : k4 = φ (a + k3 * dt)) :
    a ≤ a + (k1 + k2 * 2 + k3 * 2 + k4) * (1 / 6 * dt) ∧ a + (k1 + k2 * 2 + k3 * 2 + k4) * (1 / 6 * dt) ≤ d := by
  have key : ∀ v, a ≤ v → v ≤ d → 0 ≤ φ v ∧ φ v * dt ≤ d - a := by
    intro v hv1 hv2
    obtain ⟨g1, g2⟩ := hφ v hv1 hv2
    rw [le_div_iff₀ htc] at g2
    exact ⟨g1, by nlinarith⟩
  obtain ⟨p1, q1⟩ := key a (le_refl _) had
  rw [← h1] at p1 q1
  have e1 : k1 * (0.5 * dt) = (k1 * dt) / 2 := by ring
  have n1 : 0 ≤ k1 * dt := mul_nonneg p1 hd
  obtain ⟨p2, q2⟩ := key (a + k1 * (0.5 * dt)) (by rw [e1]; linarith) (by rw [e1]; linarith)
  rw [← h2] at p2 q2
  have e2 : k2 * (0.5 * dt) = (k2 * dt) / 2 := by ring
  have n2 : 0 ≤ k2 * dt := mul_nonneg p2 hd
  obtain ⟨p3, q3⟩ := key (a + k2 * (0.5 * dt)) (by rw [e2]; linarith) (by rw [e2]; linarith)
  rw [← h3] at p3 q3
  have n3 : 0 ≤ k3 * dt := mul_nonneg p3 hd
  obtain ⟨p4, q4⟩ := key (a + k3 * dt) (by linarith) (by linarith)
  rw [← h4] at p4 q4
  have n4 : 0 ≤ k4 * dt := mul_nonneg p4 hd
  have e : (k1 + k2 * 2 + k3 * 2 + k4) * (1 / 6 * dt) = (k1 * dt + 2 * (k2 * dt) + 2 * (k3 * dt) + k4 * dt) / 6 := by ring
  rw [e]
  constructor <;> linarith

theorem rk_between {φ : ℝ → ℝ} {a d tc dt : ℝ} {ok : ℝ → Prop} (htc : 0 < tc) (hd : 0 ≤ dt) (hdt : dt ≤ tc)
    (hok : ∀ v, Between a d v → ok v) (hφ : Towards φ d tc ok) (k1 k2 k3 k4 : ℝ) (h1 : k1 = φ a)
    (h2 : k2 = φ (a + k1 * (0.5 * dt))) (h3 : k3 = φ (a + k2 * (0.5 * dt))) (h4 : k4 = φ (a + k3 * dt)) :
    Between a d (a + (k1 + k2 * 2 + k3 * 2 + k4) * (1 / 6 * dt)) := by
  rcases le_total a d with had | had
  · exact Or.inl (rk_up had htc hd hdt (fun v hv1 hv2 => (hφ v (hok v (Or.inl ⟨hv1, hv2⟩))).1 hv2) k1 k2 k3 k4 h1 h2 h3 h4)
  · have := rk_up (φ := fun v => -φ (-v)) (a := -a) (d := -d) (tc := tc) (dt := dt) (by linarith) htc hd hdt
      (fun v hv1 hv2 => by
        obtain ⟨g1, g2⟩ := (hφ (-v) (hok _ (Or.inr ⟨by linarith, by linarith⟩))).2 (by linarith)
        refine ⟨by linarith, ?_⟩
        have e : (-d - v) / tc = -((d - -v) / tc) := by ring
        rw [e]; linarith) (-k1) (-k2) (-k3) (-k4) (by simp [h1]) (by rw [h2]; congr 2; ring) (by rw [h3]; congr 2; ring)
      (by rw [h4]; congr 2; ring)
    refine Or.inr ⟨?_, ?_⟩
    · have := this.2
      have e : -a + (-k1 + -k2 * 2 + -k3 * 2 + -k4) * (1 / 6 * dt) = -(a + (k1 + k2 * 2 + k3 * 2 + k4) * (1 / 6 * dt)) := by ring
      linarith
    · have := this.1
      have e : -a + (-k1 + -k2 * 2 + -k3 * 2 + -k4) * (1 / 6 * dt) = -(a + (k1 + k2 * 2 + k3 * 2 + k4) * (1 / 6 * dt)) := by ring
      linarith

theorem steps_between {f : State → State} {dt tc d : ℝ} {s s' : State} {ok : ℝ → Prop} (c : State → ℝ) (φ : ℝ → ℝ)
    (hc : ∀ k1 k2 k3 k4, c (mixed s k1 k2 k3 k4 dt) = c s + (c k1 + c k2 * 2 + c k3 * 2 + c k4) * (1 / 6 * dt))
    (hc' : ∀ k t, c (s.add (k.scale t)) = c s + c k * t)
    (hf : ∀ s, c (f s) = φ (c s)) (htc : 0 < tc) (hd : 0 ≤ dt) (hdt : dt ≤ tc) (hok : ∀ v, Between (c s) d v → ok v)
    (hφ : Towards φ d tc ok) (h : Steps f dt s s') : Between (c s) d (c s') := by
  obtain ⟨k1, k2, k3, k4, h1, h2, h3, h4, rfl⟩ := h
  rw [hc]
  refine rk_between htc hd hdt hok hφ _ _ _ _ ?_ ?_ ?_ ?_
  · rw [h1, hf]
  · rw [h2, hf, hc']
  · rw [h3, hf, hc']
  · rw [h4, hf, hc']

theorem limited_between {x r : ℝ} (hr : 0 ≤ r) : (0 ≤ x → 0 ≤ limited x r ∧ limited x r ≤ x) ∧ (x ≤ 0 → x ≤ limited x r ∧ limited x r ≤ 0) := by
  unfold limited
  refine ⟨fun h => ⟨?_, ?_⟩, fun h => ⟨?_, ?_⟩⟩
  · exact le_max_of_le_right (le_min h hr)
  · exact max_le (by linarith) (min_le_left _ _)
  · rw [min_eq_left (by linarith)]; exact le_max_right _ _
  · exact max_le (by linarith) (le_trans (min_le_left _ _) h)

theorem towards_limited {d tc r b : ℝ} (htc : 0 < tc) (hr : 0 ≤ r) (hb : 0 ≤ b) :
    Towards (fun v => limited (-(deadBand (v - d) b) / tc) r) d tc (fun _ => True) := by
  intro v _
  have hlo : v ≤ d → 0 ≤ -(deadBand (v - d) b) ∧ -(deadBand (v - d) b) ≤ d - v := by
    intro h; unfold deadBand; split_ifs <;> constructor <;> linarith
  have hhi : d ≤ v → d - v ≤ -(deadBand (v - d) b) ∧ -(deadBand (v - d) b) ≤ 0 := by
    intro h; unfold deadBand; split_ifs <;> constructor <;> linarith
  constructor
  · intro h
    obtain ⟨g1, g2⟩ := hlo h
    obtain ⟨p, _⟩ := limited_between (x := -(deadBand (v - d) b) / tc) hr
    obtain ⟨p1, p2⟩ := p (div_nonneg g1 htc.le)
    exact ⟨p1, le_trans p2 ((div_le_div_iff_of_pos_right htc).mpr g2)⟩
  · intro h
    obtain ⟨g1, g2⟩ := hhi h
    obtain ⟨_, p⟩ := limited_between (x := -(deadBand (v - d) b) / tc) hr
    obtain ⟨p1, p2⟩ := p (div_nonpos_of_nonpos_of_nonneg g2 htc.le)
    exact ⟨le_trans ((div_le_div_iff_of_pos_right htc).mpr g1) p1, p2⟩

theorem towards_plain {d tc r : ℝ} (htc : 0 < tc) (hr : 0 ≤ r) : Towards (fun v => limited (-(v - d) / tc) r) d tc (fun _ => True) := by
  intro v _
  obtain ⟨p, q⟩ := limited_between (x := -(v - d) / tc) hr
  have e : -(v - d) / tc = (d - v) / tc := by ring
  simp only [e] at p q ⊢
  exact ⟨fun h => p (div_nonneg (by linarith) htc.le), fun h => q (div_nonpos_of_nonpos_of_nonneg (by linarith) htc.le)⟩

theorem towards_free {d tc : ℝ} (htc : 0 < tc) : Towards (fun v => -(v - d) / tc) d tc (fun _ => True) := by
  intro v _
  have e : -(v - d) / tc = (d - v) / tc := by ring
  simp only [e]
  exact ⟨fun h => ⟨div_nonneg (by linarith) htc.le, le_refl _⟩, fun h => ⟨le_refl _, div_nonpos_of_nonpos_of_nonneg (by linarith) htc.le⟩⟩

theorem between_abs {a d v B : ℝ} (h : Between a d v) (ha : |a| ≤ B) (hd : |d| ≤ B) : |v| ≤ B := by
  rw [abs_le] at *
  rcases h with ⟨h1, h2⟩ | ⟨h1, h2⟩ <;> constructor <;> linarith [ha.1, ha.2, hd.1, hd.2]

/-- C96: in one step the steering angle goes towards the oldest command that has not been applied, limited and scaled, and not beyond it,
if the step is not longer than the time constant. DELAY_STEER_VEL needs an angle within the limit to begin with. -/
theorem C96_steer (m m' : Model) (g : Gear) (u : Input) (dt : ℝ)
    (hk : m.kind = .delayVel ∧ |m.getSteer| ≤ m.p.steerLim ∨ m.kind = .delayAcc ∨ m.kind = .delayAccGeared ∨ m.kind = .delayMapAccGeared ∨
      m.kind = .delayAccGearedNoGuard)
    (hd : 0 ≤ dt) (hc : 0 < m.p.steerConst) (hdt : dt ≤ m.p.steerConst) (hl : 0 ≤ m.p.steerRateLim) (hs0 : 0 ≤ m.p.steerLim)
    (hb : 0 ≤ m.p.steerBand) (h : m.step g u dt = some m') :
    Between m.getSteer (steerGoal m ((m.steerQueue ++ [u.steer]).headD 0)) m'.getSteer := by
  have hp := step_kept h
  rcases hk with ⟨hk, hv⟩ | hk | hk | hk | hk
  · have e1 : m.getSteer = m.state.steer := by simp [Model.getSteer, hk]
    have e2 : m'.getSteer = m'.state.steer := by simp [Model.getSteer, hp.kind, hk]
    have e3 : steerGoal m ((m.steerQueue ++ [u.steer]).headD 0) = limited (oldest m u).steer m.p.steerLim := by simp [steerGoal, hk, oldest]
    rw [e1] at hv
    rw [e1, e2, e3]
    obtain ⟨hst, _⟩ := step_delayVel hk h
    have ht := towards_limited (d := limited (oldest m u).steer m.p.steerLim) (r := m.p.steerRateLim) hc hl hb
    refine steps_between (ok := fun v => |v| ≤ m.p.steerLim) (·.steer)
      (fun v => limited (-(deadBand (limited v m.p.steerLim - limited (oldest m u).steer m.p.steerLim) m.p.steerBand) / m.p.steerConst) m.p.steerRateLim)
      (fun _ _ _ _ => rfl) (fun _ _ => rfl) (fun s => calcDelayVel_steer _ _ _) hc hd hdt
      (fun v hb => between_abs hb hv (limited_abs hs0)) ?_ hst
    intro v hv
    have := ht v trivial
    simp only [limited_self hv]
    exact this
  · have e1 : m.getSteer = m.state.steer := by simp [Model.getSteer, hk]
    have e2 : m'.getSteer = m'.state.steer := by simp [Model.getSteer, hp.kind, hk]
    have e3 : steerGoal m ((m.steerQueue ++ [u.steer]).headD 0) = limited (oldest m u).steer m.p.steerLim * m.p.steerScale := by
      simp [steerGoal, hk, oldest]
    rw [e1, e2, e3]
    obtain ⟨s, hst, e⟩ := step_delayAcc hk h
    rw [e]
    exact steps_between (s' := s) (·.steer) _ (fun _ _ _ _ => rfl) (fun _ _ => rfl) (fun s => calcDelayAcc_steer _ _ _) hc hd hdt
      (fun _ _ => trivial) (towards_limited hc hl hb) hst
  · have e1 : m.getSteer = m.state.steer := by simp [Model.getSteer, hk]
    have e2 : m'.getSteer = m'.state.steer := by simp [Model.getSteer, hp.kind, hk]
    have e3 : steerGoal m ((m.steerQueue ++ [u.steer]).headD 0) = limited (oldest m u).steer m.p.steerLim * m.p.steerScale := by
      simp [steerGoal, hk, oldest]
    rw [e1, e2, e3]
    obtain ⟨s, hst, e⟩ := step_delayAccGeared hk h
    rw [e, withGear_steer]
    exact steps_between (s' := s) (·.steer) _ (fun _ _ _ _ => rfl) (fun _ _ => rfl) (fun s => calcDelayAcc_steer _ _ _) hc hd hdt
      (fun _ _ => trivial) (towards_limited hc hl hb) hst
  · have e1 : m.getSteer = m.state.steer := by simp [Model.getSteer, hk]
    have e2 : m'.getSteer = m'.state.steer := by simp [Model.getSteer, hp.kind, hk]
    have e3 : steerGoal m ((m.steerQueue ++ [u.steer]).headD 0) = limited (oldest m u).steer m.p.steerLim := by simp [steerGoal, hk, oldest]
    rw [e1, e2, e3]
    obtain ⟨s, hst, e⟩ := step_map hk h
    rw [e, withGear_steer]
    obtain ⟨k1, k2, k3, k4, h1, h2, h3, h4, rfl⟩ := rungeKutta_inv hst
    have hφ : ∀ s k, calcMap m.p m.map (oldest m u) s = some k →
        k.steer = limited (-(s.steer - limited (oldest m u).steer m.p.steerLim) / m.p.steerConst) m.p.steerRateLim := by
      intro s k hk
      obtain ⟨c, _, rfl⟩ := calcMap_inv hk
      simp only [clamp_eq hl, clamp_eq hs0]
    refine rk_between (k1 := k1.steer) (k2 := k2.steer) (k3 := k3.steer) (k4 := k4.steer) hc hd hdt (fun _ _ => trivial)
      (towards_plain hc hl) ?_ ?_ ?_ ?_
    · exact hφ _ _ h1
    · exact hφ _ _ h2
    · exact hφ _ _ h3
    · exact hφ _ _ h4
  · have e1 : m.getSteer = m.state.steer + m.p.steerBias := by simp [Model.getSteer, hk]
    have e2 : m'.getSteer = m'.state.steer + m.p.steerBias := by simp [Model.getSteer, hp.kind, hp.p, hk]
    have e3 : steerGoal m ((m.steerQueue ++ [u.steer]).headD 0) = limited (oldest m u).steer m.p.steerLim * m.p.steerScale := by
      simp [steerGoal, hk, oldest]
    obtain ⟨s, d, hd', hs, _, _, _, _, e, _⟩ := step_noGuard hk h
    have e4 : m'.getSteer = m.getSteer + d.steer * dt := by
      rw [e2, e1, e, hs]; simp only [State.add, State.scale]; ring
    have e5 : d.steer = limited (-(deadBand (m.getSteer - limited (oldest m u).steer m.p.steerLim * m.p.steerScale) m.p.steerBand) / m.p.steerConst) m.p.steerRateLim := by
      rw [e1, hd']; simp only [calcNoGuard, sat_eq]
    rw [e3, e4]
    obtain ⟨p, q⟩ := towards_limited (d := limited (oldest m u).steer m.p.steerLim * m.p.steerScale) hc hl hb m.getSteer trivial
    simp only [← e5] at p q
    generalize limited (oldest m u).steer m.p.steerLim * m.p.steerScale = D at *
    generalize m.getSteer = a at *
    rcases le_total a D with had | had
    · obtain ⟨p1, p2⟩ := p had
      rw [le_div_iff₀ hc] at p2
      exact Or.inl ⟨by nlinarith, by nlinarith⟩
    · obtain ⟨p1, p2⟩ := q had
      rw [div_le_iff₀ hc] at p1
      exact Or.inr ⟨by nlinarith, by nlinarith⟩

/-- C96: a difference within the dead band does not move the steering. -/
theorem C96_dead_band (m m' : Model) (g : Gear) (u : Input) (dt : ℝ)
    (hk : m.kind = .delayVel ∧ |m.getSteer| ≤ m.p.steerLim ∨ m.kind = .delayAcc ∨ m.kind = .delayAccGeared ∨
      m.kind = .delayAccGearedNoGuard)
    (hl : 0 ≤ m.p.steerRateLim) (hin : |m.getSteer - steerGoal m ((m.steerQueue ++ [u.steer]).headD 0)| ≤ m.p.steerBand)
    (h : m.step g u dt = some m') : m'.getSteer = m.getSteer := by
  have hp := step_kept h
  have hband : ∀ x, |x| ≤ m.p.steerBand → deadBand x m.p.steerBand = 0 := by
    intro x hx
    rw [abs_le] at hx
    unfold deadBand
    rw [if_neg (by linarith [hx.2]), if_neg (by linarith [hx.1])]
  have hz : limited 0 m.p.steerRateLim = 0 := limited_self (by simpa using hl)
  have still : ∀ {f : State → State} {s s' : State}, (∀ t, (f t).steer = 0 ∨ t.steer ≠ s.steer) → Steps f dt s s' → s'.steer = s.steer := by
    rintro f s s' hf ⟨k1, k2, k3, k4, h1, h2, h3, h4, rfl⟩
    have q1 : k1.steer = 0 := by rw [h1]; rcases hf s with h | h; exact h; exact absurd rfl h
    have q2 : k2.steer = 0 := by
      rw [h2]; rcases hf (s.add (k1.scale (0.5 * dt))) with h | h; exact h; exact absurd (by simp [State.add, State.scale, q1]) h
    have q3 : k3.steer = 0 := by
      rw [h3]; rcases hf (s.add (k2.scale (0.5 * dt))) with h | h; exact h; exact absurd (by simp [State.add, State.scale, q2]) h
    have q4 : k4.steer = 0 := by
      rw [h4]; rcases hf (s.add (k3.scale dt)) with h | h; exact h; exact absurd (by simp [State.add, State.scale, q3]) h
    simp [mixed, State.add, State.scale, q1, q2, q3, q4]
  rcases hk with ⟨hk, hv⟩ | hk | hk | hk
  · have e1 : m.getSteer = m.state.steer := by simp [Model.getSteer, hk]
    have e2 : m'.getSteer = m'.state.steer := by simp [Model.getSteer, hp.kind, hk]
    have e3 : steerGoal m ((m.steerQueue ++ [u.steer]).headD 0) = limited (oldest m u).steer m.p.steerLim := by simp [steerGoal, hk, oldest]
    rw [e1, e3] at hin
    rw [e1] at hv
    rw [e1, e2]
    refine still (fun t => ?_) (step_delayVel hk h).1
    by_cases ht : t.steer = m.state.steer
    · left
      rw [calcDelayVel_steer, ht, limited_self hv, hband _ hin]; simp [hz]
    · exact Or.inr ht
  · have e1 : m.getSteer = m.state.steer := by simp [Model.getSteer, hk]
    have e2 : m'.getSteer = m'.state.steer := by simp [Model.getSteer, hp.kind, hk]
    have e3 : steerGoal m ((m.steerQueue ++ [u.steer]).headD 0) = limited (oldest m u).steer m.p.steerLim * m.p.steerScale := by
      simp [steerGoal, hk, oldest]
    rw [e1, e3] at hin
    obtain ⟨s, hst, e⟩ := step_delayAcc hk h
    rw [e1, e2, e]
    refine still (s' := s) (fun t => ?_) hst
    by_cases ht : t.steer = m.state.steer
    · left
      rw [calcDelayAcc_steer, ht, hband _ hin]; simp [hz]
    · exact Or.inr ht
  · have e1 : m.getSteer = m.state.steer := by simp [Model.getSteer, hk]
    have e2 : m'.getSteer = m'.state.steer := by simp [Model.getSteer, hp.kind, hk]
    have e3 : steerGoal m ((m.steerQueue ++ [u.steer]).headD 0) = limited (oldest m u).steer m.p.steerLim * m.p.steerScale := by
      simp [steerGoal, hk, oldest]
    rw [e1, e3] at hin
    obtain ⟨s, hst, e⟩ := step_delayAccGeared hk h
    rw [e1, e2, e, withGear_steer]
    refine still (s' := s) (fun t => ?_) hst
    by_cases ht : t.steer = m.state.steer
    · left
      rw [calcDelayAcc_steer, ht, hband _ hin]; simp [hz]
    · exact Or.inr ht
  · have e1 : m.getSteer = m.state.steer + m.p.steerBias := by simp [Model.getSteer, hk]
    have e2 : m'.getSteer = m'.state.steer + m.p.steerBias := by simp [Model.getSteer, hp.kind, hp.p, hk]
    have e3 : steerGoal m ((m.steerQueue ++ [u.steer]).headD 0) = limited (oldest m u).steer m.p.steerLim * m.p.steerScale := by
      simp [steerGoal, hk, oldest]
    obtain ⟨s, d, hd', hs, _, _, _, _, e, _⟩ := step_noGuard hk h
    rw [e1, e3] at hin
    have e5 : d.steer = 0 := by
      rw [hd']; simp only [calcNoGuard, sat_eq]; rw [hband _ hin]; simp [hz]
    rw [e2, e1, e, hs]; simp [State.add, State.scale, e5]

theorem calcDelayAcc_acc (p : Params) (u : Input) (s : State) :
    (calcDelayAcc p u s).acc = -(limited s.acc p.vxRateLim - limited u.drive p.vxRateLim * p.accScale) / p.driveConst := by
  simp only [calcDelayAcc, sat_eq]

theorem scaled_abs {c l k : ℝ} (hl : 0 ≤ l) (hk : 0 ≤ k) : |limited c l * k| ≤ l * k := by
  rw [abs_mul, abs_of_nonneg hk]
  exact mul_le_mul_of_nonneg_right (limited_abs hl) hk

/-- C96: in one step of DELAY_STEER_ACC the acceleration goes towards the oldest command, limited and scaled, and not beyond it, if the
scaling factor is at most one, the acceleration was within the limit, and the step is not longer than the time constant. -/
theorem C96_acc_partial (m m' : Model) (g : Gear) (u : Input) (dt : ℝ) (hk : m.kind = .delayAcc) (hv : |m.getAx| ≤ m.p.vxRateLim)
    (hd : 0 ≤ dt) (hc : 0 < m.p.driveConst) (hdt : dt ≤ m.p.driveConst) (hs0 : 0 ≤ m.p.accScale) (hs1 : m.p.accScale ≤ 1)
    (hl : 0 ≤ m.p.vxRateLim) (h : m.step g u dt = some m') :
    Between m.getAx (limited ((m.driveQueue ++ [u.drive]).headD 0) m.p.vxRateLim * m.p.accScale) m'.getAx := by
  have hp := step_kept h
  have e1 : m.getAx = m.state.acc := by simp [Model.getAx, hk]
  have e2 : m'.getAx = m'.state.acc := by simp [Model.getAx, hp.kind, hk]
  rw [e1] at hv
  rw [e1, e2]
  obtain ⟨s, hst, e⟩ := step_delayAcc hk h
  rw [e]
  have ht := towards_free (d := limited (oldest m u).drive m.p.vxRateLim * m.p.accScale) hc
  refine steps_between (s' := s) (ok := fun v => |v| ≤ m.p.vxRateLim) (·.acc)
    (fun v => -(limited v m.p.vxRateLim - limited (oldest m u).drive m.p.vxRateLim * m.p.accScale) / m.p.driveConst) (fun _ _ _ _ => rfl) (fun _ _ => rfl)
    (fun s => calcDelayAcc_acc _ _ _) hc hd hdt (fun v hb => between_abs hb hv (le_trans (scaled_abs hl hs0) ?_)) ?_ hst
  · nlinarith
  · intro v hv
    have := ht v trivial
    simp only [limited_self hv]
    exact this

/-- C96: in one step of DELAY_STEER_VEL the velocity goes towards the oldest command, limited, and not beyond it, if the velocity was
within the limit and the step is not longer than the time constant. -/
theorem C96_speed_partial (m m' : Model) (g : Gear) (u : Input) (dt : ℝ) (hk : m.kind = .delayVel) (hv : |m.getVx| ≤ m.p.vxLim)
    (hd : 0 ≤ dt) (hc : 0 < m.p.driveConst) (hdt : dt ≤ m.p.driveConst) (hl : 0 ≤ m.p.vxRateLim) (hl' : 0 ≤ m.p.vxLim)
    (h : m.step g u dt = some m') :
    Between m.getVx (limited ((m.driveQueue ++ [u.drive]).headD 0) m.p.vxLim) m'.getVx := by
  have hp := step_kept h
  have e1 : m.getVx = m.state.vx := by simp [Model.getVx, hk]
  have e2 : m'.getVx = m'.state.vx := by simp [Model.getVx, hp.kind, hk]
  rw [e1] at hv
  rw [e1, e2]
  have ht := towards_plain (d := limited (oldest m u).drive m.p.vxLim) hc hl
  refine steps_between (ok := fun v => |v| ≤ m.p.vxLim) (·.vx)
    (fun v => limited (-(limited v m.p.vxLim - limited (oldest m u).drive m.p.vxLim) / m.p.driveConst) m.p.vxRateLim) (fun _ _ _ _ => rfl) (fun _ _ => rfl)
    (fun s => calcDelayVel_vx _ _ _) hc hd hdt (fun v hb => between_abs hb hv (limited_abs hl')) ?_ (step_delayVel hk h).1
  intro v hv
  have := ht v trivial
  simp only [limited_self hv]
  exact this

end Verif.Vehicle
