import Verif.Vehicle.MapTheorems
/-
C100: the model without fall guard, on slopes and under braking.
-/
namespace Verif.Vehicle
open Classical

theorem limited_nonneg {v l : ℝ} (hl : 0 ≤ l) (h : 0 ≤ v) : 0 ≤ limited v l := le_max_of_le_right (le_min h hl)

theorem limited_nonpos {v l : ℝ} (hl : 0 ≤ l) (h : v ≤ 0) : limited v l ≤ 0 :=
  max_le (by linarith) (le_trans (min_le_left _ _) h)

/-- The velocity after a step, with the acceleration spelled out. -/
theorem noGuard_vx {m m' : Model} {g : Gear} {u : Input} {dt : ℝ} (hk : m.kind = .delayAccGearedNoGuard) (hv : |m.state.vx| ≤ m.p.vxLim)
    (h : m.step g u dt = some m') :
    ∃ a, a = pedalAcc { oldest m u with gear := u.gear, slope := u.slope } m.state.vx (limited m.state.pedal m.p.vxRateLim) ∧
      m'.getVx = (if m.state.vx * limited (m.state.vx + a * dt) m.p.vxLim ≤ 0 ∧ |u.slope| ≤ -m'.state.pedal then 0
        else limited (m.state.vx + a * dt) m.p.vxLim) ∧
      m'.state.x = m.state.x + m.state.vx * Real.cos m.state.yaw * dt ∧ m'.state.y = m.state.y + m.state.vx * Real.sin m.state.yaw * dt ∧
      m'.state.pedal = m.state.pedal + -(limited m.state.pedal m.p.vxRateLim -
        limited ((m.driveQueue ++ [u.drive]).headD 0) m.p.vxRateLim * m.p.accScale) / m.p.driveConst * dt := by
  have hkp := step_kept h
  obtain ⟨s, d, hd, hs, hvx, hx, hy, _, _, hp, _⟩ := step_noGuard hk h
  refine ⟨_, rfl, ?_, ?_, ?_, ?_⟩
  · rw [getVx_eq (by rw [hkp.kind, hk]; simp), hvx, hp, hs, hd]
    simp only [State.add, State.scale, calcNoGuard, sat_eq, limited_self hv]
  · rw [hx, hs, hd]
    simp only [State.add, State.scale, calcNoGuard, sat_eq, limited_self hv]
  · rw [hy, hs, hd]
    simp only [State.add, State.scale, calcNoGuard, sat_eq, limited_self hv]
  · rw [hp, hs, hd]
    simp only [State.add, State.scale, calcNoGuard, sat_eq, oldest]

/-- C100: an ego at rest whose brake outweighs the slope stays where it is, in every gear. -/
theorem C100_hold (m m' : Model) (g : Gear) (u : Input) (dt : ℝ) (hk : m.kind = .delayAccGearedNoGuard) (hl : 0 ≤ m.p.vxLim)
    (hv : m.state.vx = 0) (hp : |u.slope| ≤ -m.state.pedal) (hp' : |u.slope| ≤ m.p.vxRateLim) (h : m.step g u dt = some m') :
    m'.getVx = 0 ∧ m'.state.x = m.state.x ∧ m'.state.y = m.state.y := by
  obtain ⟨a, ha, hvx, hx, hy, _⟩ := noGuard_vx hk (by rw [hv, abs_zero]; exact hl) h
  have hlp : |u.slope| ≤ -limited m.state.pedal m.p.vxRateLim := by
    unfold limited
    rw [le_neg]
    have h1 : min m.state.pedal m.p.vxRateLim ≤ -|u.slope| := le_trans (min_le_left _ _) (by linarith)
    exact max_le (by linarith) h1
  have ha0 : a = 0 := by
    rw [ha, hv]
    simp only [pedalAcc]
    by_cases h0 : limited m.state.pedal m.p.vxRateLim ≥ 0
    · have hz : limited m.state.pedal m.p.vxRateLim = 0 := le_antisymm (by linarith [abs_nonneg u.slope]) h0
      have hs : u.slope = 0 := abs_eq_zero.mp (le_antisymm (by rw [hz] at hlp; simpa using hlp) (abs_nonneg _))
      simp [hz, hs]
    · rw [if_neg h0]
      simp [hlp]
  refine ⟨?_, ?_, ?_⟩
  · rw [hvx, hv, ha0]
    simp [limited_zero hl]
  · rw [hx, hv]; ring
  · rw [hy, hv]; ring

/-- C100: while the brake outweighs the slope, before and after the step, the ego does not get faster and does not start to go the other
way, in every gear. -/
theorem C100_brake (m m' : Model) (g : Gear) (u : Input) (dt : ℝ) (hk : m.kind = .delayAccGearedNoGuard) (hd : 0 ≤ dt)
    (hv : |m.state.vx| ≤ m.p.vxLim) (hp : m.state.pedal < 0) (hb : |u.slope| ≤ -m.state.pedal) (hr : 0 < m.p.vxRateLim)
    (hr' : |u.slope| ≤ m.p.vxRateLim) (h : m.step g u dt = some m') (hb' : |u.slope| ≤ -m'.state.pedal) :
    (0 ≤ m.state.vx → 0 ≤ m'.getVx ∧ m'.getVx ≤ m.state.vx) ∧ (m.state.vx ≤ 0 → m.state.vx ≤ m'.getVx ∧ m'.getVx ≤ 0) := by
  have hl : 0 ≤ m.p.vxLim := le_trans (abs_nonneg _) hv
  obtain ⟨a, ha, hvx, _⟩ := noGuard_vx hk hv h
  have hlp : |u.slope| ≤ -limited m.state.pedal m.p.vxRateLim := by
    unfold limited
    rw [le_neg]
    have h1 : min m.state.pedal m.p.vxRateLim ≤ -|u.slope| := le_trans (min_le_left _ _) (by linarith)
    exact max_le (by linarith) h1
  have hlt : limited m.state.pedal m.p.vxRateLim < 0 := by
    unfold limited
    exact max_lt (by linarith) (lt_of_le_of_lt (min_le_left _ _) hp)
  obtain ⟨s1, s2⟩ := abs_le.mp (le_refl |u.slope|)
  simp only [pedalAcc] at ha
  rw [if_neg (not_le.mpr hlt)] at ha
  have hb2 : ∀ x, (if m.state.vx * x ≤ 0 ∧ |u.slope| ≤ -m'.state.pedal then (0 : ℝ) else x) = if m.state.vx * x ≤ 0 then 0 else x := by
    intro x
    by_cases hx : m.state.vx * x ≤ 0
    · simp [hx, hb']
    · simp [hx]
  rw [hb2] at hvx
  rcases lt_trichotomy m.state.vx 0 with h0 | h0 | h0
  · rw [if_neg (not_lt.mpr (le_of_lt h0)), if_pos h0] at ha
    refine ⟨fun h => absurd h (not_le.mpr h0), fun _ => ?_⟩
    have ha0 : 0 ≤ a := by rw [ha]; linarith
    have hge : m.state.vx ≤ limited (m.state.vx + a * dt) m.p.vxLim := by
      calc m.state.vx = limited m.state.vx m.p.vxLim := (limited_self hv).symm
        _ ≤ _ := limited_mono (by nlinarith)
    rw [hvx]
    split
    · exact ⟨le_of_lt h0, le_refl _⟩
    · rename_i hc
      refine ⟨hge, ?_⟩
      by_contra hpos
      exact hc (mul_nonpos_of_nonpos_of_nonneg (le_of_lt h0) (le_of_lt (not_le.mp hpos)))
  · rw [if_neg (by linarith), if_neg (by linarith), if_pos hlp] at ha
    have : m'.getVx = 0 := by rw [hvx, h0]; simp
    rw [this, h0]
    simp
  · rw [if_pos h0] at ha
    refine ⟨fun _ => ?_, fun h => absurd h (not_le.mpr h0)⟩
    have ha0 : a ≤ 0 := by rw [ha]; linarith
    have hge : limited (m.state.vx + a * dt) m.p.vxLim ≤ m.state.vx := by
      calc _ ≤ limited m.state.vx m.p.vxLim := limited_mono (by nlinarith)
        _ = m.state.vx := limited_self hv
    rw [hvx]
    split
    · exact ⟨le_refl _, le_of_lt h0⟩
    · rename_i hc
      refine ⟨?_, hge⟩
      by_contra hneg
      exact hc (mul_nonpos_of_nonneg_of_nonpos (le_of_lt h0) (le_of_lt (not_le.mp hneg)))

/-- C100: on level ground, with the accelerator pressed or both pedals free, the ego does not lose speed in the direction of its gear, and
keeps its velocity in NEUTRAL, PARK and NONE. -/
theorem C100_drive (m m' : Model) (g : Gear) (u : Input) (dt : ℝ) (hk : m.kind = .delayAccGearedNoGuard) (hd : 0 ≤ dt)
    (hv : |m.state.vx| ≤ m.p.vxLim) (hp : 0 ≤ m.state.pedal) (hr : 0 ≤ m.p.vxRateLim) (hs : u.slope = 0) (h : m.step g u dt = some m') :
    (Forward u.gear → 0 ≤ m.state.vx → m.state.vx ≤ m'.getVx) ∧ (Backward u.gear → m.state.vx ≤ 0 → m'.getVx ≤ m.state.vx) ∧
    (u.gear = .neutral ∨ u.gear = .park ∨ u.gear = .none → m'.getVx = m.state.vx) := by
  obtain ⟨a, ha, hvx, _⟩ := noGuard_vx hk hv h
  have hlp : 0 ≤ limited m.state.pedal m.p.vxRateLim := limited_nonneg hr hp
  simp only [pedalAcc] at ha
  rw [if_pos hlp] at ha
  refine ⟨fun hg h0 => ?_, fun hg h0 => ?_, fun hg => ?_⟩
  · have ha0 : 0 ≤ a := by
      rw [ha, hs]
      rcases hg with ⟨k, e⟩ | e | e <;> simp [e, hlp]
    have hge : m.state.vx ≤ limited (m.state.vx + a * dt) m.p.vxLim := by
      calc m.state.vx = limited m.state.vx m.p.vxLim := (limited_self hv).symm
        _ ≤ _ := limited_mono (by nlinarith)
    rw [hvx]
    split
    · rename_i hc
      by_contra hpos
      have := mul_pos (not_le.mp hpos) (lt_of_lt_of_le (not_le.mp hpos) hge)
      linarith [hc.1]
    · exact hge
  · have ha0 : a ≤ 0 := by
      rw [ha, hs]
      rcases hg with e | e <;> simp [e, hlp]
    have hge : limited (m.state.vx + a * dt) m.p.vxLim ≤ m.state.vx := by
      calc _ ≤ limited m.state.vx m.p.vxLim := limited_mono (by nlinarith)
        _ = m.state.vx := limited_self hv
    rw [hvx]
    split
    · rename_i hc
      by_contra hneg
      have hn := not_le.mp hneg
      have := mul_pos_of_neg_of_neg hn (lt_of_le_of_lt hge hn)
      linarith [hc.1]
    · exact hge
  · have ha0 : a = 0 := by
      rw [ha, hs]
      rcases hg with e | e | e <;> simp [e]
    rw [hvx, ha0, zero_mul, add_zero, limited_self hv]
    split
    · rename_i hc
      nlinarith [hc.1, sq_nonneg m.state.vx, mul_self_eq_zero.mp (le_antisymm hc.1 (mul_self_nonneg _))]
    · rfl

/-- C100 is violated in PARK: an ego that rolls with 10 m/s on level ground when it is put into PARK rolls on with 10 m/s for ever. -/
theorem C100_park_rolls_violated : ∃ m : Model, m.kind = .delayAccGearedNoGuard ∧ m.getVx = 10 ∧
    ∀ n, ∃ m', m.run (1 / 30) (List.replicate n (.park, { gear := .park })) = some m' ∧ m'.getVx = 10 := by
  refine ⟨{ kind := .delayAccGearedNoGuard, p := sample, state := { vx := 10 } }, rfl, rfl, ?_⟩
  have key : ∀ (n : Nat) (m : Model), m.kind = .delayAccGearedNoGuard → m.p = sample → m.state.vx = 10 → m.state.pedal = 0 → m.driveQueue = [] →
      ∃ m', m.run (1 / 30) (List.replicate n (.park, { gear := .park })) = some m' ∧ m'.getVx = 10 := by
    intro n
    induction n with
    | zero => intro m hk _ hv _ _; exact ⟨m, rfl, by rw [getVx_eq (by rw [hk]; simp), hv]⟩
    | succ n ih =>
      intro m hk hp hv hpd hq
      obtain ⟨m1, hs⟩ := step_total m (by rw [hk]; simp) .park { gear := .park } (1 / 30)
      have hkp := step_kept hs
      have hlim : |m.state.vx| ≤ m.p.vxLim := by rw [hv, hp]; simp only [sample]; norm_num
      have hvx := (C100_drive m m1 .park { gear := .park } (1 / 30) hk (by norm_num) hlim (by rw [hpd]) (by rw [hp]; simp [sample])
        rfl hs).2.2 (Or.inr (Or.inl rfl))
      rw [getVx_eq (by rw [hkp.kind, hk]; simp)] at hvx
      obtain ⟨_, _, _, _, _, hped⟩ := noGuard_vx hk hlim hs
      have hped' : m1.state.pedal = 0 := by
        rw [hped, hpd, hq, hp]
        simp [limited_zero, sample]
      obtain ⟨m2, hr, hv2⟩ := ih m1 (hkp.kind.trans hk) (hkp.p.trans hp) (hvx.trans hv) hped' (by rw [hkp.driveQueue (by rw [hk]; rfl), hq]; rfl)
      refine ⟨m2, ?_, hv2⟩
      rw [List.replicate_succ]
      simp only [Model.run, hs, Option.bind_eq_bind, Option.bind_some, hr]
  exact fun n => key n _ rfl rfl rfl rfl rfl

/-- C100 is violated in PARK on a slope: with a slight brake the ego rolls off, although with no pedal at all it would stay. -/
theorem C100_park_slope_violated : ∃ m : Model, m.kind = .delayAccGearedNoGuard ∧ m.getVx = 0 ∧
    (∃ m', m.step .park { gear := .park, slope := 1, drive := -(1 / 10) } (1 / 10) = some m' ∧ m'.getVx = 1 / 10) ∧
    ∃ m', ({ m with state := {} }).step .park { gear := .park, slope := 1 } (1 / 10) = some m' ∧ m'.getVx = 0 := by
  refine ⟨{ kind := .delayAccGearedNoGuard, p := sample, state := { pedal := -(1 / 10) } }, rfl, rfl, ?_, ?_⟩
  · obtain ⟨m', h⟩ := step_total { kind := .delayAccGearedNoGuard, p := sample, state := { pedal := -(1 / 10) } } (by simp) .park
      { gear := .park, slope := 1, drive := -(1 / 10) } (1 / 10)
    obtain ⟨a, ha, hvx, _, _, hp⟩ := noGuard_vx rfl (by simp [sample]) h
    refine ⟨m', h, ?_⟩
    have e : limited (-(1 / 10)) 7 = -(1 / 10) := limited_self (by rw [abs_le]; constructor <;> norm_num)
    have hp' : m'.state.pedal = -(1 / 10) := by
      rw [hp]; simp only [sample, List.nil_append, List.headD_cons, e]; norm_num
    have ha' : a = 1 := by
      rw [ha]; simp only [sample, e, pedalAcc]
      norm_num
    rw [hvx, hp', ha', if_neg (by norm_num)]
    simp only [sample]
    rw [limited_self (by rw [abs_le]; constructor <;> norm_num)]; norm_num
  · obtain ⟨m', h⟩ := step_total { kind := .delayAccGearedNoGuard, p := sample } (by simp) .park { gear := .park, slope := 1 } (1 / 10)
    obtain ⟨a, ha, hvx, _, _, hp⟩ := noGuard_vx rfl (by simp [sample]) h
    refine ⟨m', h, ?_⟩
    have ha' : a = 0 := by
      rw [ha]; simp [pedalAcc, sample, limited_zero]
    rw [hvx, ha']
    simp [limited_zero, sample]

/-- C100 is violated when the brake is released near standstill: in DRIVE on level ground the ego goes backward. -/
theorem C100_drive_backward_violated : ∃ (m m' : Model), m.kind = .delayAccGearedNoGuard ∧ 0 < m.getVx ∧
    m.step (.drive 0) { gear := .drive 0, drive := 7 } (1 / 20) = some m' ∧ m'.getVx < 0 := by
  let p : Params := ⟨50, 1, 7, 5, 3, 0, 3 / 100, 0, 1, 0, 0, 1, 1⟩
  refine ⟨{ kind := .delayAccGearedNoGuard, p, state := { vx := 1 / 100, pedal := -1 } }, ?_⟩
  obtain ⟨m', h⟩ := step_total { kind := .delayAccGearedNoGuard, p, state := { vx := 1 / 100, pedal := -1 } } (by simp) (.drive 0)
    { gear := .drive 0, drive := 7 } (1 / 20)
  have hlim : |(1 / 100 : ℝ)| ≤ 50 := by rw [abs_le]; constructor <;> norm_num
  obtain ⟨a, ha, hvx, _, _, hp⟩ := noGuard_vx rfl hlim h
  refine ⟨m', rfl, by simp only [Model.getVx]; norm_num, h, ?_⟩
  have e1 : limited (-1) 7 = -1 := limited_self (by rw [abs_le]; constructor <;> norm_num)
  have e2 : limited 7 7 = 7 := limited_self (by rw [abs_le]; constructor <;> norm_num)
  have hp' : 0 < m'.state.pedal := by
    rw [hp]; simp only [p, List.nil_append, List.headD_cons, e1, e2]; norm_num
  have ha' : a = -1 := by
    rw [ha]; simp only [p, e1, pedalAcc]
    norm_num
  rw [hvx, ha', if_neg (by rintro ⟨_, h⟩; simp only [abs_zero] at h; linarith)]
  simp only [p]
  rw [limited_self (by rw [abs_le]; constructor <;> norm_num)]; norm_num

/-- The hypotheses of the theorems above are met: braking down at 10 m/s on a slope of 1 m/s², and at rest. -/
example : ∃ m m' : Model, m.kind = .delayAccGearedNoGuard ∧ m.step (.drive 0) { gear := .drive 0, slope := 1, drive := -5 } (1 / 30) = some m' ∧
    m.state.vx = 10 ∧ m.state.pedal = -5 ∧ |(1 : ℝ)| ≤ -m.state.pedal ∧ |(1 : ℝ)| ≤ -m'.state.pedal := by
  refine ⟨{ kind := .delayAccGearedNoGuard, p := sample, state := { vx := 10, pedal := -5 } }, ?_⟩
  obtain ⟨m', h⟩ := step_total { kind := .delayAccGearedNoGuard, p := sample, state := { vx := 10, pedal := -5 } } (by simp) (.drive 0)
    { gear := .drive 0, slope := 1, drive := -5 } (1 / 30)
  have hlim : |(10 : ℝ)| ≤ 50 := by rw [abs_le]; constructor <;> norm_num
  obtain ⟨_, _, _, _, _, hp⟩ := noGuard_vx rfl hlim h
  refine ⟨m', rfl, h, rfl, rfl, by norm_num, ?_⟩
  have e1 : limited (-5) 7 = -5 := limited_self (by rw [abs_le]; constructor <;> norm_num)
  rw [hp]; simp only [sample, List.nil_append, List.headD_cons, e1]; norm_num

end Verif.Vehicle
