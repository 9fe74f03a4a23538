import Verif.Vehicle.ApproachTheorems
import Verif.Vehicle.MotionTheorems
import Verif.Vehicle.MapTheorems
import Verif.Vehicle.ApproachHistoryTheorems
/-
C95, C98 and C99: the reported acceleration, the turning of the delayed models, and the acceleration map in motion.
-/
namespace Verif.Vehicle
open Classical

/-- Two states that differ in place and steering only; `n` has its wheels straight and looks along the x axis. -/
structure Alike (c : ℝ) (s n : State) : Prop where
  vx : s.vx = n.vx
  acc : s.acc = n.acc
  steer : s.steer = c
  nsteer : n.steer = 0
  nyaw : n.yaw = 0

/-- Two slopes that keep states alike: the heading of the one turns with `κ` times the velocity along the x axis of the other. -/
structure AlikeRate (κ : ℝ) (k l : State) : Prop where
  vx : k.vx = l.vx
  acc : k.acc = l.acc
  steer : k.steer = 0
  nsteer : l.steer = 0
  nyaw : l.yaw = 0
  yaw : k.yaw = l.x * κ

theorem Alike.add {c κ t : ℝ} {s n k l : State} (h : Alike c s n) (h' : AlikeRate κ k l) : Alike c (s.add (k.scale t)) (n.add (l.scale t)) := by
  constructor
  · simp only [State.add, State.scale, h.vx, h'.vx]
  · simp only [State.add, State.scale, h.acc, h'.acc]
  · simp only [State.add, State.scale, h.steer, h'.steer]; ring
  · simp only [State.add, State.scale, h.nsteer, h'.nsteer]; ring
  · simp only [State.add, State.scale, h.nyaw, h'.nyaw]; ring

theorem rungeKutta_alike {f g : State → Option State} {c κ dt : ℝ} {s n s' n' : State}
    (hf : ∀ s n k l, Alike c s n → f s = some k → g n = some l → AlikeRate κ k l) (h : Alike c s n)
    (hs : rungeKutta f dt s = some s') (hn : rungeKutta g dt n = some n') :
    s'.vx = n'.vx ∧ s'.acc = n'.acc ∧ s'.yaw = s.yaw + (n'.x - n.x) * κ := by
  obtain ⟨k1, k2, k3, k4, h1, h2, h3, h4, rfl⟩ := rungeKutta_inv hs
  obtain ⟨l1, l2, l3, l4, g1, g2, g3, g4, rfl⟩ := rungeKutta_inv hn
  have r1 := hf _ _ _ _ h h1 g1
  have r2 := hf _ _ _ _ (h.add r1) h2 g2
  have r3 := hf _ _ _ _ (h.add r2) h3 g3
  have r4 := hf _ _ _ _ (h.add r3) h4 g4
  refine ⟨?_, ?_, ?_⟩
  · simp only [mixed, State.add, State.scale, h.vx, r1.vx, r2.vx, r3.vx, r4.vx]
  · simp only [mixed, State.add, State.scale, h.acc, r1.acc, r2.acc, r3.acc, r4.acc]
  · simp only [mixed, State.add, State.scale, r1.yaw, r2.yaw, r3.yaw, r4.yaw]; ring

theorem steps_alike {f g : State → State} {c κ dt : ℝ} {s n s' n' : State} (hf : ∀ s n, Alike c s n → AlikeRate κ (f s) (g n)) (h : Alike c s n)
    (hs : Steps f dt s s') (hn : Steps g dt n n') : s'.vx = n'.vx ∧ s'.acc = n'.acc ∧ s'.yaw = s.yaw + (n'.x - n.x) * κ := by
  obtain ⟨k1, k2, k3, k4, rfl, rfl, rfl, rfl, rfl⟩ := hs
  obtain ⟨l1, l2, l3, l4, rfl, rfl, rfl, rfl, rfl⟩ := hn
  exact rungeKutta_alike (f := fun s => some (f s)) (g := fun s => some (g s))
    (fun s n k l ha hk hl => by injection hk with hk; injection hl with hl; subst hk hl; exact hf s n ha) h rfl rfl

theorem deadBand_self {b : ℝ} (hb : 0 ≤ b) (x : ℝ) : deadBand (x - x) b = 0 := by
  unfold deadBand
  rw [sub_self, if_neg (by linarith), if_neg (by linarith)]

/-- C98: with a delayed model whose steering has settled on the command, the heading turns by the curvature times the distance that the same
ego would drive with its wheels straight. (A geared model that is stopped by its gear does not turn.) -/
theorem C98_turn (m m' n n' : Model) (g : Gear) (u : Input) (dt δ : ℝ) (hk : m.kind.delayed = true)
    (hn : n = { m with state := { m.state with steer := 0, yaw := 0 }, steerQueue := m.steerQueue.map fun _ => 0 })
    (hq : ∀ x ∈ m.steerQueue, x = δ) (hu : u.steer = δ)
    (hset : m.kind ≠ .delayAccGearedNoGuard → m.state.steer = steerGoal m δ ∧ |m.state.steer| ≤ m.p.steerLim) (hl : 0 ≤ m.p.steerLim)
    (hr : 0 ≤ m.p.steerRateLim) (hb : 0 ≤ m.p.steerBand) (hv : m'.getVx ≠ 0)
    (h : m.step g u dt = some m') (h' : n.step g { u with steer := 0 } dt = some n') :
    m'.getVx = n'.getVx ∧ m'.state.yaw = m.state.yaw + (n'.state.x - n.state.x) * (Real.tan m.state.steer / m.p.wheelbase) := by
  have hkm := step_kept h
  have hkn := step_kept h'
  have ho : (oldest m u).steer = δ := by
    simp only [oldest, hu]
    cases hc : m.steerQueue with
    | nil => rfl
    | cons a l => exact hq a (by rw [hc]; simp)
  have ho' : oldest n { u with steer := 0 } = { oldest m u with steer := 0 } := by
    rw [hn]
    simp only [oldest]
    cases m.steerQueue <;> rfl
  have hnp : n.p = m.p := by rw [hn]
  have hnk : n.kind = m.kind := by rw [hn]
  have hnm : n.map = m.map := by rw [hn]
  have hal : Alike m.state.steer m.state n.state := by rw [hn]; exact ⟨rfl, rfl, rfl, rfl, rfl⟩
  have hgv : m.kind ≠ .idealVel := by intro hc; rw [hc] at hk; cases hk
  rw [getVx_eq (by rw [hkm.kind]; exact hgv)] at hv ⊢
  rw [getVx_eq (m := n') (by rw [hkn.kind, hnk]; exact hgv)]
  have zero : limited 0 m.p.steerRateLim = 0 := limited_self (by simpa using hr)
  have zero' : limited 0 m.p.steerLim = 0 := limited_self (by simpa using hl)
  -- after the gear has been looked at
  have gear : ∀ (s t : State), s.vx = t.vx → m'.state = withGear true { s with vx := limited s.vx m.p.vxLim } m.state g dt →
      n'.state = withGear true { t with vx := limited t.vx m.p.vxLim } n.state g dt →
      m'.state = { s with vx := limited s.vx m.p.vxLim } ∧ n'.state = { t with vx := limited t.vx m.p.vxLim } := by
    intro s t hst e1 e2
    by_cases ha : Agrees g (limited s.vx m.p.vxLim)
    · exact ⟨e1.trans ((withGear_spec _ _ _ _ _).1 ha), e2.trans ((withGear_spec _ _ _ _ _).1 (by rw [← hst]; exact ha))⟩
    · exact absurd (by rw [e1, (withGear_spec _ _ _ _ _).2 ha]; rfl) hv
  have acc : ∀ s n : State, steerGoal m δ = limited δ m.p.steerLim * m.p.steerScale → m.state.steer = steerGoal m δ → Alike m.state.steer s n →
      AlikeRate (Real.tan m.state.steer / m.p.wheelbase) (calcDelayAcc m.p (oldest m u) s) (calcDelayAcc m.p { oldest m u with steer := 0 } n) := by
    intro s n hg hs ha
    refine ⟨?_, ?_, ?_, ?_, ?_, ?_⟩
    · rw [calcDelayAcc_vx, calcDelayAcc_vx, ha.acc]
    · rw [calcDelayAcc_acc, calcDelayAcc_acc, ha.acc]
    · rw [calcDelayAcc_steer, ho, ha.steer, ← hg, ← hs, deadBand_self hb]; simpa using zero
    · rw [calcDelayAcc_steer]
      simp only [ha.nsteer, zero', zero_mul]
      rw [deadBand_self hb]; simpa using zero
    · simp [calcDelayAcc, ha.nsteer]
    · simp only [calcDelayAcc, ha.nyaw, ha.vx, ha.steer, Real.cos_zero]; ring
  cases hm : m.kind <;> rw [hm] at hk <;> first | (simp [Kind.delayed] at hk; done) | skip
  · obtain ⟨hs1, hs2⟩ := hset (by rw [hm]; decide)
    obtain ⟨s, hs, e⟩ := step_delayAcc hm h
    obtain ⟨t, ht, e'⟩ := step_delayAcc (hnk.trans hm) h'
    rw [ho', hnp] at ht
    rw [hnp] at e'
    obtain ⟨a1, a2, a3⟩ := steps_alike (fun s n ha => acc s n (by simp [steerGoal, hm]) hs1 ha) hal hs ht
    rw [e, e']
    exact ⟨by simp only [a1], a3⟩
  · obtain ⟨hs1, hs2⟩ := hset (by rw [hm]; decide)
    obtain ⟨s, hs, e⟩ := step_delayAccGeared hm h
    obtain ⟨t, ht, e'⟩ := step_delayAccGeared (hnk.trans hm) h'
    rw [ho', hnp] at ht
    rw [hnp] at e'
    obtain ⟨a1, a2, a3⟩ := steps_alike (fun s n ha => acc s n (by simp [steerGoal, hm]) hs1 ha) hal hs ht
    obtain ⟨e, e'⟩ := gear s t a1 e e'
    rw [e, e']
    exact ⟨by simp only [a1], a3⟩
  · obtain ⟨s, d, hd, hs, e1, -, -, e2, -⟩ := step_noGuard hm h
    obtain ⟨t, d', hd', hs', e1', e3', -, -, -, e4', -⟩ := step_noGuard (hnk.trans hm) h'
    rw [ho', hnp] at hd'
    rw [hnp] at e1'
    have hst : n.state.vx = m.state.vx ∧ n.state.pedal = m.state.pedal ∧ n.state.yaw = 0 := by rw [hn]; exact ⟨rfl, rfl, rfl⟩
    have hvx : t.vx = s.vx ∧ t.pedal = s.pedal := by
      rw [hs, hs', hd, hd']
      simp only [State.add, State.scale, calcNoGuard, hst]
      exact ⟨rfl, trivial⟩
    rw [e1, e1', hvx.1, hvx.2, hst.1, e2, e3', hs, hs', hd, hd']
    refine ⟨rfl, ?_⟩
    simp only [State.add, State.scale, calcNoGuard, hst, Real.cos_zero]
    ring
  · obtain ⟨hs1, hs2⟩ := hset (by rw [hm]; decide)
    obtain ⟨s, hs, e⟩ := step_map hm h
    obtain ⟨t, ht, e'⟩ := step_map (hnk.trans hm) h'
    rw [ho', hnp, hnm] at ht
    rw [hnp] at e'
    have hg : steerGoal m δ = limited δ m.p.steerLim := by simp [steerGoal, hm]
    obtain ⟨a1, a2, a3⟩ := rungeKutta_alike (κ := Real.tan m.state.steer / m.p.wheelbase) (fun s n k l ha hc hc' => by
      obtain ⟨c1, q1, rfl⟩ := calcMap_inv hc
      obtain ⟨c2, q2, rfl⟩ := calcMap_inv hc'
      have hcc : c1 = c2 := by
        rw [ha.vx] at q1
        simp only at q2
        exact Option.some.inj (q1.symm.trans q2)
      refine ⟨by simp only [ha.acc], by simp only [ha.acc, hcc], ?_, ?_, by simp [ha.nsteer], ?_⟩
      · simp only [ho, ha.steer, clamp_eq hl, clamp_eq hr, ← hg, ← hs1]
        simpa using zero
      · simp only [ha.nsteer, clamp_eq hl, clamp_eq hr, zero']
        simpa using zero
      · simp only [ha.nyaw, ha.vx, ha.steer, Real.cos_zero]; ring) hal hs ht
    obtain ⟨e, e'⟩ := gear s t a1 e e'
    rw [e, e']
    exact ⟨by simp only [a1], a3⟩
  · obtain ⟨hs1, hs2⟩ := hset (by rw [hm]; decide)
    obtain ⟨hs, e⟩ := step_delayVel hm h
    obtain ⟨ht, e'⟩ := step_delayVel (hnk.trans hm) h'
    rw [ho', hnp] at ht
    have hg : steerGoal m δ = limited δ m.p.steerLim := by simp [steerGoal, hm]
    obtain ⟨a1, a2, a3⟩ := steps_alike (κ := Real.tan m.state.steer / m.p.wheelbase) (fun s n ha => by
      refine ⟨?_, rfl, ?_, ?_, ?_, ?_⟩
      · rw [calcDelayVel_vx, calcDelayVel_vx, ha.vx]
      · rw [calcDelayVel_steer, ho, ha.steer, ← hg, ← hs1, limited_self hs2, deadBand_self hb]; simpa using zero
      · rw [calcDelayVel_steer]
        simp only [ha.nsteer]
        rw [deadBand_self hb]; simpa using zero
      · simp only [calcDelayVel, sat_eq, ha.nsteer, zero', Real.tan_zero]; ring
      · simp only [calcDelayVel, sat_eq, ha.nyaw, ha.vx, ha.steer, limited_self hs2, Real.cos_zero]; ring) hal hs ht
    exact ⟨a1, a3⟩

example : ∃ m' n', ({ kind := .delayVel, p := sample, state := { vx := 3, steer := 1 / 2 } } : Model).step (.drive 0) { drive := 4, steer := 1 / 2 } (1 / 10) = some m' ∧
    ({ kind := .delayVel, p := sample, state := { vx := 3, steer := 0, yaw := 0 } } : Model).step (.drive 0) { drive := 4, steer := 0 } (1 / 10) = some n' :=
  ⟨_, _, rfl, rfl⟩

/-- C99: if the map gives the acceleration `d` for the command, whatever the velocity, then in one step the acceleration goes towards `d` and not
beyond it. The step is not longer than the time constant and does not end in a stop by the gear. -/
theorem C99_followed (m m' : Model) (g : Gear) (u : Input) (dt d : ℝ) (hk : m.kind = .delayMapAccGeared) (hrows : m.map.rows ≠ [])
    (hmap : ∀ v, m.map.getAcceleration (limited ((m.driveQueue ++ [u.drive]).headD 0) m.p.vxRateLim) v = some d)
    (hv : |m.getAx| ≤ m.p.vxRateLim) (hdl : |d| ≤ m.p.vxRateLim) (hd : 0 ≤ dt) (hc : 0 < m.p.driveConst) (hdt : dt ≤ m.p.driveConst)
    (hl : 0 ≤ m.p.vxRateLim) (hne : m'.getVx ≠ 0) (h : m.step g u dt = some m') : Between m.getAx d m'.getAx := by
  have hp := step_kept h
  have e1 : m.getAx = m.state.acc := by simp [Model.getAx, hk]
  have e2 : m'.getAx = m'.state.acc := by simp [Model.getAx, hp.kind, hk]
  rw [getVx_eq (by rw [hp.kind, hk]; decide)] at hne
  rw [e1] at hv
  rw [e1, e2]
  obtain ⟨s, hs, e⟩ := step_map hk h
  have hs' : m'.state.acc = s.acc := by
    by_cases ha : Agrees g (limited s.vx m.p.vxLim)
    · rw [e, (withGear_spec _ _ _ _ _).1 ha]
    · exact absurd (by rw [e, (withGear_spec _ _ _ _ _).2 ha]; rfl) hne
  rw [hs']
  obtain ⟨k1, k2, k3, k4, h1, h2, h3, h4, rfl⟩ := rungeKutta_inv hs
  have hacc : ∀ s k, calcMap m.p m.map (oldest m u) s = some k → k.acc = -(limited s.acc m.p.vxRateLim - d) / m.p.driveConst := by
    intro s k hk
    obtain ⟨c, q, rfl⟩ := calcMap_inv hk
    rw [if_neg hrows, clamp_eq hl] at q
    have := (hmap _).symm.trans q
    simp only [clamp_eq hl, Option.some.inj this]
  have ht := towards_free (d := d) hc
  refine rk_between (φ := fun v => -(limited v m.p.vxRateLim - d) / m.p.driveConst) (ok := fun v => |v| ≤ m.p.vxRateLim) hc hd hdt
    (fun v hb => between_abs hb hv hdl) ?_ k1.acc k2.acc k3.acc k4.acc (hacc _ _ h1) (hacc _ _ h2) (hacc _ _ h3) (hacc _ _ h4)
  intro v hv
  have := ht v trivial
  simp only [limited_self hv]
  exact this

/-- A map with the same acceleration for a command at every velocity. -/
example : ∀ v, (⟨[0, 10], [-2, 3], [[-1, -1], [4, 4]]⟩ : AccMap).getAcceleration 3 v = some 4 := by
  intro v
  have hv : ([0, 10] : List ℝ).Pairwise (· < ·) := by simp
  have ha : ([-2, 3] : List ℝ).Pairwise (· < ·) := by simp; norm_num
  have hr : (⟨[0, 10], [-2, 3], [[-1, -1], [4, 4]]⟩ : AccMap).Rectangular := by simp [AccMap.Rectangular]
  have hl : 2 ≤ ([0, 10] : List ℝ).length := by simp
  rw [C99_outside _ 3 v hv ha hl (by simp)]
  obtain ⟨d1, d2⟩ := clip_mem hv hl v
  obtain ⟨j, hj, v1, v2⟩ := cell_exists hl d1 d2
  have hc : min (max 3 (([-2, 3] : List ℝ).getD 0 0)) (([-2, 3] : List ℝ).getD (([-2, 3] : List ℝ).length - 1) 0) = 3 := by norm_num
  simp only [hc]
  rw [C99_cell _ 3 _ 0 j hr hv ha (by simp) hj (by norm_num) (by norm_num) v1 v2]
  have h0 : j = 0 := by simp at hj; omega
  subst h0
  congr 1
  simp only [AccMap.bilinear, AccMap.entry, share]
  norm_num
  ring

/-- C95: the reported acceleration times the step is the change of the reported speed: for IDEAL_STEER_VEL after its first step, for
IDEAL_STEER_ACC and, with steps of at least 1e-5, its geared variant, for DELAY_STEER_VEL and for the model without fall guard. -/
theorem C95_reported_change (m0 m m' : Model) (g0 g : Gear) (u0 u : Input) (dt : ℝ) (hd : 1e-5 ≤ dt) (h0 : m0.step g0 u0 dt = some m)
    (hk : m0.kind = .idealVel ∨ m0.kind = .idealAcc ∨ m0.kind = .idealAccGeared ∨ m0.kind = .delayVel ∨ m0.kind = .delayAccGearedNoGuard)
    (h : m.step g u dt = some m') : m'.getAx * dt = m'.getVx - m.getVx := by
  have hk0 := step_kept h0
  have hp := step_kept h
  have hd0 : dt ≠ 0 := by intro hc; rw [hc] at hd; norm_num at hd
  rcases hk with hk | hk | hk | hk | hk
  · obtain ⟨-, -, e0⟩ := step_idealVel hk h0
    obtain ⟨-, e1, -⟩ := step_idealVel (hk0.kind.trans hk) h
    simp only [Model.getAx, Model.getVx, hp.kind, hk0.kind, hk, e1, e0, hp.input, hk0.input]
    field_simp
  · obtain ⟨e1, -⟩ := C98_ideal_acc m m' g u dt (hk0.kind.trans hk) h
    simp only [Model.getAx, Model.getVx, hp.kind, hk0.kind, hk, e1, hp.input]
    ring
  · obtain ⟨s, -, -, e1⟩ := step_idealAccGeared (hk0.kind.trans hk) h
    simp only [Model.getAx, Model.getVx, hp.kind, hk0.kind, hk, e1, max_eq_left hd]
    field_simp
  · obtain ⟨-, e1⟩ := step_delayVel (hk0.kind.trans hk) h
    simp only [Model.getAx, Model.getVx, hp.kind, hk0.kind, hk, e1]
    field_simp
  · obtain ⟨s, d, -, -, -, -, -, -, -, -, e1⟩ := step_noGuard (hk0.kind.trans hk) h
    simp only [Model.getAx, Model.getVx, hp.kind, hk0.kind, hk, e1]
    field_simp

end Verif.Vehicle
