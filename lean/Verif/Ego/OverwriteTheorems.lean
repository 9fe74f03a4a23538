import Verif.Ego.PoseTheorems
/-
C102: an ego that is overwritten is where it is put and moves as it is told.
-/
namespace Verif.Ego
open Classical
open Verif.Vehicle Verif.Geometry

/-- The members that an overwriting leaves as they are. -/
theorem overwrite_eq (e : Sim) (road : Pose → Option Lane) (g : Given) (time : Option ℝ) (dt : ℝ) (junk : ℝ) :
    e.overwrite road g time dt true junk =
      { e with relative := e.toLocal g.pose.position, model := { e.model with state := e.overwritten g (e.toLocal g.pose.position) junk } : Sim }.updateStatus
        road time dt := rfl

theorem overwrite_place_aux (e : Sim) (m : Model) (road : Pose → Option Lane) (p : Pt) (time : Option ℝ) (dt : ℝ)
    (hu : Geometry.Unit e.initial.orientation) :
    ({ e with relative := e.toLocal p, model := m : Sim }.updateStatus road time dt).status.pose.position.x = p.x ∧
    ({ e with relative := e.toLocal p, model := m : Sim }.updateStatus road time dt).status.pose.position.y = p.y ∧
    (({ e with relative := e.toLocal p, model := m : Sim }.updateStatus road time dt).status.lane = none →
      ({ e with relative := e.toLocal p, model := m : Sim }.updateStatus road time dt).status.pose.position.z = p.z) := by
  have hp : (Sim.getCurrentPose { e with relative := e.toLocal p, model := m : Sim }).position = p := by
    unfold Sim.getCurrentPose Sim.toLocal
    simp only
    rw [rotate_conj' hu]
    unfold Pt.add Pt.sub
    ext <;> simp
  obtain ⟨e1, -⟩ := updateStatus_eq { e with relative := e.toLocal p, model := m : Sim } road time dt
  rw [e1]
  obtain ⟨x1, x2⟩ := onLane_xy (Sim.getCurrentPose { e with relative := e.toLocal p, model := m : Sim })
    (road (Sim.getCurrentPose { e with relative := e.toLocal p, model := m : Sim }))
  refine ⟨by simp only [x1, hp], by simp only [x2, hp], fun hn => ?_⟩
  simp only at hn
  simp only [hn, onLane, hp]

/-- C102: an overwritten ego is reported where it was put, before and after the start of the scenario; on a lane only its height is changed, to
that of the lane. -/
theorem C102_place (e : Sim) (road : Pose → Option Lane) (g : Given) (time : Option ℝ) (dt : ℝ) (started : Bool) (junk : ℝ)
    (hu : Geometry.Unit e.initial.orientation) :
    let s := (e.overwrite road g time dt started junk).status
    s.pose.position.x = g.pose.position.x ∧ s.pose.position.y = g.pose.position.y ∧
    (s.lane = none → s.pose.position = g.pose.position) ∧ ∀ lane, s.lane = some lane → s.pose.position.z = lane.pose.position.z := by
  have key : ∃ m, e.overwrite road g time dt started junk = { e with relative := e.toLocal g.pose.position, model := m : Sim }.updateStatus road time dt := by
    cases started
    · exact ⟨e.model, rfl⟩
    · exact ⟨_, overwrite_eq e road g time dt junk⟩
  obtain ⟨m, hm⟩ := key
  rw [hm]
  obtain ⟨h1, h2, h3⟩ := overwrite_place_aux e m road g.pose.position time dt hu
  refine ⟨h1, h2, fun hn => ?_, fun lane hl => ?_⟩
  · ext
    · exact h1
    · exact h2
    · exact h3 hn
  · obtain ⟨e1, -⟩ := updateStatus_eq { e with relative := e.toLocal g.pose.position, model := m : Sim } road time dt
    rw [e1] at hl ⊢
    simp only at hl
    simp only [hl, onLane]

theorem yawOf_upright (δ : ℝ) : Real.cos (yawOf (upright δ)) = Real.cos δ ∧ Real.sin (yawOf (upright δ)) = Real.sin δ := by
  have hy : yawOf (upright δ) = atan2 (Real.sin δ) (Real.cos δ) := by
    unfold yawOf
    rw [rotate_upright]
    simp
  have h1 : Real.sqrt (Real.cos δ ^ 2 + Real.sin δ ^ 2) = 1 := by
    rw [add_comm, Real.sin_sq_add_cos_sq, Real.sqrt_one]
  have c := atan2_cos (y := Real.sin δ) (x := Real.cos δ)
  have s := atan2_sin (y := Real.sin δ) (x := Real.cos δ)
  rw [h1, one_mul] at c s
  rw [hy]
  exact ⟨c, s⟩

theorem overwritten_yaw (e : Sim) (g : Given) (p : Pt) (junk : ℝ) :
    (e.overwritten g p junk).yaw = yawOf (e.initial.orientation.conj.mul g.pose.orientation) := by
  unfold Sim.overwritten; cases e.model.kind <;> rfl

/-- C102: an ego that was spawned upright and is overwritten with an upright pose after the start of the scenario is, off the lanes, turned
as the given pose is, whatever the two headings. -/
theorem C102_heading (e : Sim) (road : Pose → Option Lane) (g : Given) (time : Option ℝ) (dt θ ψ : ℝ) (junk : ℝ)
    (hi : e.initial.orientation = upright θ) (hg : g.pose.orientation = upright ψ)
    (hn : (e.overwrite road g time dt true junk).status.lane = none) :
    SameTurn (e.overwrite road g time dt true junk).status.pose.orientation g.pose.orientation := by
  rw [overwrite_eq] at hn ⊢
  obtain ⟨e1, -⟩ := updateStatus_eq { e with relative := e.toLocal g.pose.position, model := { e.model with state := e.overwritten g (e.toLocal g.pose.position) junk } : Sim } road time dt
  rw [e1] at hn ⊢
  simp only at hn
  simp only [hn, onLane]
  obtain ⟨-, -, q⟩ := currentPose_upright (e := { e with relative := e.toLocal g.pose.position, model := { e.model with state := e.overwritten g (e.toLocal g.pose.position) junk } : Sim }) (θ := θ) hi
  rw [q]
  simp only [overwritten_yaw]
  rw [hi, hg, conj_upright, upright_mul]
  obtain ⟨c, s⟩ := yawOf_upright (-θ + ψ)
  have hc : Real.cos (θ + yawOf (upright (-θ + ψ))) = Real.cos ψ := by
    rw [Real.cos_add, c, s, ← Real.cos_add]; congr 1; ring
  have hs : Real.sin (θ + yawOf (upright (-θ + ψ))) = Real.sin ψ := by
    rw [Real.sin_add, c, s, ← Real.sin_add]; congr 1; ring
  intro v
  rw [rotate_upright, rotate_upright, hc, hs]

theorem overwrite_model (e : Sim) (road : Pose → Option Lane) (g : Given) (time : Option ℝ) (dt : ℝ) (junk : ℝ) :
    (e.overwrite road g time dt true junk).model = { e.model with state := e.overwritten g (e.toLocal g.pose.position) junk } ∧
    (e.overwrite road g time dt true junk).status.motion.vx = (e.overwrite road g time dt true junk).model.getVx ∧
    (e.overwrite road g time dt true junk).status.motion.wz = (e.overwrite road g time dt true junk).model.getWz ∧
    (e.previous ≠ none → (e.overwrite road g time dt true junk).status.motion.ax = (e.overwrite road g time dt true junk).model.getAx) := by
  rw [overwrite_eq]
  obtain ⟨e1, e2, -⟩ := updateStatus_eq { e with relative := e.toLocal g.pose.position, model := { e.model with state := e.overwritten g (e.toLocal g.pose.position) junk } : Sim } road time dt
  rw [e1, e2]
  refine ⟨rfl, ?_⟩
  simp only [Sim.motion]
  cases hp : e.previous with
  | none => exact ⟨rfl, rfl, fun h => absurd rfl h⟩
  | some w => exact ⟨rfl, rfl, fun _ => rfl⟩

/-- C102: after the start an overwritten ego reports the given speed, unless its model is IDEAL_STEER_VEL. -/
theorem C102_speed_partial (e : Sim) (road : Pose → Option Lane) (g : Given) (time : Option ℝ) (dt : ℝ) (junk : ℝ) (hk : e.model.kind ≠ .idealVel) :
    (e.overwrite road g time dt true junk).status.motion.vx = g.vx := by
  obtain ⟨h1, h2, -⟩ := overwrite_model e road g time dt junk
  rw [h2, h1]
  unfold Model.getVx Sim.overwritten
  cases h : e.model.kind <;> simp_all

/-- C102: after the start an overwritten ego with a delayed model that is not standing reports the given rate of turn; one that is standing
reports no turn. The steering angle is the one that makes it turn so. -/
theorem C102_turn_partial (e : Sim) (road : Pose → Option Lane) (g : Given) (time : Option ℝ) (dt : ℝ) (junk : ℝ) (hk : e.model.kind.delayed = true)
    (hw : e.wheelBase = e.model.p.wheelbase) (h0 : e.wheelBase ≠ 0) :
    (1e-9 ≤ |g.vx| → (e.overwrite road g time dt true junk).status.motion.wz = g.wz) ∧
    (g.vx = 0 → (e.overwrite road g time dt true junk).status.motion.wz = 0) := by
  obtain ⟨h1, -, h3, -⟩ := overwrite_model e road g time dt junk
  rw [h3, h1]
  have hz : ∀ j, Model.getWz { e.model with state := e.overwritten g (e.toLocal g.pose.position) j } =
      g.vx * Real.tan (if |g.vx| < 1e-9 then 0 else Real.arctan (g.wz * e.wheelBase / g.vx)) / e.model.p.wheelbase := by
    intro j
    unfold Model.getWz Sim.overwritten
    cases h : e.model.kind <;> simp_all [Kind.delayed]
  rw [hz]
  constructor
  · intro hv
    rw [if_neg (not_lt.mpr hv), Real.tan_arctan, ← hw]
    have hv0 : g.vx ≠ 0 := by
      intro h; rw [h, abs_zero] at hv; norm_num at hv
    field_simp
  · intro hv; rw [hv]; simp

/-- C102: after the start an overwritten ego with a delayed acceleration reports the given acceleration, except in its first report. -/
theorem C102_acceleration_partial (e : Sim) (road : Pose → Option Lane) (g : Given) (time : Option ℝ) (dt : ℝ) (junk : ℝ)
    (hk : e.model.kind.delayed = true) (hv : e.model.kind ≠ .delayVel) (hp : e.previous ≠ none) :
    (e.overwrite road g time dt true junk).status.motion.ax = g.ax := by
  obtain ⟨h1, -, -, h4⟩ := overwrite_model e road g time dt junk
  rw [h4 hp, h1]
  unfold Model.getAx Sim.overwritten
  cases h : e.model.kind <;> simp_all [Kind.delayed]

/-- C102 fails for IDEAL_STEER_VEL: the speed reported after an overwriting is that of the last command, not the given one. -/
theorem C102_speed_violated : ∃ (e : Sim) (g : Given), e.model.kind = .idealVel ∧ g.vx = 5 ∧
    (e.overwrite (fun _ => none) g none 1 true 0).status.motion.vx = 0 := by
  refine ⟨idealEgo (upright 0) fun _ => none, ⟨⟨⟨0, 0, 0⟩, upright 0⟩, 5, 0, 0⟩, rfl, rfl, ?_⟩
  obtain ⟨h1, h2, -⟩ := overwrite_model (idealEgo (upright 0) fun _ => none) (fun _ => none) ⟨⟨⟨0, 0, 0⟩, upright 0⟩, 5, 0, 0⟩ none 1 0
  rw [h2, h1]
  rfl

/-- C102 fails for the ideal models: the rate of turn reported after an overwriting is that of the last steering command. -/
theorem C102_turn_violated : ∃ (e : Sim) (g : Given), e.model.kind = .idealAcc ∧ g.vx = 1 ∧ g.wz = 1 ∧
    (e.overwrite (fun _ => none) g none 1 true 0).status.motion.wz = 0 := by
  refine ⟨Sim.make { kind := .idealAcc, p := plain } 1 false (fun _ => none) ⟨⟨0, 0, 0⟩, upright 0⟩, ⟨⟨⟨0, 0, 0⟩, upright 0⟩, 1, 1, 0⟩, rfl, rfl, rfl, ?_⟩
  obtain ⟨h1, -, h3, -⟩ := overwrite_model (Sim.make { kind := .idealAcc, p := plain } 1 false (fun _ => none) ⟨⟨0, 0, 0⟩, upright 0⟩) (fun _ => none)
    ⟨⟨⟨0, 0, 0⟩, upright 0⟩, 1, 1, 0⟩ none 1 0
  rw [h3, h1]
  unfold Model.getWz
  simp [Sim.make, Sim.setStatus, Sim.setAutowareStatus]

/-- C102 fails for a pose that is not upright: off the lanes the pitch is lost. The nose of the given pose points up, that of the reported one
is level. -/
theorem C102_tilt_violated : ∃ (g : Given) (e : Sim), e.initial.orientation = upright 0 ∧ Geometry.Unit g.pose.orientation ∧
    (e.overwrite (fun _ => none) g none 1 true 0).status.lane = none ∧
    (nose (e.overwrite (fun _ => none) g none 1 true 0).status.pose.orientation).z = 0 ∧ (nose g.pose.orientation).z = 24 / 25 := by
  refine ⟨⟨⟨⟨0, 0, 0⟩, ⟨0, -3 / 5, 0, 4 / 5⟩⟩, 0, 0, 0⟩, idealEgo (upright 0) fun _ => none, rfl, by unfold Geometry.Unit; norm_num, rfl, ?_, ?_⟩
  · obtain ⟨-, -, q⟩ := currentPose_upright (e := { (idealEgo (upright 0) fun _ => none) with relative := (idealEgo (upright 0) fun _ => none).toLocal ⟨0, 0, 0⟩, model := { (idealEgo (upright 0) fun _ => none).model with state := (idealEgo (upright 0) fun _ => none).overwritten ⟨⟨⟨0, 0, 0⟩, ⟨0, -3 / 5, 0, 4 / 5⟩⟩, 0, 0, 0⟩ ((idealEgo (upright 0) fun _ => none).toLocal ⟨0, 0, 0⟩) 0 } : Sim }) (θ := 0) rfl
    rw [overwrite_eq]
    obtain ⟨e1, -⟩ := updateStatus_eq { (idealEgo (upright 0) fun _ => none) with relative := (idealEgo (upright 0) fun _ => none).toLocal ⟨0, 0, 0⟩, model := { (idealEgo (upright 0) fun _ => none).model with state := (idealEgo (upright 0) fun _ => none).overwritten ⟨⟨⟨0, 0, 0⟩, ⟨0, -3 / 5, 0, 4 / 5⟩⟩, 0, 0, 0⟩ ((idealEgo (upright 0) fun _ => none).toLocal ⟨0, 0, 0⟩) 0 } : Sim } (fun _ => none) none 1
    rw [e1]
    simp only [onLane, nose]
    rw [q, rotate_upright]
  · unfold nose rotate; norm_num

/-- An ego with the model without fall guard. -/
noncomputable def pedalEgo : Sim :=
  Sim.make { kind := .delayAccGearedNoGuard, p := plain.fixed } 1 false (fun _ => none) ⟨⟨0, 0, 0⟩, upright 0⟩

/-- C102 fails for the model without fall guard: how fast it drives after the next update depends on what happened to be in the memory of the
new state, as its pedal acceleration is not assigned. -/
theorem C102_junk_violated : ∃ (g : Given) (c : Command) (j k : ℝ) (e1 e2 : Sim),
    (pedalEgo.overwrite (fun _ => none) g none 1 true j).update (fun _ => none) none 1 true c = some e1 ∧
    (pedalEgo.overwrite (fun _ => none) g none 1 true k).update (fun _ => none) none 1 true c = some e2 ∧
    e1.status.motion.vx ≠ e2.status.motion.vx := by
  have key : ∀ j : ℝ, 0 ≤ j → j ≤ 5 → ∃ e1, (pedalEgo.overwrite (fun _ => none) ⟨⟨⟨0, 0, 0⟩, upright 0⟩, 1, 0, 0⟩ none 1 true j).update (fun _ => none) none 1 true
      ⟨0, 0, 0, .drive 0⟩ = some e1 ∧ e1.status.motion.vx = 1 + j := by
    intro j h0 h5
    obtain ⟨h1, -, -, -⟩ := overwrite_model pedalEgo (fun _ => none) ⟨⟨⟨0, 0, 0⟩, upright 0⟩, 1, 0, 0⟩ none 1 j
    generalize hE : pedalEgo.overwrite (fun _ => none) ⟨⟨⟨0, 0, 0⟩, upright 0⟩, 1, 0, 0⟩ none 1 true j = E at h1 ⊢
    have hkind : E.model.kind = .delayAccGearedNoGuard := by rw [h1]; rfl
    have hst : E.model.state.vx = 1 ∧ E.model.state.pedal = j := by rw [h1]; exact ⟨rfl, rfl⟩
    have hp : E.model.p = plain.fixed := by rw [h1]; rfl
    have hin : E.input ⟨0, 0, 0, .drive 0⟩ = { drive := 0, gear := .drive 0, slope := 0, steer := 0 } := by
      unfold Sim.input
      rw [hkind]
      have : E.slope = 0 := by rw [← hE]; rfl
      simp [this]
    obtain ⟨m, hm⟩ := step_total E.model (by rw [hkind]; decide) (.drive 0) (E.input ⟨0, 0, 0, .drive 0⟩) 1
    refine ⟨_, update_of_step (fun _ => none) none hm, ?_⟩
    obtain ⟨e1, -⟩ := updateStatus_eq { E with model := m, relative := ⟨m.state.x, m.state.y, (E.toLocal E.status.pose.position).z⟩ : Sim } (fun _ => none) none 1
    rw [e1]
    have hv : m.getVx = 1 + j := by
      rw [hin] at hm
      unfold Model.step Model.update at hm
      simp only [hkind] at hm
      unfold Model.updateNoGuard at hm
      simp only [euler, calcNoGuard, Option.bind_eq_bind, Option.bind_some, Option.pure_def, Option.some.injEq] at hm
      subst hm
      unfold Model.getVx
      simp only [State.add, State.scale, limitVx, hst.1, hst.2, hp, plain, Params.fixed, sat, pedalAcc]
      have a1 : max (min j 5) (-5) = j := by rw [min_eq_left h5, max_eq_left (by linarith)]
      simp only [a1, ge_iff_le, h0, if_true]
      have a2 : max (-10) (min (1 + (j + 0) * 1) 10) = 1 + j := by
        rw [min_eq_left (by linarith), max_eq_right (by linarith)]; ring
      have a3 : ¬ ((1 : ℝ) * (1 + j) ≤ 0) := by linarith
      simp only [reduceCtorEq, or_self, if_false, a2, a3, false_and]
    simp only [Sim.motion]
    cases E.previous <;> exact hv
  obtain ⟨e1, u1, v1⟩ := key 0 (le_refl _) (by norm_num)
  obtain ⟨e2, u2, v2⟩ := key 1 (by norm_num) (by norm_num)
  exact ⟨_, _, 0, 1, e1, e2, u1, u2, by rw [v1, v2]; norm_num⟩

example : pedalEgo.model.kind.delayed = true ∧ pedalEgo.model.kind ≠ .delayVel ∧ pedalEgo.model.kind ≠ .idealVel ∧
    pedalEgo.wheelBase = pedalEgo.model.p.wheelbase ∧ pedalEgo.wheelBase ≠ 0 ∧ Geometry.Unit pedalEgo.initial.orientation ∧
    (pedalEgo.overwrite (fun _ => none) ⟨⟨⟨0, 0, 0⟩, upright 0⟩, 1, 0, 0⟩ none 1 true 0).previous ≠ none := by
  refine ⟨rfl, by decide, by decide, rfl, one_ne_zero, ?_, Option.some_ne_none _⟩
  show Geometry.Unit (upright 0)
  unfold Geometry.Unit upright
  simp

end Verif.Ego
