import Verif.Ego.PoseTheorems
/-
C103: how the commands of Autoware move the ego.
-/
namespace Verif.Ego
open Classical
open Verif.Vehicle Verif.Geometry

theorem signOf_direction (g : Gear) : signOf g = direction g := by
  unfold signOf direction Backward
  cases g <;> simp

theorem slope_gravity (e : Sim) : e.slope = gravity e.considerSlope e.status.lane := by
  unfold Sim.slope gravity
  cases e.considerSlope <;> cases e.status.lane <;> simp
  ring

theorem input_commanded (e : Sim) (c : Command) : e.input c = commanded e.model.kind c (gravity e.considerSlope e.status.lane) := by
  unfold Sim.input commanded
  rw [slope_gravity, signOf_direction]
  cases e.model.kind <;> rfl

/-- C103: after the start of the scenario an update moves the vehicle model by one step with the gear and the input of the command, with the
gravity on the lane of the last status; before the start the model is left alone. -/
theorem C103_step (e e' : Sim) (road : Pose → Option Lane) (time : Option ℝ) (dt : ℝ) (started : Bool) (c : Command)
    (h : e.update road time dt started c = some e') :
    (started = true → e.model.step c.gear (commanded e.model.kind c (gravity e.considerSlope e.status.lane)) dt = some e'.model) ∧
    (started = false → e'.model = e.model) := by
  obtain ⟨m, hm, rfl⟩ := update_inv h
  constructor
  · intro hs
    subst hs
    rw [if_pos rfl] at hm
    rw [← input_commanded]
    exact hm
  · intro hs
    subst hs
    simp only [Bool.false_eq_true, if_false, Option.some.injEq] at hm
    exact hm.symm

/-- C103: the vehicle model throws for an input exactly when the update throws. -/
theorem C103_defined (e : Sim) (road : Pose → Option Lane) (time : Option ℝ) (dt : ℝ) (c : Command) :
    (e.update road time dt true c = none ↔ e.model.step c.gear (commanded e.model.kind c (gravity e.considerSlope e.status.lane)) dt = none) ∧
    e.update road time dt false c ≠ none := by
  constructor
  · rw [← input_commanded]
    cases hm : e.model.step c.gear (e.input c) dt with
    | none =>
      refine ⟨fun _ => rfl, fun _ => ?_⟩
      cases h : e.update road time dt true c with
      | none => rfl
      | some e' =>
        obtain ⟨m, hm', -⟩ := update_inv h
        rw [if_pos rfl, hm] at hm'
        cases hm'
    | some m => rw [update_of_step road time hm]; simp
  · unfold Sim.update
    simp

theorem update_vx {e e' : Sim} {road : Pose → Option Lane} {time : Option ℝ} {dt : ℝ} {started : Bool} {c : Command}
    (h : e.update road time dt started c = some e') : e'.status.motion.vx = e'.model.getVx := by
  obtain ⟨m, hm, rfl⟩ := update_inv h
  obtain ⟨e1, e2, -⟩ := updateStatus_eq { e with model := m, relative := ⟨m.state.x, m.state.y, (e.toLocal e.status.pose.position).z⟩ : Sim } road time dt
  rw [e1, e2]
  simp only [Sim.motion]
  cases e.previous <;> rfl

/-- C103: in the reported speed of IDEAL_STEER_ACC each update adds the acceleration of the command, in the direction of the gear, and gravity;
and IDEAL_STEER_VEL reports the speed of the command. -/
theorem C103_ideal (kind : Kind) (p : Params) (dt : ℝ) (map : AccMap) (m : Model) (wb : ℝ) (slope : Bool) (road road' : Pose → Option Lane)
    (pose : Pose) (l : List Op) (e e' : Sim) (time : Option ℝ) (c : Command) (hm : Model.make kind p dt map = some m)
    (h : (Sim.make m wb slope road pose).run dt l = some e) (h' : e.update road' time dt true c = some e') :
    (e.model.kind = .idealAcc →
      e'.status.motion.vx = e.status.motion.vx + (direction c.gear * c.acceleration + gravity e.considerSlope e.status.lane) * dt) ∧
    (e.model.kind = .idealVel → e'.status.motion.vx = c.speed) := by
  have hs := (C103_step e e' road' time dt true c h').1 rfl
  have hk' := (step_kept hs).kind
  have hv := (reported_vx hm wb slope road pose l h).1
  rw [update_vx h', hv]
  constructor
  · intro hk
    have := (C98_ideal_acc _ _ _ _ _ hk hs).1
    rw [getVx_eq (by rw [hk', hk]; decide), getVx_eq (by rw [hk]; decide), this]
    simp [commanded, hk]
  · intro hk
    have := (C98_ideal_vel _ _ _ _ _ hk hs).1
    rw [this]
    simp [commanded, hk]

/-- C103: an ego with a geared model is never reported to move against the gear it was told, and in the gears that do not drive it is reported
to stand. -/
theorem C103_gear (e e' : Sim) (road : Pose → Option Lane) (time : Option ℝ) (dt : ℝ) (c : Command)
    (hk : e.model.kind = .idealAccGeared ∨ e.model.kind = .delayAccGeared ∨ e.model.kind = .delayMapAccGeared)
    (h : e.update road time dt true c = some e') :
    (Forward c.gear → 0 ≤ e'.status.motion.vx) ∧ (Backward c.gear → e'.status.motion.vx ≤ 0) ∧
      (¬ Forward c.gear → ¬ Backward c.gear → e'.status.motion.vx = 0) := by
  rw [update_vx h]
  obtain ⟨h1, h2, h3⟩ := C94_gear _ _ _ _ _ hk ((C103_step e e' road time dt true c h).1 rfl)
  exact ⟨h1, h2, fun a b => (h3 a b).1⟩

/-- C103: gravity is 9.81 times how much the nose of something that lies along the lane points down: it slows the ego uphill and speeds it up
downhill, is nothing on level ground, and is never more than 9.81. -/
theorem C103_gravity (l : Lane) (roll yaw : ℝ) :
    gravity true (some l) = -9.81 * (nose (eulerToQuat ⟨roll, l.pitch, yaw⟩)).z ∧ |gravity true (some l)| ≤ 9.81 ∧
    gravity true none = 0 ∧ gravity false (some l) = 0 := by
  have hn : (nose (eulerToQuat ⟨roll, l.pitch, yaw⟩)).z = -Real.sin l.pitch := by
    unfold nose
    rw [(eulerToQuat_spec roll l.pitch yaw).2]
    simp
  refine ⟨?_, ?_, rfl, rfl⟩
  · rw [hn]; unfold gravity; ring
  · unfold gravity
    simp only
    rw [abs_mul, abs_of_pos (by norm_num : (0 : ℝ) < 9.81)]
    have := Real.abs_sin_le_one l.pitch
    nlinarith

/-- C103: the part of the command that a model does not use does not matter. Models with a velocity command take the speed, the others the
acceleration, and in the gear NONE those of them without a pedal take neither. -/
theorem C103_unused (e : Sim) (road : Pose → Option Lane) (time : Option ℝ) (dt : ℝ) (c c' : Command) (hg : c.gear = c'.gear)
    (ht : c.tireAngle = c'.tireAngle)
    (hc : (e.model.kind = .idealVel ∨ e.model.kind = .delayVel) ∧ c.speed = c'.speed ∨
      (e.model.kind ≠ .idealVel ∧ e.model.kind ≠ .delayVel) ∧ c.acceleration = c'.acceleration ∨
      (e.model.kind ≠ .idealVel ∧ e.model.kind ≠ .delayVel ∧ e.model.kind ≠ .delayAccGearedNoGuard) ∧ c.gear = .none) :
    e.update road time dt true c = e.update road time dt true c' := by
  have hin : e.input c = e.input c' := by
    rw [input_commanded, input_commanded]
    unfold commanded
    rcases hc with ⟨hk | hk, hc⟩ | ⟨⟨h1, h2⟩, hc⟩ | ⟨⟨h1, h2, h3⟩, hc⟩
    · rw [hk]; simp [hc, ht]
    · rw [hk]; simp [hc, ht]
    · cases hk : e.model.kind <;> simp_all
    · have hd : direction c.gear = 0 := by unfold direction Backward; rw [hc]; simp
      have hd' : direction c'.gear = 0 := by rw [← hg]; exact hd
      cases hk : e.model.kind <;> simp_all
  cases hm : e.model.step c.gear (e.input c) dt with
  | none =>
    have h1 := (C103_defined e road time dt c).1.2 (by rw [← input_commanded]; exact hm)
    have h2 := (C103_defined e road time dt c').1.2 (by rw [← input_commanded, ← hin, ← hg]; exact hm)
    rw [h1, h2]
  | some m => rw [update_of_step road time hm, update_of_step road time (by rw [← hin, ← hg]; exact hm)]

/-- The hypotheses of `C103_ideal` and `C103_gear` are met: an ego on a slope, driving backward. -/
example : ∃ e', (Sim.make { kind := .idealAccGeared, p := plain } 1 true (fun p => some ⟨p, 0.1⟩) ⟨⟨0, 0, 0⟩, upright 0⟩).update
    (fun p => some ⟨p, 0.1⟩) (some 0) 0.1 true ⟨0, 2, 0.3, .reverse⟩ = some e' := by
  refine update_total _ ?_ _ _ _ _
  simp [Sim.make, Sim.setStatus, Sim.setAutowareStatus]

end Verif.Ego
