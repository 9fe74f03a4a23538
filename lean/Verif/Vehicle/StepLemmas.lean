import Verif.Vehicle.GearTheorems
/-
What one step of each model does, spelled out.
-/
namespace Verif.Vehicle
open Classical

/-- The commands that a delayed model applies in a step: the oldest ones. -/
def oldest (m : Model) (u : Input) : Input :=
  { drive := (m.driveQueue ++ [u.drive]).headD 0, steer := (m.steerQueue ++ [u.steer]).headD 0 }

/-- What a step leaves alone, and what happens to the queues. -/
structure Kept (m m' : Model) (g : Gear) (u : Input) : Prop where
  kind : m'.kind = m.kind
  p : m'.p = m.p
  input : m'.input = u
  gear : m'.gear = g
  map : m'.map = m.map
  driveQueue : m.kind.delayed = true → m'.driveQueue = (m.driveQueue ++ [u.drive]).tail
  steerQueue : m.kind.delayed = true → m'.steerQueue = (m.steerQueue ++ [u.steer]).tail
  driveQueue' : m.kind.delayed = false → m'.driveQueue = m.driveQueue
  steerQueue' : m.kind.delayed = false → m'.steerQueue = m.steerQueue

theorem step_kept {m m' : Model} {g : Gear} {u : Input} {dt : ℝ} (h : m.step g u dt = some m') : Kept m m' g u := by
  unfold Model.step Model.update at h
  cases hk : m.kind <;> rw [hk] at h <;>
    simp only [Model.updateIdealVel, Model.updateIdealAcc, Model.updateIdealAccGeared, Model.updateDelayVel, Model.updateDelayAcc,
      Model.updateDelayAccGeared, Model.updateMap, Model.updateNoGuard, Option.bind_eq_bind, Option.bind_eq_some_iff, Option.pure_def,
      Option.some.injEq] at h <;> obtain ⟨s, _, rfl⟩ := h <;> constructor <;> simp [hk, Kind.delayed, throughQueue]

/-- A step of `rungeKutta` with the slopes spelled out. -/
def Steps (f : State → State) (dt : ℝ) (s s' : State) : Prop :=
  ∃ k1 k2 k3 k4, k1 = f s ∧ k2 = f (s.add (k1.scale (0.5 * dt))) ∧ k3 = f (s.add (k2.scale (0.5 * dt))) ∧ k4 = f (s.add (k3.scale dt)) ∧
    s' = mixed s k1 k2 k3 k4 dt

theorem steps_of {f : State → State} {dt : ℝ} {s s' : State} (h : rungeKutta (fun s => some (f s)) dt s = some s') : Steps f dt s s' := by
  obtain ⟨k1, k2, k3, k4, h1, h2, h3, h4, h5⟩ := rungeKutta_inv h
  injection h1 with h1; injection h2 with h2; injection h3 with h3; injection h4 with h4
  exact ⟨k1, k2, k3, k4, h1.symm, h2.symm, h3.symm, h4.symm, h5⟩

theorem step_idealVel {m m' : Model} {g : Gear} {u : Input} {dt : ℝ} (hk : m.kind = .idealVel) (h : m.step g u dt = some m') :
    Steps (calcIdealVel m.p u) dt m.state m'.state ∧ m'.ax = (u.drive - m.prevVx) / dt ∧ m'.prevVx = u.drive := by
  unfold Model.step Model.update at h
  rw [hk] at h
  simp only [Model.updateIdealVel, Option.bind_eq_bind, Option.bind_eq_some_iff, Option.pure_def, Option.some.injEq] at h
  obtain ⟨s, e, rfl⟩ := h
  exact ⟨steps_of e, rfl, rfl⟩

theorem step_idealAcc {m m' : Model} {g : Gear} {u : Input} {dt : ℝ} (hk : m.kind = .idealAcc) (h : m.step g u dt = some m') :
    Steps (calcIdealAcc m.p u) dt m.state m'.state := by
  unfold Model.step Model.update at h
  rw [hk] at h
  simp only [Model.updateIdealAcc, Option.bind_eq_bind, Option.bind_eq_some_iff, Option.pure_def, Option.some.injEq] at h
  obtain ⟨s, e, rfl⟩ := h
  exact steps_of e

theorem step_idealAccGeared {m m' : Model} {g : Gear} {u : Input} {dt : ℝ} (hk : m.kind = .idealAccGeared) (h : m.step g u dt = some m') :
    ∃ s, Steps (calcIdealAcc m.p u) dt m.state s ∧ m'.state = withGear false s m.state g dt ∧
      m'.ax = (m'.state.vx - m.state.vx) / max dt 1e-5 := by
  unfold Model.step Model.update at h
  rw [hk] at h
  simp only [Model.updateIdealAccGeared, Option.bind_eq_bind, Option.bind_eq_some_iff, Option.pure_def, Option.some.injEq] at h
  obtain ⟨s, e, rfl⟩ := h
  exact ⟨s, steps_of e, rfl, rfl⟩

theorem step_delayVel {m m' : Model} {g : Gear} {u : Input} {dt : ℝ} (hk : m.kind = .delayVel) (h : m.step g u dt = some m') :
    Steps (calcDelayVel m.p (oldest m u)) dt m.state m'.state ∧ m'.ax = (m'.state.vx - m.state.vx) / dt := by
  unfold Model.step Model.update at h
  rw [hk] at h
  simp only [Model.updateDelayVel, Option.bind_eq_bind, Option.bind_eq_some_iff, Option.pure_def, Option.some.injEq, throughQueue_fst] at h
  obtain ⟨s, e, rfl⟩ := h
  exact ⟨steps_of e, rfl⟩

theorem step_delayAcc {m m' : Model} {g : Gear} {u : Input} {dt : ℝ} (hk : m.kind = .delayAcc) (h : m.step g u dt = some m') :
    ∃ s, Steps (calcDelayAcc m.p (oldest m u)) dt m.state s ∧ m'.state = { s with vx := limited s.vx m.p.vxLim } := by
  unfold Model.step Model.update at h
  rw [hk] at h
  simp only [Model.updateDelayAcc, Option.bind_eq_bind, Option.bind_eq_some_iff, Option.pure_def, Option.some.injEq, throughQueue_fst] at h
  obtain ⟨s, e, rfl⟩ := h
  exact ⟨s, steps_of e, rfl⟩

theorem step_delayAccGeared {m m' : Model} {g : Gear} {u : Input} {dt : ℝ} (hk : m.kind = .delayAccGeared) (h : m.step g u dt = some m') :
    ∃ s, Steps (calcDelayAcc m.p (oldest m u)) dt m.state s ∧
      m'.state = withGear true { s with vx := limited s.vx m.p.vxLim } m.state g dt := by
  unfold Model.step Model.update at h
  rw [hk] at h
  simp only [Model.updateDelayAccGeared, Option.bind_eq_bind, Option.bind_eq_some_iff, Option.pure_def, Option.some.injEq, throughQueue_fst] at h
  obtain ⟨s, e, rfl⟩ := h
  exact ⟨s, steps_of e, rfl⟩

theorem step_map {m m' : Model} {g : Gear} {u : Input} {dt : ℝ} (hk : m.kind = .delayMapAccGeared) (h : m.step g u dt = some m') :
    ∃ s, rungeKutta (calcMap m.p m.map (oldest m u)) dt m.state = some s ∧
      m'.state = withGear true { s with vx := limited s.vx m.p.vxLim } m.state g dt := by
  unfold Model.step Model.update at h
  rw [hk] at h
  simp only [Model.updateMap, Option.bind_eq_bind, Option.bind_eq_some_iff, Option.pure_def, Option.some.injEq, throughQueue_fst] at h
  obtain ⟨s, e, rfl⟩ := h
  exact ⟨s, e, rfl⟩

theorem step_noGuard {m m' : Model} {g : Gear} {u : Input} {dt : ℝ} (hk : m.kind = .delayAccGearedNoGuard) (h : m.step g u dt = some m') :
    ∃ s d, d = calcNoGuard m.p { oldest m u with gear := u.gear, slope := u.slope } (m.state.steer + m.p.steerBias) m.state ∧
      s = m.state.add (d.scale dt) ∧
      m'.state.vx = (if m.state.vx * limited s.vx m.p.vxLim ≤ 0 ∧ |u.slope| ≤ -s.pedal then 0 else limited s.vx m.p.vxLim) ∧
      m'.state.x = s.x ∧ m'.state.y = s.y ∧ m'.state.yaw = s.yaw ∧ m'.state.steer = s.steer ∧ m'.state.pedal = s.pedal ∧
      m'.state.acc = (m'.state.vx - m.state.vx) / dt := by
  unfold Model.step Model.update at h
  rw [hk] at h
  simp only [Model.updateNoGuard, euler, Option.bind_eq_bind, Option.bind_eq_some_iff, Option.pure_def, Option.some.injEq, throughQueue_fst] at h
  obtain ⟨s, ⟨d, rfl, rfl⟩, rfl⟩ := h
  refine ⟨_, _, rfl, rfl, ?_, ?_, ?_, ?_, ?_, ?_, ?_⟩ <;> simp only [Model.getSteer, limitVx, limited, oldest, ge_iff_le] <;> split <;> first | rfl | (rename_i h; exact (if_pos h).symm) | (rename_i h; exact (if_neg h).symm)

end Verif.Vehicle
