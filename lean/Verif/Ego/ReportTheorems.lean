import Verif.Ego.CommandTheorems
/-
C104: what the ego reports about its motion.
-/
namespace Verif.Ego
open Classical
open Verif.Vehicle Verif.Geometry

/-- What every call of the simulation ends with. -/
theorem apply_ends {e e' : Sim} {dt : ℝ} {op : Op} (h : e.apply dt op = some e') :
    ∃ d road time, d.previous = e.previous ∧ e' = Sim.updateStatus d road time dt := by
  cases op with
  | update road time started c =>
    obtain ⟨m, _, rfl⟩ := update_inv (e := e) h
    exact ⟨{ e with model := m, relative := ⟨m.state.x, m.state.y, (e.toLocal e.status.pose.position).z⟩ }, road, time, rfl, rfl⟩
  | overwrite road g time started junk =>
    simp only [Sim.apply, Option.some.injEq] at h
    subst h
    unfold Sim.overwrite
    refine ⟨_, road, time, ?_, rfl⟩
    cases started <;> rfl

theorem run_append (dt : ℝ) (l l' : List Op) : ∀ (e : Sim), e.run dt (l ++ l') = (e.run dt l).bind fun d => d.run dt l' := by
  induction l with
  | nil => intro e; rfl
  | cons op l ih =>
    intro e
    simp only [List.cons_append, Sim.run, Option.bind_eq_bind]
    cases h : e.apply dt op with
    | none => rfl
    | some d => simp only [Option.bind_some]; exact ih d

theorem run_snoc {dt : ℝ} {l : List Op} {op : Op} {e e' : Sim} (h : e.run dt (l ++ [op]) = some e') :
    ∃ d, e.run dt l = some d ∧ d.apply dt op = some e' := by
  rw [run_append, Option.bind_eq_some_iff] at h
  obtain ⟨d, h1, h2⟩ := h
  refine ⟨d, h1, ?_⟩
  obtain ⟨d', h3, h4⟩ := run_cons h2
  simp only [Sim.run, Option.some.injEq] at h4
  rw [h3, h4]

/-- C104: with every call after the first the reported angular acceleration and the reported "jerk" are the differences of the reported angular
velocities and speeds over the step, and the lateral acceleration is the product of the two; the first report has none of them. -/
theorem C104_differences (e0 e e' : Sim) (dt : ℝ) (l : List Op) (op : Op) (h : e0.run dt l = some e) (h' : e.apply dt op = some e') :
    (l ≠ [] →
      e'.status.motion.wzDot = (e'.status.motion.wz - e.status.motion.wz) / dt ∧
      e'.status.motion.jerk = (e'.status.motion.vx - e.status.motion.vx) / dt ∧
      e'.status.motion.ay = e'.status.motion.wz * e'.status.motion.vx) ∧
    (e0.previous = none → l = [] →
      e'.status.motion.ax = 0 ∧ e'.status.motion.ay = 0 ∧ e'.status.motion.wzDot = 0 ∧ e'.status.motion.jerk = 0) := by
  obtain ⟨d', road', time', hd', rfl⟩ := apply_ends h'
  obtain ⟨s1, s2, -⟩ := updateStatus_eq d' road' time' dt
  constructor
  · intro hl
    obtain ⟨l', op', rfl⟩ : ∃ l' op', l = l' ++ [op'] := ⟨l.dropLast, l.getLast hl, (List.dropLast_append_getLast hl).symm⟩
    obtain ⟨c, _, h2⟩ := run_snoc h
    obtain ⟨d, road, time, _, rfl⟩ := apply_ends h2
    obtain ⟨t1, -, -, -, -, -, t2⟩ := updateStatus_eq d road time dt
    have hv : (d.updateStatus road time dt).status.motion.vx = d.model.getVx ∧ (d.updateStatus road time dt).status.motion.wz = d.model.getWz := by
      rw [t1]; simp only [Sim.motion]; cases d.previous <;> exact ⟨rfl, rfl⟩
    rw [hv.1, hv.2, s1]
    simp only [Sim.motion, hd', t2]
    exact ⟨trivial, trivial, trivial⟩
  · intro hn hl
    subst hl
    simp only [Sim.run, Option.some.injEq] at h
    subst h
    rw [s1]
    simp only [Sim.motion, hd', hn]
    exact ⟨trivial, trivial, trivial, trivial⟩

/-- C104: the pose and the velocities that Autoware is told are the reported ones, and so are the accelerations except in the first report. -/
theorem C104_told (e0 e e' : Sim) (dt : ℝ) (l : List Op) (op : Op) (h : e0.run dt l = some e) (h' : e.apply dt op = some e') :
    e'.told.pose = e'.status.pose ∧ e'.told.vx = e'.status.motion.vx ∧ e'.told.wz = e'.status.motion.wz ∧
    (l ≠ [] → e'.told.ax = e'.status.motion.ax ∧ e'.told.ay = e'.status.motion.ay) := by
  obtain ⟨d', road', time', hd', rfl⟩ := apply_ends h'
  have ht : (d'.updateStatus road' time' dt).told = ⟨(d'.updateStatus road' time' dt).status.pose, d'.model.getVx, d'.model.getWz, d'.model.getAx,
    d'.model.getWz * d'.model.getVx⟩ := rfl
  obtain ⟨s1, -⟩ := updateStatus_eq d' road' time' dt
  rw [ht, s1]
  refine ⟨rfl, ?_, ?_, fun hl => ?_⟩
  · simp only [Sim.motion]; cases d'.previous <;> rfl
  · simp only [Sim.motion]; cases d'.previous <;> rfl
  · obtain ⟨l', op', rfl⟩ : ∃ l' op', l = l' ++ [op'] := ⟨l.dropLast, l.getLast hl, (List.dropLast_append_getLast hl).symm⟩
    obtain ⟨c, _, h2⟩ := run_snoc h
    obtain ⟨d, road, time, _, rfl⟩ := apply_ends h2
    obtain ⟨-, -, -, -, -, -, t2⟩ := updateStatus_eq d road time dt
    simp only [Sim.motion, hd', t2]
    exact ⟨trivial, trivial⟩

/-- C104: the status carries the time of the call, and 0 before the scenario has a time. -/
theorem C104_time (e e' : Sim) (dt : ℝ) (road : Pose → Option Lane) (time : Option ℝ) (started : Bool) (c : Command) (g : Given) (junk : ℝ)
    (h : e.update road time dt started c = some e' ∨ e' = e.overwrite road g time dt started junk) :
    (∀ t, time = some t → e'.status.time = t) ∧ (time = none → e'.status.time = 0) := by
  have key : e'.status.time = time.getD 0 := by
    rcases h with h | rfl
    · obtain ⟨m, _, rfl⟩ := update_inv h; rfl
    · rfl
  rw [key]
  exact ⟨fun t ht => by rw [ht]; rfl, fun ht => by rw [ht]; rfl⟩

/-- C104 fails for the jerk: an ego that is driven with a constant acceleration reports, from the second update on, that acceleration as its
jerk. -/
theorem C104_jerk_violated : ∃ (e0 e1 e2 : Sim) (c : Command), e0.update (fun _ => none) none 1 true c = some e1 ∧
    e1.update (fun _ => none) none 1 true c = some e2 ∧ c.acceleration = 1 ∧ c.gear = .drive 0 ∧ e0.status.motion.vx = 0 ∧ e1.status.motion.vx = 1 ∧
    e2.status.motion.vx = 2 ∧ e2.status.motion.ax = 1 ∧ e2.status.motion.jerk = 1 := by
  have hmake : Model.make .idealAcc plain 1 ⟨[], [], []⟩ = some { kind := .idealAcc, p := plain } := rfl
  obtain ⟨e1, u1⟩ := update_total (Sim.make { kind := .idealAcc, p := plain } 1 false (fun _ => none) ⟨⟨0, 0, 0⟩, upright 0⟩)
    (by simp [Sim.make, Sim.setStatus, Sim.setAutowareStatus]) (fun _ => none) none 1 ⟨0, 1, 0, .drive 0⟩
  have hk1 : e1.model.kind = .idealAcc := by
    have := (step_kept ((C103_step _ _ _ _ _ _ _ u1).1 rfl)).kind
    rw [this]; rfl
  obtain ⟨e2, u2⟩ := update_total e1 (by rw [hk1]; decide) (fun _ => none) none 1 ⟨0, 1, 0, .drive 0⟩
  have hk2 : e2.model.kind = .idealAcc := by
    have := (step_kept ((C103_step _ _ _ _ _ _ _ u2).1 rfl)).kind
    rw [this, hk1]
  have hin2 : e2.model.input = { drive := 1 + gravity e1.considerSlope e1.status.lane } := by
    have := (step_kept ((C103_step _ _ _ _ _ _ _ u2).1 rfl)).input
    rw [this]; simp [commanded, hk1, direction, Backward]
  have hg1 : e1.considerSlope = false := by obtain ⟨m, _, rfl⟩ := update_inv u1; rfl
  have v1 := (C103_ideal _ _ _ _ _ 1 false (fun _ => none) (fun _ => none) ⟨⟨0, 0, 0⟩, upright 0⟩ [] _ e1 none _ hmake rfl u1).1 rfl
  have r1 : (Sim.make { kind := .idealAcc, p := plain } 1 false (fun _ => none) ⟨⟨0, 0, 0⟩, upright 0⟩).run 1
      [.update (fun _ => none) none true ⟨0, 1, 0, .drive 0⟩] = some e1 := by simp [Sim.run, Sim.apply, u1]
  have v2 := (C103_ideal _ _ _ _ _ 1 false (fun _ => none) (fun _ => none) ⟨⟨0, 0, 0⟩, upright 0⟩ _ _ e2 none _ hmake r1 u2).1 hk1
  have d2 := (C104_differences _ e1 e2 1 _ (.update (fun _ => none) none true ⟨0, 1, 0, .drive 0⟩) r1 u2).1 (by simp)
  have t2 := (C104_told _ e1 e2 1 _ (.update (fun _ => none) none true ⟨0, 1, 0, .drive 0⟩) r1 u2).2.2.2 (by simp)
  have z : (Sim.make { kind := .idealAcc, p := plain } 1 false (fun _ => none) ⟨⟨0, 0, 0⟩, upright 0⟩).status.motion.vx = 0 := rfl
  have zc : (Sim.make { kind := .idealAcc, p := plain } 1 false (fun _ => none) ⟨⟨0, 0, 0⟩, upright 0⟩).considerSlope = false := rfl
  have hd : direction (.drive 0) = 1 := by simp [direction, Backward]
  have gf : ∀ o, gravity false o = 0 := by intro o; cases o <;> rfl
  rw [z, zc, hd, gf] at v1
  rw [hg1, hd, gf, v1] at v2
  rw [hg1, gf] at hin2
  refine ⟨_, e1, e2, _, u1, u2, rfl, rfl, z, by rw [v1]; norm_num, by rw [v2]; norm_num, ?_, ?_⟩
  · rw [← t2.1]
    obtain ⟨m, hm, rfl⟩ := update_inv u2
    have : (Sim.updateStatus { e1 with model := m, relative := ⟨m.state.x, m.state.y, (e1.toLocal e1.status.pose.position).z⟩ } (fun _ => none) none 1).told.ax =
      m.getAx := rfl
    rw [this]
    have hk2' : m.kind = .idealAcc := hk2
    have hin2' : m.input = { drive := 1 + 0 } := hin2
    unfold Model.getAx
    rw [hk2', hin2']
    norm_num
  · rw [d2.2.1, v2, v1]; norm_num

end Verif.Ego
