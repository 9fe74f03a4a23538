import Verif.Ego.Spec
import Verif.Geometry.PoseTheorems
import Verif.Geometry.TurnTheorems
import Verif.Vehicle.MotionTheorems
/-
C101: where the ego is on the map.
-/
namespace Verif.Ego
open Classical
open Verif.Vehicle Verif.Geometry

/-- What an update does, in one place. -/
theorem update_inv {e e' : Sim} {road : Pose → Option Lane} {time : Option ℝ} {dt : ℝ} {started : Bool} {c : Command}
    (h : e.update road time dt started c = some e') :
    ∃ m, (if started then e.model.step c.gear (e.input c) dt else some e.model) = some m ∧
      e' = { e with model := m, relative := ⟨m.state.x, m.state.y, (e.toLocal e.status.pose.position).z⟩ : Sim }.updateStatus road time dt := by
  unfold Sim.update at h
  cases started with
  | false =>
    simp only [Bool.false_eq_true, if_false, Option.pure_def, Option.bind_eq_bind, Option.bind_some, Option.some.injEq] at h
    exact ⟨e.model, by simp, h.symm⟩
  | true =>
    simp only [if_true, Option.bind_eq_bind, Option.bind_eq_some_iff, Option.pure_def, Option.some.injEq] at h
    obtain ⟨m, hm, rfl⟩ := h
    exact ⟨m, by rw [if_pos rfl]; exact hm, rfl⟩

theorem update_of_step {e : Sim} {c : Command} {dt : ℝ} {m : Model} (road : Pose → Option Lane) (time : Option ℝ)
    (h : e.model.step c.gear (e.input c) dt = some m) : e.update road time dt true c =
      some ({ e with model := m, relative := ⟨m.state.x, m.state.y, (e.toLocal e.status.pose.position).z⟩ : Sim }.updateStatus road time dt) := by
  unfold Sim.update
  rw [if_pos rfl]
  have h' : e.model.step c.gear (Sim.input { e with relative := e.toLocal e.status.pose.position } c) dt = some m := h
  simp only [h', Option.bind_eq_bind, Option.bind_some, Option.pure_def]

/-- What the end of an update or an overwriting does. -/
theorem updateStatus_eq (e : Sim) (road : Pose → Option Lane) (time : Option ℝ) (dt : ℝ) :
    (e.updateStatus road time dt).status = ⟨time.getD 0, onLane e.getCurrentPose (road e.getCurrentPose), e.motion dt, road e.getCurrentPose⟩ ∧
    (e.updateStatus road time dt).model = e.model ∧ (e.updateStatus road time dt).initial = e.initial ∧
    (e.updateStatus road time dt).relative = e.relative ∧ (e.updateStatus road time dt).wheelBase = e.wheelBase ∧
    (e.updateStatus road time dt).considerSlope = e.considerSlope ∧
    (e.updateStatus road time dt).previous = some (e.model.getVx, e.model.getWz) := ⟨rfl, rfl, rfl, rfl, rfl, rfl, rfl⟩

theorem eulerToQuat_yaw (θ : ℝ) : eulerToQuat ⟨0, 0, θ⟩ = upright θ := by
  unfold eulerToQuat upright; simp

theorem rotate_upright (θ : ℝ) (v : Pt) : rotate (upright θ) v = ⟨Real.cos θ * v.x - Real.sin θ * v.y, Real.sin θ * v.x + Real.cos θ * v.y, v.z⟩ := by
  rw [← eulerToQuat_yaw, (eulerToQuat_spec 0 0 θ).2 v]; simp

theorem unit_upright (θ : ℝ) : Geometry.Unit (upright θ) := by
  unfold Geometry.Unit upright; simp [Real.sin_sq_add_cos_sq]

theorem upright_mul (θ φ : ℝ) : (upright θ).mul (upright φ) = upright (θ + φ) := by
  unfold upright Quat.mul
  rw [add_div, Real.sin_add, Real.cos_add]
  ext <;> simp only <;> ring

theorem conj_upright (θ : ℝ) : (upright θ).conj = upright (-θ) := by
  unfold upright Quat.conj
  rw [neg_div, Real.sin_neg, Real.cos_neg]; simp

theorem onLane_xy (p : Pose) (l : Option Lane) : (onLane p l).position.x = p.position.x ∧ (onLane p l).position.y = p.position.y := by
  unfold onLane; cases l <;> simp

/-- An upright ego is, seen from above, where its frame of reference says. -/
theorem currentPose_upright {e : Sim} {θ : ℝ} (h : e.initial.orientation = upright θ) :
    AheadLeft e.initial.position θ e.relative.x e.relative.y e.getCurrentPose.position ∧
    e.getCurrentPose.position.z = e.initial.position.z + e.relative.z ∧ e.getCurrentPose.orientation = upright (θ + e.model.state.yaw) := by
  unfold Sim.getCurrentPose AheadLeft
  rw [h, rotate_upright, eulerToQuat_yaw, upright_mul]
  simp only [Pt.add]
  refine ⟨⟨by ring, by ring⟩, trivial, trivial⟩

theorem apply_initial {e e' : Sim} {dt : ℝ} {op : Op} (h : e.apply dt op = some e') : e'.initial = e.initial := by
  cases op with
  | update road time started c =>
    obtain ⟨m, _, rfl⟩ := update_inv (e := e) h
    exact (updateStatus_eq _ road time dt).2.2.1
  | overwrite road g time started junk =>
    simp only [Sim.apply, Option.some.injEq] at h
    subst h
    unfold Sim.overwrite
    rw [(updateStatus_eq _ road time dt).2.2.1]
    split <;> rfl

/-- The ego is where its model says, seen from the pose of its spawning. -/
def Placed (e : Sim) (o : Pt) (θ : ℝ) : Prop :=
  e.initial = ⟨o, upright θ⟩ ∧ AheadLeft o θ e.model.state.x e.model.state.y e.status.pose.position

theorem overwritten_xy (e : Sim) (g : Given) (p : Pt) (junk : ℝ) : (e.overwritten g p junk).x = p.x ∧ (e.overwritten g p junk).y = p.y := by
  unfold Sim.overwritten; cases e.model.kind <;> exact ⟨rfl, rfl⟩

theorem placed_of {e : Sim} {θ dt : ℝ} {o : Pt} (road : Pose → Option Lane) (time : Option ℝ) (hi : e.initial = ⟨o, upright θ⟩)
    (hx : e.relative.x = e.model.state.x) (hy : e.relative.y = e.model.state.y) : Placed (e.updateStatus road time dt) o θ := by
  obtain ⟨e1, e2, e3, _⟩ := updateStatus_eq e road time dt
  refine ⟨by rw [e3, hi], ?_⟩
  rw [e1, e2]
  have := (currentPose_upright (e := e) (θ := θ) (by rw [hi])).1
  obtain ⟨x1, x2⟩ := onLane_xy e.getCurrentPose (road e.getCurrentPose)
  unfold AheadLeft at this ⊢
  simp only
  rw [x1, x2, ← hx, ← hy, this.1, this.2, hi]
  exact ⟨rfl, rfl⟩

theorem placed_apply {e e' : Sim} {dt θ : ℝ} {o : Pt} {op : Op} (hi : e.initial = ⟨o, upright θ⟩) (hs : Settled op) (h : e.apply dt op = some e') :
    Placed e' o θ := by
  cases op with
  | update road time started c =>
    obtain ⟨m, _, rfl⟩ := update_inv (e := e) h
    exact placed_of road time hi rfl rfl
  | overwrite road g time started junk =>
    simp only [Settled] at hs
    subst hs
    simp only [Sim.apply, Option.some.injEq] at h
    subst h
    unfold Sim.overwrite
    simp only [if_true]
    exact placed_of road time hi (overwritten_xy _ g _ junk).1.symm (overwritten_xy _ g _ junk).2.symm

theorem placed_make {kind : Kind} {p : Params} {dt : ℝ} {map : AccMap} {m : Model} (h : Model.make kind p dt map = some m) (wb : ℝ) (slope : Bool)
    (road : Pose → Option Lane) (o : Pt) (θ : ℝ) : Placed (Sim.make m wb slope road ⟨o, upright θ⟩) o θ := by
  refine ⟨rfl, ?_⟩
  have hs := (make_state h).1
  unfold Sim.make Sim.setStatus Sim.setAutowareStatus AheadLeft
  simp [onLane_xy, hs]

theorem run_cons {e e' : Sim} {dt : ℝ} {op : Op} {l : List Op} (h : e.run dt (op :: l) = some e') :
    ∃ d, e.apply dt op = some d ∧ d.run dt l = some e' := by
  unfold Sim.run at h
  simpa only [Option.bind_eq_bind, Option.bind_eq_some_iff] using h

theorem placed_run {dt θ : ℝ} {o : Pt} (l : List Op) (hl : ∀ op ∈ l, Settled op) : ∀ {e e' : Sim}, Placed e o θ → e.run dt l = some e' → Placed e' o θ := by
  induction l with
  | nil => intro e e' hp h; simp only [Sim.run, Option.some.injEq] at h; exact h ▸ hp
  | cons op l ih =>
    intro e e' hp h
    obtain ⟨d, h1, h2⟩ := run_cons h
    exact ih (fun op ho => hl op (List.mem_cons_of_mem _ ho)) (placed_apply hp.1 (hl op List.mem_cons_self) h1) h2

/-- C101: spawn an ego upright at `o` with the heading `θ`. After any sequence of updates and of overwritings after the start, it is seen from
above where its vehicle model has driven to, counted from the pose of the spawning. -/
theorem C101_place (kind : Kind) (p : Params) (dt : ℝ) (map : AccMap) (m : Model) (wb : ℝ) (slope : Bool) (road : Pose → Option Lane) (o : Pt)
    (θ : ℝ) (l : List Op) (e : Sim) (hm : Model.make kind p dt map = some m) (hl : ∀ op ∈ l, Settled op)
    (h : (Sim.make m wb slope road ⟨o, upright θ⟩).run dt l = some e) :
    AheadLeft o θ e.model.state.x e.model.state.y e.status.pose.position :=
  (placed_run l hl (placed_make hm wb slope road o θ) h).2

/-- C101: the same for the heading: off the lanes an ego spawned upright with the heading `θ` is upright, turned by the yaw of its model; on a
lane it has the orientation and the height of the lane. -/
theorem C101_orientation (e e' : Sim) (o : Pt) (θ dt : ℝ) (road : Pose → Option Lane) (time : Option ℝ) (started : Bool) (c : Command)
    (hi : e.initial = ⟨o, upright θ⟩) (h : e.update road time dt started c = some e') :
    (e'.status.lane = none → e'.status.pose.orientation = upright (θ + e'.model.state.yaw) ∧ e'.status.pose.position.z = e.status.pose.position.z) ∧
    ∀ lane, e'.status.lane = some lane → e'.status.pose.orientation = lane.pose.orientation ∧ e'.status.pose.position.z = lane.pose.position.z := by
  obtain ⟨m, _, rfl⟩ := update_inv h
  obtain ⟨e1, e2, _⟩ := updateStatus_eq { e with model := m, relative := ⟨m.state.x, m.state.y, (e.toLocal e.status.pose.position).z⟩ : Sim } road time dt
  obtain ⟨-, z, q⟩ := currentPose_upright (e := { e with model := m, relative := ⟨m.state.x, m.state.y, (e.toLocal e.status.pose.position).z⟩ : Sim }) (θ := θ)
    (by simp [hi])
  have hz : (e.toLocal e.status.pose.position).z = e.status.pose.position.z - o.z := by
    unfold Sim.toLocal; rw [hi]; simp only [conj_upright, rotate_upright]; simp [Pt.sub]
  rw [e1, e2]
  constructor
  · intro hn
    simp only at hn
    rw [hn]
    simp only [onLane]
    refine ⟨q, ?_⟩
    rw [z, hz, hi]; ring
  · intro lane hn
    simp only at hn
    rw [hn]
    exact ⟨rfl, rfl⟩

/-- C101: the lane of the ego is the one the road has for it, given where it is seen from above, at its last height, with its heading. -/
theorem C101_lane (e e' : Sim) (o : Pt) (θ dt : ℝ) (road : Pose → Option Lane) (time : Option ℝ) (started : Bool) (c : Command)
    (hi : e.initial = ⟨o, upright θ⟩) (h : e.update road time dt started c = some e') :
    e'.status.lane = road ⟨⟨e'.status.pose.position.x, e'.status.pose.position.y, e.status.pose.position.z⟩, upright (θ + e'.model.state.yaw)⟩ := by
  obtain ⟨m, _, rfl⟩ := update_inv h
  obtain ⟨e1, e2, _⟩ := updateStatus_eq { e with model := m, relative := ⟨m.state.x, m.state.y, (e.toLocal e.status.pose.position).z⟩ : Sim } road time dt
  obtain ⟨-, z, q⟩ := currentPose_upright (e := { e with model := m, relative := ⟨m.state.x, m.state.y, (e.toLocal e.status.pose.position).z⟩ : Sim }) (θ := θ)
    (by simp [hi])
  have hz : (e.toLocal e.status.pose.position).z = e.status.pose.position.z - o.z := by
    unfold Sim.toLocal; rw [hi]; simp only [conj_upright, rotate_upright]; simp [Pt.sub]
  rw [e1, e2]
  obtain ⟨x1, x2⟩ := onLane_xy ({ e with model := m, relative := ⟨m.state.x, m.state.y, (e.toLocal e.status.pose.position).z⟩ : Sim }).getCurrentPose
    (road ({ e with model := m, relative := ⟨m.state.x, m.state.y, (e.toLocal e.status.pose.position).z⟩ : Sim }).getCurrentPose)
  have hz' : e.initial.position.z + (e.toLocal e.status.pose.position).z = e.status.pose.position.z := by rw [hz, hi]; ring
  have parts : ∀ (P : Pose) (a : ℝ) (b : Quat), P.position.z = a → P.orientation = b → P = ⟨⟨P.position.x, P.position.y, a⟩, b⟩ := by
    rintro ⟨⟨_, _, _⟩, _⟩ _ _ rfl rfl; rfl
  simp only [x1, x2]
  exact congrArg road (parts _ _ _ (z.trans hz') q)

/-- C101: in one update the ego moves over the map, seen from above, exactly as far as its model does. -/
theorem moves_as_model {e e' : Sim} {o : Pt} {θ : ℝ} (h : Placed e o θ) (h' : Placed e' o θ) :
    (e'.status.pose.position.x - e.status.pose.position.x) ^ 2 + (e'.status.pose.position.y - e.status.pose.position.y) ^ 2 =
      (e'.model.state.x - e.model.state.x) ^ 2 + (e'.model.state.y - e.model.state.y) ^ 2 := by
  obtain ⟨-, a1, a2⟩ := h
  obtain ⟨-, b1, b2⟩ := h'
  rw [a1, a2, b1, b2]
  have := Real.sin_sq_add_cos_sq θ
  linear_combination ((e'.model.state.x - e.model.state.x) ^ 2 + (e'.model.state.y - e.model.state.y) ^ 2) * this

/-- The speed in the status is that of the model. -/
theorem reported_vx {kind : Kind} {p : Params} {dt : ℝ} {map : AccMap} {m : Model} (hm : Model.make kind p dt map = some m) (wb : ℝ)
    (slope : Bool) (road : Pose → Option Lane) (pose : Pose) (l : List Op) {e : Sim} (h : (Sim.make m wb slope road pose).run dt l = some e) :
    e.status.motion.vx = e.model.getVx ∧ e.status.motion.wz = e.model.getWz := by
  have step : ∀ (l : List Op) (e e' : Sim), e.status.motion.vx = e.model.getVx ∧ e.status.motion.wz = e.model.getWz → e.run dt l = some e' →
      e'.status.motion.vx = e'.model.getVx ∧ e'.status.motion.wz = e'.model.getWz := by
    intro l
    induction l with
    | nil => intro e e' hp h; simp only [Sim.run, Option.some.injEq] at h; exact h ▸ hp
    | cons op l ih =>
      intro e e' hp h
      obtain ⟨d, h1, h2⟩ := run_cons h
      refine ih d e' ?_ h2
      have key : ∀ (e : Sim) road time, (e.updateStatus road time dt).status.motion.vx = (e.updateStatus road time dt).model.getVx ∧
          (e.updateStatus road time dt).status.motion.wz = (e.updateStatus road time dt).model.getWz := by
        intro e road time
        obtain ⟨e1, e2, _⟩ := updateStatus_eq e road time dt
        rw [e1, e2]
        simp only [Sim.motion]
        cases e.previous <;> exact ⟨rfl, rfl⟩
      cases op with
      | update road time started c =>
        obtain ⟨m, _, rfl⟩ := update_inv (e := e) h1
        exact key _ _ _
      | overwrite road g time started junk =>
        simp only [Sim.apply, Option.some.injEq] at h1
        subst h1
        exact key _ _ _
  refine step l _ e ?_ h
  have hs := make_state hm
  have hi : m.input = {} := by
    unfold Model.make at hm
    cases hk : kind.delayed
    · simp only [hk, Bool.false_eq_true, if_false, Option.some.injEq] at hm; subst hm; rfl
    · simp only [hk, if_true, Option.bind_eq_bind, Option.bind_eq_some_iff, Option.pure_def, Option.some.injEq] at hm
      obtain ⟨_, _, _, _, rfl⟩ := hm; rfl
  unfold Sim.make Sim.setStatus Sim.setAutowareStatus Model.getVx Model.getWz
  simp only [hi, hs.1]
  cases m.kind <;> simp

theorem slope_abs (e : Sim) : |e.slope| ≤ 9.81 := by
  unfold Sim.slope
  split
  · next lane _ _ =>
    rw [abs_mul, abs_neg]
    have h1 : |(-9.81 : ℝ)| = 9.81 := by norm_num
    rw [h1]
    have := Real.abs_sin_le_one lane.pitch
    nlinarith
  · norm_num

theorem signOf_abs (g : Gear) : |signOf g| ≤ 1 := by
  unfold signOf; cases g <;> simp

theorem input_abs {e : Sim} (c : Command) (hk : e.model.kind = .idealAcc ∨ e.model.kind = .idealAccGeared) :
    |(e.input c).drive| ≤ |c.acceleration| + 9.81 := by
  have h : (e.input c).drive = signOf c.gear * c.acceleration + e.slope := by
    unfold Sim.input; rcases hk with hk | hk <;> rw [hk]
  rw [h]
  refine le_trans (abs_add_le _ _) ?_
  rw [abs_mul]
  have := signOf_abs c.gear
  have := slope_abs e
  nlinarith [abs_nonneg c.acceleration]

/-- C101: no jumps. Spawn an ego upright; after any sequence of updates and of overwritings after the start, one more update moves it over the
map by at most the top speed times the step (with a delayed model), by the speed of the command times the step (IDEAL_STEER_VEL), or by what
its speed and the commanded acceleration, with gravity, allow (the other ideal models). Before the start it does not move at all. -/
theorem C101_no_jump (kind : Kind) (p : Params) (dt : ℝ) (map : AccMap) (m : Model) (wb : ℝ) (slope : Bool) (road road' : Pose → Option Lane)
    (o : Pt) (θ : ℝ) (l : List Op) (e e' : Sim) (time : Option ℝ) (started : Bool) (c : Command) (hm : Model.make kind p dt map = some m)
    (hl : ∀ op ∈ l, Settled op) (h : (Sim.make m wb slope road ⟨o, upright θ⟩).run dt l = some e)
    (h' : e.update road' time dt started c = some e') :
    (started = false → e'.status.pose.position.x = e.status.pose.position.x ∧ e'.status.pose.position.y = e.status.pose.position.y) ∧
    (0 ≤ e.model.p.vxLim → started = true →
      (e.model.kind.delayed = true → CloseTo e.status.pose.position e'.status.pose.position (e.model.p.vxLim * dt)) ∧
      (e.model.kind = .idealVel → CloseTo e.status.pose.position e'.status.pose.position (c.speed * dt)) ∧
      (0 ≤ dt → e.model.kind = .idealAcc ∨ e.model.kind = .idealAccGeared →
        CloseTo e.status.pose.position e'.status.pose.position (|e.status.motion.vx| * dt + (|c.acceleration| + 9.81) * dt ^ 2 / 2))) := by
  have P := placed_run l hl (placed_make hm wb slope road o θ) h
  have P' : Placed e' o θ := placed_apply (op := .update road' time started c) P.1 trivial h'
  have M := moves_as_model P P'
  obtain ⟨m', hm', rfl⟩ := update_inv h'
  constructor
  · intro hs
    obtain ⟨-, a1, a2⟩ := P
    obtain ⟨-, b1, b2⟩ := P'
    subst hs
    simp only [Bool.false_eq_true, if_false, Option.some.injEq] at hm'
    subst hm'
    rw [a1, a2, b1, b2]
    exact ⟨rfl, rfl⟩
  · intro hlim hs
    subst hs
    simp only [if_true] at hm'
    obtain ⟨d1, d2, d3⟩ := C98_distance e.model m' c.gear (e.input c) dt hlim hm'
    have fin : ∀ d, Within e.model.state m'.state d → CloseTo e.status.pose.position (Sim.updateStatus
        { e with model := m', relative := ⟨m'.state.x, m'.state.y, (e.toLocal e.status.pose.position).z⟩ : Sim } road' time dt).status.pose.position d := by
      intro d hd
      unfold CloseTo
      rw [M]
      exact hd
    refine ⟨fun hk => fin _ (d1 hk), fun hk => fin _ ?_, fun hd hk => fin _ ?_⟩
    · have := d2 hk
      unfold Sim.input at this
      rwa [hk] at this
    · have hv := (reported_vx hm wb slope road ⟨o, upright θ⟩ l h).1
      have hn : e.model.kind ≠ .idealVel := by rcases hk with hk | hk <;> rw [hk] <;> decide
      rw [hv, getVx_eq hn]
      have := d3 hd hk
      unfold Within at this ⊢
      refine le_trans this ?_
      have hi := input_abs c hk
      have h0 : 0 ≤ |e.model.state.vx| * dt := mul_nonneg (abs_nonneg _) hd
      have h1 : |(e.input c).drive| * dt ^ 2 / 2 ≤ (|c.acceleration| + 9.81) * dt ^ 2 / 2 := by nlinarith [sq_nonneg dt]
      have h2 : 0 ≤ |(e.input c).drive| * dt ^ 2 / 2 := by positivity
      exact pow_le_pow_left₀ (by linarith) (by linarith) 2

/-- C101, whatever the orientation of the spawning: off the lanes the ego is where its model has driven to in the plane of the spawning, at the
distance from that plane that it had before. -/
theorem C101_tilted (e e' : Sim) (dt a b h : ℝ) (road : Pose → Option Lane) (time : Option ℝ) (started : Bool) (c : Command)
    (hu : Geometry.Unit e.initial.orientation) (hp : e.status.pose.position = transformPoint e.initial ⟨a, b, h⟩)
    (he : e.update road time dt started c = some e') (hn : e'.status.lane = none) :
    e'.status.pose.position = transformPoint e.initial ⟨e'.model.state.x, e'.model.state.y, h⟩ := by
  have hz : (e.toLocal e.status.pose.position).z = h := by
    unfold Sim.toLocal
    rw [hp]
    unfold transformPoint
    rw [sub_add_cancel_pt, rotate_conj hu]
  obtain ⟨m, _, rfl⟩ := update_inv he
  obtain ⟨e1, e2, _⟩ := updateStatus_eq { e with model := m, relative := ⟨m.state.x, m.state.y, (e.toLocal e.status.pose.position).z⟩ : Sim } road time dt
  rw [e1] at hn ⊢
  rw [e2]
  simp only at hn
  rw [hn]
  simp only [onLane, Sim.getCurrentPose, transformPoint, hz]
  unfold Pt.add
  ext <;> simp only <;> ring

/-- A parameter set for the examples; the ideal models use the wheel base only. -/
noncomputable def plain : Params := ⟨10, 1, 5, 5, 1, 0, 0, 0, 0, 0, 0, 1, 1⟩

/-- An ego with IDEAL_STEER_VEL at the origin. -/
noncomputable def idealEgo (q : Quat) (road : Pose → Option Lane) : Sim := Sim.make { kind := .idealVel, p := plain } 1 false road ⟨⟨0, 0, 0⟩, q⟩

theorem make_ideal : Model.make .idealVel plain 1 ⟨[], [], []⟩ = some { kind := .idealVel, p := plain } := rfl

/-- One step of IDEAL_STEER_VEL with the wheels straight. -/
theorem straight_step (m : Model) (v : ℝ) (g : Gear) (hk : m.kind = .idealVel) (hy : m.state.yaw = 0) :
    ∃ m', m.step g { drive := v } 1 = some m' ∧ m'.state.x = m.state.x + v ∧ m'.state.y = m.state.y ∧ m'.state.yaw = 0 ∧ m'.kind = .idealVel ∧
      m'.getVx = v := by
  obtain ⟨m', h⟩ := step_total m (by rw [hk]; decide) g { drive := v } 1
  obtain ⟨h1, h2, h3⟩ := C98_ideal_vel m m' g { drive := v } 1 hk h
  obtain ⟨h4, h5⟩ := h3 (by simp)
  refine ⟨m', h, by rw [h4, hy]; simp, by rw [h5, hy]; simp, by rw [h2, hy]; simp, by rw [(step_kept h).kind, hk], h1⟩

/-- C101 fails for an overwriting before the start of the scenario: the ego is reported where it was put, and the next update reports it back
where it was spawned. -/
theorem C101_early_violated :
    ∃ (g : Given) (c : Command) (e1 e2 : Sim), (idealEgo (upright 0) fun _ => none).apply 1 (.overwrite (fun _ => none) g none false 0) = some e1 ∧
      e1.update (fun _ => none) none 1 false c = some e2 ∧ g.pose.position.x = 5 ∧ e1.status.pose.position.x = 5 ∧ e2.status.pose.position.x = 0 := by
  refine ⟨⟨⟨⟨5, 0, 0⟩, upright 0⟩, 0, 0, 0⟩, ⟨0, 0, 0, .drive 0⟩, _, _, rfl, rfl, rfl, ?_, ?_⟩
  · simp [Sim.overwrite, idealEgo, Sim.make, Sim.setStatus, Sim.setAutowareStatus, Sim.updateStatus, onLane, Sim.getCurrentPose, Sim.toLocal, Pt.sub,
      Pt.add, conj_upright, rotate_upright]
  · simp [Sim.overwrite, idealEgo, Sim.make, Sim.setStatus, Sim.setAutowareStatus, Sim.updateStatus, onLane, Sim.getCurrentPose,
      Pt.add, rotate_upright]

/-- The height and orientation of a level road at height 0. -/
noncomputable def level : Pose → Option Lane := fun p => some ⟨⟨⟨p.position.x, p.position.y, 0⟩, upright 0⟩, 0⟩

theorem step_again (e : Sim) (c : Command) (hk : e.model.kind = .idealVel) (hy : e.model.state.yaw = 0) (hc : c.tireAngle = 0) :
    ∃ e', e.update level none 1 true c = some e' ∧ e'.initial = e.initial ∧ e'.model.kind = .idealVel ∧ e'.model.state.yaw = 0 ∧
      e'.model.state.x = e.model.state.x + c.speed ∧ e'.model.state.y = e.model.state.y ∧ e'.status.motion.vx = c.speed ∧
      e'.status.pose.position = ⟨(e.initial.position.add (rotate e.initial.orientation
        ⟨e.model.state.x + c.speed, e.model.state.y, (e.toLocal e.status.pose.position).z⟩)).x,
        (e.initial.position.add (rotate e.initial.orientation
        ⟨e.model.state.x + c.speed, e.model.state.y, (e.toLocal e.status.pose.position).z⟩)).y, 0⟩ := by
  obtain ⟨m', h, h1, h2, h3, h4, h5⟩ := straight_step e.model c.speed c.gear hk hy
  have hin : e.input c = { drive := c.speed } := by unfold Sim.input; rw [hk]; simp [hc]
  refine ⟨_, update_of_step level none (by rw [hin]; exact h), ?_⟩
  · obtain ⟨e1, e2, e3, _⟩ := updateStatus_eq
      { e with model := m', relative := ⟨m'.state.x, m'.state.y, (e.toLocal e.status.pose.position).z⟩ : Sim } level none 1
    rw [e1, e2, e3]
    refine ⟨rfl, h4, h3, h1, h2, ?_, ?_⟩
    · simp only [Sim.motion]; cases e.previous <;> exact h5
    · simp only [onLane, level, Sim.getCurrentPose, h1, h2]

/-- C101 fails for an ego that is spawned tilted, as on a slope, and then drives on level ground: with the wheels straight and the reported
speed 1, one update moves it over the map by more than the speed times the step. -/
theorem C101_tilted_violated :
    ∃ (q : Quat) (c : Command) (e1 e2 : Sim), Geometry.Unit q ∧ (idealEgo q level).update level none 1 true c = some e1 ∧
      e1.update level none 1 true c = some e2 ∧ e1.status.motion.vx = 1 ∧ e2.status.motion.vx = 1 ∧
      ¬ CloseTo e1.status.pose.position e2.status.pose.position (1 * 1) := by
  obtain ⟨e1, u1, i1, k1, y1, x1, yy1, v1, p1⟩ := step_again (idealEgo ⟨0, 5 / 13, 0, 12 / 13⟩ level) ⟨1, 0, 0, .drive 0⟩ rfl rfl rfl
  obtain ⟨e2, u2, i2, k2, y2, x2, yy2, v2, p2⟩ := step_again e1 ⟨1, 0, 0, .drive 0⟩ k1 y1 rfl
  refine ⟨⟨0, 5 / 13, 0, 12 / 13⟩, ⟨1, 0, 0, .drive 0⟩, e1, e2, by unfold Geometry.Unit; norm_num, u1, u2, v1, v2, ?_⟩
  have hi : (idealEgo ⟨0, 5 / 13, 0, 12 / 13⟩ level).initial = ⟨⟨0, 0, 0⟩, ⟨0, 5 / 13, 0, 12 / 13⟩⟩ := rfl
  have hx : (idealEgo ⟨0, 5 / 13, 0, 12 / 13⟩ level).model.state = {} := rfl
  have hl : (Sim.toLocal (idealEgo ⟨0, 5 / 13, 0, 12 / 13⟩ level) (idealEgo ⟨0, 5 / 13, 0, 12 / 13⟩ level).status.pose.position).z = 0 := by
    simp [Sim.toLocal, idealEgo, Sim.make, Sim.setStatus, Sim.setAutowareStatus, level, onLane, rotate, Pt.sub, Quat.conj]
  rw [hl, hi, hx] at p1
  rw [hx] at x1 yy1
  have hl2 : (e1.toLocal e1.status.pose.position).z = 120 / 169 * (119 / 169) := by
    unfold Sim.toLocal
    rw [i1, hi, p1]
    simp only [Pt.sub, Pt.add, rotate, Quat.conj]
    norm_num
  rw [hl2, i1, hi, x1, yy1] at p2
  unfold CloseTo
  rw [p1, p2]
  simp only [Pt.add, rotate]
  norm_num

theorem update_total (e : Sim) (hk : e.model.kind ≠ .delayMapAccGeared) (road : Pose → Option Lane) (time : Option ℝ) (dt : ℝ) (c : Command) :
    ∃ e', e.update road time dt true c = some e' := by
  obtain ⟨m, h⟩ := step_total e.model hk c.gear (e.input c) dt
  exact ⟨_, update_of_step road time h⟩

/-- The hypotheses of `C101_place` and `C101_no_jump` are met by an ego that is driven, overwritten and driven again. -/
example : ∃ (l : List Op) (e e' : Sim), (∀ op ∈ l, Settled op) ∧ l.length = 2 ∧ (idealEgo (upright 1) level).run 1 l = some e ∧
    e.update level none 1 true ⟨2, 0, 0, .drive 0⟩ = some e' := by
  obtain ⟨e1, u1, -, k, -⟩ := step_again (idealEgo (upright 1) level) ⟨1, 0, 0, .drive 0⟩ rfl rfl rfl
  obtain ⟨e2, u2⟩ := update_total (e1.overwrite (fun _ => none) ⟨⟨⟨3, 4, 0⟩, upright 2⟩, 1, 0, 0⟩ (some 1) 1 true 0)
    (by
      have : (e1.overwrite (fun _ => none) ⟨⟨⟨3, 4, 0⟩, upright 2⟩, 1, 0, 0⟩ (some 1) 1 true 0).model.kind = e1.model.kind := rfl
      rw [this, k]; decide) level none 1 ⟨2, 0, 0, .drive 0⟩
  refine ⟨[.update level none true ⟨1, 0, 0, .drive 0⟩, .overwrite (fun _ => none) ⟨⟨⟨3, 4, 0⟩, upright 2⟩, 1, 0, 0⟩ (some 1) true 0],
    _, e2, ?_, rfl, ?_, u2⟩
  · intro op ho
    simp only [List.mem_cons, List.not_mem_nil, or_false] at ho
    rcases ho with rfl | rfl
    · trivial
    · rfl
  · simp [Sim.run, Sim.apply, u1]

end Verif.Ego
