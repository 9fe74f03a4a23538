import Mathlib.Analysis.SpecialFunctions.Trigonometric.Basic
import Mathlib.Algebra.Order.Floor.Semiring
import Mathlib.Analysis.SpecialFunctions.Trigonometric.Arctan
import Mathlib.Order.Interval.Set.UnorderedInterval
/-
The vehicle models that move the ego entity:
/repo/simulation/simple_sensor_simulator/src/vehicle_simulation/vehicle_model, called VM below.

Arithmetic is that of the real numbers. Division by zero, which in the code gives an infinity or NaN, gives 0 here; the theorems that
divide by the step time or by a time constant assume it to be positive. A thrown exception is `none`.
-/
namespace Verif.Vehicle
open Classical

/-- The gears of `autoware_vehicle_msgs::msg::GearCommand` (not in /repo). `drive 0` is `DRIVE` and `drive k` is `DRIVE_(k+1)`;
`other` is any number that is not one of its constants. -/
inductive Gear where
  | none | neutral | drive (k : Fin 18) | reverse | reverse2 | park | low | low2 | other (n : Nat)
  deriving DecidableEq

/-- The state vector of the models (`enum IDX` in the headers of VM). A model uses a prefix of the components: three (X, Y, YAW) for
IDEAL_STEER_VEL, four (VX) for the other ideal ones, five (STEER) for DELAY_STEER_VEL, six (ACCX) for those with a delayed acceleration and
seven (PEDAL_ACCX) for the one without fall guard. The derivative of an unused component is zero here. -/
@[ext] structure State where
  x : ℝ := 0
  y : ℝ := 0
  yaw : ℝ := 0
  vx : ℝ := 0
  steer : ℝ := 0
  acc : ℝ := 0
  pedal : ℝ := 0

/-- `a + b` of `Eigen::VectorXd` (Eigen, not in /repo). -/
def State.add (a b : State) : State :=
  ⟨a.x + b.x, a.y + b.y, a.yaw + b.yaw, a.vx + b.vx, a.steer + b.steer, a.acc + b.acc, a.pedal + b.pedal⟩

/-- `a * k` of `Eigen::VectorXd` (Eigen, not in /repo). -/
def State.scale (a : State) (k : ℝ) : State :=
  ⟨a.x * k, a.y * k, a.yaw * k, a.vx * k, a.steer * k, a.acc * k, a.pedal * k⟩

/-- The input vector of the models (`enum IDX_U` in the headers of VM). `drive` is VX_DES, AX_DES, ACCX_DES or PEDAL_ACCX_DES; the last two
components exist only in the model without fall guard. -/
@[ext] structure Input where
  drive : ℝ := 0
  steer : ℝ := 0
  gear : Gear := .none
  slope : ℝ := 0

/-- `SimModelInterface::updateRungeKutta`, VM/sim_model_interface.cpp, lines 23-31. -/
noncomputable def rungeKutta (f : State → Option State) (dt : ℝ) (s : State) : Option State := do
  let k1 ← f s
  let k2 ← f (s.add (k1.scale (0.5 * dt)))
  let k3 ← f (s.add (k2.scale (0.5 * dt)))
  let k4 ← f (s.add (k3.scale dt))
  return s.add ((((k1.add (k2.scale 2)).add (k3.scale 2)).add k4).scale (1 / 6 * dt))

/-- `SimModelInterface::updateEuler`, VM/sim_model_interface.cpp, lines 32-35. -/
def euler (f : State → Option State) (dt : ℝ) (s : State) : Option State := do
  let d ← f s
  return s.add (d.scale dt)

/-- `sat`, VM/sim_model_delay_steer_vel.cpp, line 80, sim_model_delay_steer_acc.cpp, line 82, sim_model_delay_steer_acc_geared.cpp, line 89,
and sim_model_delay_steer_acc_geared_wo_fall_guard.cpp, line 114. -/
noncomputable def sat (val u l : ℝ) : ℝ := max (min val u) l

/-- `std::clamp` (C++ standard library, not in /repo). It is undefined for `hi < lo`, which needs a negative limit. -/
noncomputable def clamp (val lo hi : ℝ) : ℝ := if val < lo then lo else if hi < val then hi else val

/-- `steer_diff_with_dead_band`, VM/sim_model_delay_steer_vel.cpp, lines 91-99, and the same lines of the other delayed models. -/
noncomputable def deadBand (diff band : ℝ) : ℝ :=
  if diff > band then diff - band else if diff < -band then diff + band else 0

/-- The types of `VehicleModelType`,
/repo/simulation/simple_sensor_simulator/include/simple_sensor_simulator/vehicle_simulation/ego_entity_simulation.hpp, lines 29-38. -/
inductive Kind where
  | delayAcc | delayAccGeared | delayAccGearedNoGuard | delayMapAccGeared | delayVel | idealAcc | idealAccGeared | idealVel
  deriving DecidableEq

/-- The constructor arguments of the models. `driveDelay` and `driveConst` are `vx_delay` and `vx_time_constant` of DELAY_STEER_VEL and
`acc_delay` and `acc_time_constant` of the others. -/
structure Params where
  vxLim : ℝ
  steerLim : ℝ
  vxRateLim : ℝ
  steerRateLim : ℝ
  wheelbase : ℝ
  driveDelay : ℝ
  driveConst : ℝ
  steerDelay : ℝ
  steerConst : ℝ
  steerBand : ℝ
  steerBias : ℝ
  accScale : ℝ
  steerScale : ℝ

/-- The initialiser lists of the constructors, VM/sim_model_delay_steer_acc.cpp, lines 23-36, and the same lines of the other delayed
models: a time constant is at least `MIN_TIME_CONSTANT` and a scaling factor at least zero. -/
noncomputable def Params.fixed (p : Params) : Params :=
  { p with
    driveConst := max p.driveConst 0.03
    steerConst := max p.steerConst 0.03
    accScale := max p.accScale 0
    steerScale := max p.steerScale 0 }

/-- The acceleration map of DELAY_STEER_MAP_ACC_GEARED: `AccelerationMap`,
/repo/simulation/simple_sensor_simulator/include/simple_sensor_simulator/vehicle_simulation/vehicle_model/sim_model_delay_steer_map_acc_geared.hpp,
lines 161-207. -/
structure AccMap where
  vel : List ℝ
  acc : List ℝ
  rows : List (List ℝ)

/-- `interpolation_utils::isIncreasing`, sim_model_delay_steer_map_acc_geared.hpp, lines 34-47, for a list that is not empty. -/
def isIncreasing : List ℝ → Prop
  | a :: b :: l => ¬ a ≥ b ∧ isIncreasing (b :: l)
  | _ => True

/-- The loop of `interpolation::lerp`, VM/sim_model_delay_steer_map_acc_geared.cpp, lines 36-50, for one key: skip while the next base key is
less than the query key. `none` is the exception of `at`. -/
noncomputable def lerpLoop : List ℝ → List ℝ → ℝ → Option ℝ
  | a :: b :: keys, u :: v :: values, q =>
    if b < q then lerpLoop (b :: keys) (v :: values) q else some (u + (v - u) * ((q - a) / (b - a)))
  | _, _, _ => none

/-- `interpolation::lerp` of one key, VM/sim_model_delay_steer_map_acc_geared.cpp, lines 22-59, with `validateKeys` and
`validateKeysAndValues`, sim_model_delay_steer_map_acc_geared.hpp, lines 64-120. -/
noncomputable def lerp (keys values : List ℝ) (q : ℝ) : Option ℝ :=
  if keys = [] then none
  else if keys.length < 2 then none
  else if ¬ isIncreasing keys then none
  else if q < keys.headD 0 - 1 / 1000 ∨ keys.getLastD 0 + 1 / 1000 < q then none
  else
    let q := min (max q (keys.headD 0)) (keys.getLastD 0)
    if values = [] ∨ values.length < 2 ∨ keys.length ≠ values.length then none
    else lerpLoop keys values q

/-- `CSVLoader::clampValue`, VM/sim_model_delay_steer_map_acc_geared.cpp, lines 179-192. The maximum of no elements is undefined. -/
noncomputable def clampValue (val : ℝ) (ranges : List ℝ) : Option ℝ :=
  match ranges with
  | [] => none
  | r :: rs =>
    let maxValue := rs.foldl max r
    let minValue := rs.foldl min r
    if val < minValue ∨ maxValue < val then some (min (max val minValue) maxValue) else some val

/-- `AccelerationMap::getAcceleration`, sim_model_delay_steer_map_acc_geared.hpp, lines 184-202. -/
noncomputable def AccMap.getAcceleration (m : AccMap) (accDes vel : ℝ) : Option ℝ := do
  let clampedVel ← clampValue vel m.vel
  let column ← m.rows.mapM fun row => lerp m.vel row clampedVel
  let clampedAcc ← clampValue accDes m.acc
  lerp m.acc column clampedAcc

/-- `CSVLoader::validateData`, VM/sim_model_delay_steer_map_acc_geared.cpp, lines 127-149. -/
def validateData {α : Type} : List (List α) → Bool
  | [] => false
  | header :: table => decide (¬ header.length < 2) && table.all fun row => header.length == row.length

/-- `AccelerationMap::readAccelerationMapFromCSV`, sim_model_delay_steer_map_acc_geared.hpp, lines 164-182, with `readCSV`, `getMap`,
`getRowIndex` and `getColumnIndex` of `CSVLoader`, VM/sim_model_delay_steer_map_acc_geared.cpp, lines 64-89 and 151-177. A file that cannot
be opened is `none`, else it is the list of its lines, each a list of cells; splitting a line into cells is not modelled. `num` is
`std::stod`, `none` where it throws. The constructor, line 212, ignores the result `false`: the map is then empty. -/
def readMap {α : Type} (num : α → Option ℝ) (file : Option (List (List α))) : Option AccMap :=
  match file with
  | none => some ⟨[], [], []⟩
  | some lines =>
    let table := lines.filter fun tokens => !tokens.isEmpty
    if validateData table then do
      let vel ← (table.headD []).tail.mapM num
      let acc ← table.tail.mapM fun row => row.head?.bind num
      let rows ← table.tail.mapM fun row => row.tail.mapM num
      return ⟨vel, acc, rows⟩
    else some ⟨[], [], []⟩

/-- A model of the ego: `SimModelInterface`,
/repo/simulation/simple_sensor_simulator/include/simple_sensor_simulator/vehicle_simulation/vehicle_model/sim_model_interface.hpp, lines
25-34, with the members of its subclasses: the input queues of the delayed models, `current_ax_` of the velocity models and `current_acc_`
of IDEAL_STEER_ACC_GEARED as `ax`, `prev_vx_` of IDEAL_STEER_VEL, and the acceleration map. -/
structure Model where
  kind : Kind
  p : Params
  state : State := {}
  input : Input := {}
  gear : Gear := .drive 0
  driveQueue : List ℝ := []
  steerQueue : List ℝ := []
  ax : ℝ := 0
  prevVx : ℝ := 0
  map : AccMap := ⟨[], [], []⟩

/-- The size of an input queue, `static_cast<size_t>(round(delay / dt))`, VM/sim_model_delay_steer_vel.cpp, lines 67 and 71, and
`initializeInputQueue` of the other delayed models. `none` is undefined behaviour: a negative number is converted to `size_t`, or the
quotient is not finite. `round` takes halves away from zero. -/
noncomputable def queueSize (delay dt : ℝ) : Option Nat :=
  if dt = 0 then none else if delay / dt ≤ -(1 / 2) then none else some ⌊delay / dt + 1 / 2⌋₊

/-- The delayed models, whose constructors call `initializeInputQueue`. -/
def Kind.delayed : Kind → Bool
  | .delayAcc | .delayAccGeared | .delayAccGearedNoGuard | .delayMapAccGeared | .delayVel => true
  | .idealAcc | .idealAccGeared | .idealVel => false

/-- The constructors of the models with `initializeInputQueue`: VM/sim_model_delay_steer_vel.cpp, lines 18-36 and 65-75,
sim_model_delay_steer_acc.cpp, lines 18-39 and 68-77, sim_model_delay_steer_acc_geared.cpp, lines 19-40 and 75-84,
sim_model_delay_steer_acc_geared_wo_fall_guard.cpp, lines 22-44 and 100-109, sim_model_delay_steer_map_acc_geared.cpp, lines 194-213 and
248-257, and the ones of the ideal models. The map that was read is an argument. -/
noncomputable def Model.make (kind : Kind) (p : Params) (dt : ℝ) (map : AccMap) : Option Model :=
  if kind.delayed then do
    let n ← queueSize p.driveDelay dt
    let m ← queueSize p.steerDelay dt
    return { kind, p := p.fixed, driveQueue := List.replicate n 0, steerQueue := List.replicate m 0, map }
  else some { kind, p, map }

/-- `getVx`: VM/sim_model_ideal_steer_vel.cpp, line 25, and the same function of the other models. -/
def Model.getVx (m : Model) : ℝ := match m.kind with
  | .idealVel => m.input.drive
  | _ => m.state.vx

/-- `getAx`: VM/sim_model_ideal_steer_vel.cpp, line 27, sim_model_ideal_steer_acc.cpp, line 27, sim_model_ideal_steer_acc_geared.cpp, line 29,
sim_model_delay_steer_vel.cpp, line 43, and the same function of the other models. -/
def Model.getAx (m : Model) : ℝ := match m.kind with
  | .idealVel | .idealAccGeared | .delayVel => m.ax
  | .idealAcc => m.input.drive
  | _ => m.state.acc

/-- `getWz`: VM/sim_model_ideal_steer_vel.cpp, lines 28-31, sim_model_ideal_steer_acc.cpp, lines 28-31, sim_model_ideal_steer_acc_geared.cpp,
lines 30-33, and the same function of the delayed models. -/
noncomputable def Model.getWz (m : Model) : ℝ := match m.kind with
  | .idealVel => m.input.drive * Real.tan m.input.steer / m.p.wheelbase
  | .idealAcc | .idealAccGeared => m.state.vx * Real.tan m.input.steer / m.p.wheelbase
  | _ => m.state.vx * Real.tan m.state.steer / m.p.wheelbase

/-- `getSteer`: VM/sim_model_ideal_steer_vel.cpp, line 32, and the same function of the other models;
sim_model_delay_steer_acc_geared_wo_fall_guard.cpp, lines 63-67, adds the bias. -/
def Model.getSteer (m : Model) : ℝ := match m.kind with
  | .idealVel | .idealAcc | .idealAccGeared => m.input.steer
  | .delayAccGearedNoGuard => m.state.steer + m.p.steerBias
  | _ => m.state.steer

/-- `SimModelIdealSteerVel::calcModel`, VM/sim_model_ideal_steer_vel.cpp, lines 40-53. -/
noncomputable def calcIdealVel (p : Params) (u : Input) (s : State) : State :=
  { x := u.drive * Real.cos s.yaw, y := u.drive * Real.sin s.yaw, yaw := u.drive * Real.tan u.steer / p.wheelbase }

/-- `calcModel` of `SimModelIdealSteerAcc` and `SimModelIdealSteerAccGeared`, VM/sim_model_ideal_steer_acc.cpp, lines 35-50, and
sim_model_ideal_steer_acc_geared.cpp, lines 45-60. -/
noncomputable def calcIdealAcc (p : Params) (u : Input) (s : State) : State :=
  { x := s.vx * Real.cos s.yaw, y := s.vx * Real.sin s.yaw, vx := u.drive, yaw := s.vx * Real.tan u.steer / p.wheelbase }

/-- `SimModelDelaySteerVel::calcModel`, VM/sim_model_delay_steer_vel.cpp, lines 77-111. -/
noncomputable def calcDelayVel (p : Params) (u : Input) (s : State) : State :=
  let vx := sat s.vx p.vxLim (-p.vxLim)
  let steer := sat s.steer p.steerLim (-p.steerLim)
  let vxDes := sat u.drive p.vxLim (-p.vxLim)
  let vxRate := sat (-(vx - vxDes) / p.driveConst) p.vxRateLim (-p.vxRateLim)
  let steerDes := sat u.steer p.steerLim (-p.steerLim)
  let diff := deadBand (steer - steerDes) p.steerBand
  let steerRate := sat (-diff / p.steerConst) p.steerRateLim (-p.steerRateLim)
  { x := vx * Real.cos s.yaw, y := vx * Real.sin s.yaw, yaw := vx * Real.tan steer / p.wheelbase, vx := vxRate, steer := steerRate }

/-- `calcModel` of `SimModelDelaySteerAcc` and `SimModelDelaySteerAccGeared`, VM/sim_model_delay_steer_acc.cpp, lines 79-114, and
sim_model_delay_steer_acc_geared.cpp, lines 86-121. -/
noncomputable def calcDelayAcc (p : Params) (u : Input) (s : State) : State :=
  let vel := sat s.vx p.vxLim (-p.vxLim)
  let acc := sat s.acc p.vxRateLim (-p.vxRateLim)
  let accDes := sat u.drive p.vxRateLim (-p.vxRateLim) * p.accScale
  let steerDes := sat u.steer p.steerLim (-p.steerLim) * p.steerScale
  let diff := deadBand (s.steer - steerDes) p.steerBand
  let steerRate := sat (-diff / p.steerConst) p.steerRateLim (-p.steerRateLim)
  { x := vel * Real.cos s.yaw, y := vel * Real.sin s.yaw, yaw := vel * Real.tan s.steer / p.wheelbase, vx := acc, steer := steerRate
    acc := -(acc - accDes) / p.driveConst }

/-- The derivative of the velocity of the model without fall guard, the lambda in
VM/sim_model_delay_steer_acc_geared_wo_fall_guard.cpp, lines 145-169. -/
noncomputable def pedalAcc (u : Input) (vel pedal : ℝ) : ℝ :=
  if pedal ≥ 0 then
    if u.gear = .none ∨ u.gear = .park then 0
    else if u.gear = .neutral then u.slope
    else if u.gear = .reverse ∨ u.gear = .reverse2 then -pedal + u.slope
    else pedal + u.slope
  else if vel > 0 then pedal + u.slope
  else if vel < 0 then -pedal + u.slope
  else if -pedal ≥ |u.slope| then 0
  else u.slope

/-- `SimModelDelaySteerAccGearedWoFallGuard::calcModel`, VM/sim_model_delay_steer_acc_geared_wo_fall_guard.cpp, lines 111-174. `measured` is
`getSteer()`, which reads the member and not the argument. -/
noncomputable def calcNoGuard (p : Params) (u : Input) (measured : ℝ) (s : State) : State :=
  let vel := sat s.vx p.vxLim (-p.vxLim)
  let pedal := sat s.pedal p.vxRateLim (-p.vxRateLim)
  let pedalDes := sat u.drive p.vxRateLim (-p.vxRateLim) * p.accScale
  let steerDes := sat u.steer p.steerLim (-p.steerLim) * p.steerScale
  let diff := deadBand (measured - steerDes) p.steerBand
  let steerRate := sat (-diff / p.steerConst) p.steerRateLim (-p.steerRateLim)
  { x := vel * Real.cos s.yaw, y := vel * Real.sin s.yaw, yaw := vel * Real.tan s.steer / p.wheelbase, vx := pedalAcc u vel pedal
    steer := steerRate, pedal := -(pedal - pedalDes) / p.driveConst }

/-- `SimModelDelaySteerMapAccGeared::calcModel`, VM/sim_model_delay_steer_map_acc_geared.cpp, lines 259-283. -/
noncomputable def calcMap (p : Params) (map : AccMap) (u : Input) (s : State) : Option State := do
  let vel := clamp s.vx (-p.vxLim) p.vxLim
  let acc := clamp s.acc (-p.vxRateLim) p.vxRateLim
  let accDes := clamp u.drive (-p.vxRateLim) p.vxRateLim
  let steerDes := clamp u.steer (-p.steerLim) p.steerLim
  let steerRate := clamp (-(s.steer - steerDes) / p.steerConst) (-p.steerRateLim) p.steerRateLim
  let converted ← if map.rows = [] then some accDes else map.getAcceleration accDes vel
  return { x := vel * Real.cos s.yaw, y := vel * Real.sin s.yaw, yaw := vel * Real.tan s.steer / p.wheelbase, vx := acc, steer := steerRate
           acc := -(acc - converted) / p.driveConst }

/-- The forward gears listed in `updateStateWithGear`, VM/sim_model_ideal_steer_acc_geared.cpp, lines 74-82,
sim_model_delay_steer_acc_geared.cpp, lines 136-143, and sim_model_delay_steer_map_acc_geared.cpp, lines 290-297. -/
def forwardList : List Gear :=
  [.drive 0, .drive 1, .drive 2, .drive 3, .drive 4, .drive 5, .drive 6, .drive 7, .drive 8, .drive 9, .drive 10, .drive 11, .drive 12,
   .drive 13, .drive 14, .drive 15, .drive 16, .drive 17, .low, .low2]

/-- `setStopState`, VM/sim_model_ideal_steer_acc_geared.cpp, lines 65-70, sim_model_delay_steer_acc_geared.cpp, lines 126-132, and the
repeated lines of sim_model_delay_steer_map_acc_geared.cpp, lines 299-303. The ideal model has no component for the acceleration. -/
noncomputable def stopState (keepsAcc : Bool) (s prev : State) (dt : ℝ) : State :=
  { s with vx := 0, x := prev.x, y := prev.y, yaw := prev.yaw, acc := if keepsAcc then (0 - prev.vx) / max dt 1e-5 else s.acc }

/-- `updateStateWithGear`, VM/sim_model_ideal_steer_acc_geared.cpp, lines 62-94, sim_model_delay_steer_acc_geared.cpp, lines 123-156, and
sim_model_delay_steer_map_acc_geared.cpp, lines 285-326. -/
noncomputable def withGear (keepsAcc : Bool) (s prev : State) (gear : Gear) (dt : ℝ) : State :=
  if gear ∈ forwardList then
    if s.vx < 0 then stopState keepsAcc s prev dt else s
  else if gear = .reverse ∨ gear = .reverse2 then
    if s.vx > 0 then stopState keepsAcc s prev dt else s
  else stopState keepsAcc s prev dt

/-- The input that is applied and the queue that is left, VM/sim_model_delay_steer_vel.cpp, lines 53-58, and the same lines of the other
delayed models: push back, take the front, pop the front. -/
def throughQueue (queue : List ℝ) (u : ℝ) : ℝ × List ℝ := ((queue ++ [u]).headD u, (queue ++ [u]).tail)

/-- The limit on the velocity, VM/sim_model_delay_steer_acc.cpp, line 65, and the same line of the geared models. -/
noncomputable def limitVx (p : Params) (s : State) : State := { s with vx := max (-p.vxLim) (min s.vx p.vxLim) }

/-- `SimModelIdealSteerVel::update`, VM/sim_model_ideal_steer_vel.cpp, lines 33-38. -/
noncomputable def Model.updateIdealVel (m : Model) (dt : ℝ) : Option Model := do
  let s ← rungeKutta (fun s => some (calcIdealVel m.p m.input s)) dt m.state
  return { m with state := s, ax := (m.input.drive - m.prevVx) / dt, prevVx := m.input.drive }

/-- `SimModelIdealSteerAcc::update`, VM/sim_model_ideal_steer_acc.cpp, line 33. -/
noncomputable def Model.updateIdealAcc (m : Model) (dt : ℝ) : Option Model := do
  let s ← rungeKutta (fun s => some (calcIdealAcc m.p m.input s)) dt m.state
  return { m with state := s }

/-- `SimModelIdealSteerAccGeared::update`, VM/sim_model_ideal_steer_acc_geared.cpp, lines 35-43 and 95. -/
noncomputable def Model.updateIdealAccGeared (m : Model) (dt : ℝ) : Option Model := do
  let s ← rungeKutta (fun s => some (calcIdealAcc m.p m.input s)) dt m.state
  let s := withGear false s m.state m.gear dt
  return { m with state := s, ax := (s.vx - m.state.vx) / max dt 1e-5 }

/-- `SimModelDelaySteerVel::update`, VM/sim_model_delay_steer_vel.cpp, lines 49-63. -/
noncomputable def Model.updateDelayVel (m : Model) (dt : ℝ) : Option Model := do
  let (drive, driveQueue) := throughQueue m.driveQueue m.input.drive
  let (steer, steerQueue) := throughQueue m.steerQueue m.input.steer
  let s ← rungeKutta (fun s => some (calcDelayVel m.p { drive, steer } s)) dt m.state
  return { m with state := s, driveQueue, steerQueue, ax := (s.vx - m.state.vx) / dt }

/-- `SimModelDelaySteerAcc::update`, VM/sim_model_delay_steer_acc.cpp, lines 52-66. -/
noncomputable def Model.updateDelayAcc (m : Model) (dt : ℝ) : Option Model := do
  let (drive, driveQueue) := throughQueue m.driveQueue m.input.drive
  let (steer, steerQueue) := throughQueue m.steerQueue m.input.steer
  let s ← rungeKutta (fun s => some (calcDelayAcc m.p { drive, steer } s)) dt m.state
  return { m with state := limitVx m.p s, driveQueue, steerQueue }

/-- `SimModelDelaySteerAccGeared::update`, VM/sim_model_delay_steer_acc_geared.cpp, lines 53-73. -/
noncomputable def Model.updateDelayAccGeared (m : Model) (dt : ℝ) : Option Model := do
  let (drive, driveQueue) := throughQueue m.driveQueue m.input.drive
  let (steer, steerQueue) := throughQueue m.steerQueue m.input.steer
  let s ← rungeKutta (fun s => some (calcDelayAcc m.p { drive, steer } s)) dt m.state
  return { m with state := withGear true (limitVx m.p s) m.state m.gear dt, driveQueue, steerQueue }

/-- `SimModelDelaySteerMapAccGeared::update`, VM/sim_model_delay_steer_map_acc_geared.cpp, lines 226-246. -/
noncomputable def Model.updateMap (m : Model) (dt : ℝ) : Option Model := do
  let (drive, driveQueue) := throughQueue m.driveQueue m.input.drive
  let (steer, steerQueue) := throughQueue m.steerQueue m.input.steer
  let s ← rungeKutta (calcMap m.p m.map { drive, steer }) dt m.state
  return { m with state := withGear true (limitVx m.p s) m.state m.gear dt, driveQueue, steerQueue }

/-- `SimModelDelaySteerAccGearedWoFallGuard::update`, VM/sim_model_delay_steer_acc_geared_wo_fall_guard.cpp, lines 69-98. -/
noncomputable def Model.updateNoGuard (m : Model) (dt : ℝ) : Option Model := do
  let (drive, driveQueue) := throughQueue m.driveQueue m.input.drive
  let (steer, steerQueue) := throughQueue m.steerQueue m.input.steer
  let u : Input := { drive, steer, gear := m.input.gear, slope := m.input.slope }
  let s ← euler (fun s => some (calcNoGuard m.p u m.getSteer s)) dt m.state
  let s := limitVx m.p s
  let s := if m.state.vx * s.vx ≤ 0 ∧ -s.pedal ≥ |u.slope| then { s with vx := 0 } else s
  return { m with state := { s with acc := (s.vx - m.state.vx) / dt }, driveQueue, steerQueue }

/-- `SimModelInterface::update`, the virtual function of the models. -/
noncomputable def Model.update (m : Model) (dt : ℝ) : Option Model := match m.kind with
  | .idealVel => m.updateIdealVel dt
  | .idealAcc => m.updateIdealAcc dt
  | .idealAccGeared => m.updateIdealAccGeared dt
  | .delayVel => m.updateDelayVel dt
  | .delayAcc => m.updateDelayAcc dt
  | .delayAccGeared => m.updateDelayAccGeared dt
  | .delayMapAccGeared => m.updateMap dt
  | .delayAccGearedNoGuard => m.updateNoGuard dt

/-- One step as `EgoEntitySimulation::update` does it: `setGear`, `setInput` (VM/sim_model_interface.cpp, lines 39-40) and `update`. -/
noncomputable def Model.step (m : Model) (gear : Gear) (input : Input) (dt : ℝ) : Option Model :=
  { m with gear, input }.update dt

/-- A sequence of steps, each with its gear and input. -/
noncomputable def Model.run (m : Model) (dt : ℝ) : List (Gear × Input) → Option Model
  | [] => some m
  | (g, u) :: l => do
    let m ← m.step g u dt
    m.run dt l

end Verif.Vehicle
