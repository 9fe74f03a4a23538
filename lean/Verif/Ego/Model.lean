import Verif.Vehicle.Model
import Verif.Geometry.Turn
/-
The simulation of the ego entity: /repo/simulation/simple_sensor_simulator/src/vehicle_simulation/ego_entity_simulation.cpp, called ES
below, and the commands it reads from Autoware: /repo/external/concealer/src/autoware_universe.cpp, called AU below.

Arithmetic is that of the real numbers. A thrown exception is `none`. The lane the ego is matched to is not computed here: each operation
takes a function from poses to lanes, which stands for `toCanonicalizedLaneletPose` with the route lanelets of that time.
-/
namespace Verif.Ego
open Classical
open Verif.Vehicle Verif.Geometry

/-- What Autoware commands: the messages `Control` and `GearCommand` (autoware messages, not in /repo), as read in
`AutowareUniverse::getVehicleCommand`, AU, lines 192-226. Simplified: the gear, which ES, line 337, reads a second time, does not change in
between. -/
structure Command where
  speed : ℝ
  acceleration : ℝ
  tireAngle : ℝ
  gear : Gear

/-- `sign_of`, AU, lines 198-208. -/
def signOf : Gear → ℝ
  | .reverse | .reverse2 => -1
  | .none => 0
  | _ => 1

/-- The lane an ego is matched to: its map pose there (`CanonicalizedLaneletPose` converted to `Pose`) and the pitch of the lane
(`toMapPose(lanelet_pose, true)` converted to Euler angles). -/
structure Lane where
  pose : Pose
  pitch : ℝ

/-- The members of `traffic_simulator_msgs::msg::EntityStatus` that the simulation of the ego writes: the linear x and angular z components
of the twist, the linear x, linear y and angular z components of the acceleration, and the jerk. The others are not written, or are 0. -/
structure Motion where
  vx : ℝ := 0
  wz : ℝ := 0
  ax : ℝ := 0
  ay : ℝ := 0
  wzDot : ℝ := 0
  jerk : ℝ := 0

/-- `CanonicalizedEntityStatus` of the ego, with the parts that change. -/
structure Status where
  time : ℝ
  pose : Pose
  motion : Motion
  lane : Option Lane

/-- What is stored for Autoware to read: `current_acceleration` (linear x and y), `current_pose` and `current_twist` (linear x, angular z),
/repo/external/concealer/include/concealer/autoware_universe.hpp, lines 75-81. -/
structure Told where
  pose : Pose
  vx : ℝ
  wz : ℝ
  ax : ℝ
  ay : ℝ

/-- `EgoEntitySimulation`,
/repo/simulation/simple_sensor_simulator/include/simple_sensor_simulator/vehicle_simulation/ego_entity_simulation.hpp, lines 40-78.
`previous` holds `previous_linear_velocity_` and `previous_angular_velocity_`, which are always set together. -/
structure Sim where
  wheelBase : ℝ
  model : Model
  initial : Pose
  considerSlope : Bool
  relative : Pt
  previous : Option (ℝ × ℝ)
  status : Status
  told : Told

/-- The constructor of `CanonicalizedEntityStatus`, /repo/simulation/traffic_simulator/src/data_type/entity_status.cpp, lines 22-48: on a
lane the height and the orientation are those of the lane. -/
def onLane (pose : Pose) (lane : Option Lane) : Pose :=
  match lane with
  | some l => ⟨{ pose.position with z := l.pose.position.z }, l.pose.orientation⟩
  | none => pose

/-- `EgoEntitySimulation::setAutowareStatus`, ES, lines 172-184. -/
noncomputable def Sim.setAutowareStatus (e : Sim) : Sim :=
  { e with told := ⟨e.status.pose, e.model.getVx, e.model.getWz, e.model.getAx, e.model.getWz * e.model.getVx⟩ }

/-- `EgoEntitySimulation::setStatus`, ES, lines 439-459. -/
noncomputable def Sim.setStatus (e : Sim) (road : Pose → Option Lane) (time : ℝ) (pose : Pose) (motion : Motion) : Sim :=
  let lane := road pose
  { e with status := ⟨time, onLane pose lane, motion, lane⟩ }.setAutowareStatus

/-- The constructor of `EgoEntitySimulation`, ES, lines 28-48. `world_relative_position_` is left uninitialised there, as it is written
before it is read; here it is 0. -/
noncomputable def Sim.make (model : Model) (wheelBase : ℝ) (considerSlope : Bool) (road : Pose → Option Lane) (pose : Pose) : Sim :=
  let status : Status := ⟨0, pose, {}, none⟩
  { wheelBase, model, initial := pose, considerSlope, relative := ⟨0, 0, 0⟩, previous := none, status
    told := ⟨pose, 0, 0, 0, 0⟩ : Sim }.setStatus road 0 pose {}

/-- `EgoEntitySimulation::getCurrentPose` with the default pitch angle 0, ES, lines 387-405. -/
noncomputable def Sim.getCurrentPose (e : Sim) : Pose :=
  ⟨e.initial.position.add (rotate e.initial.orientation e.relative),
   e.initial.orientation.mul (eulerToQuat ⟨0, 0, e.model.state.yaw⟩)⟩

/-- `getCurrentTwist`, `getCurrentAccel` and `getLinearJerk` of `EgoEntitySimulation`, ES, lines 379-385 and 407-426. -/
noncomputable def Sim.motion (e : Sim) (dt : ℝ) : Motion :=
  let twist : Motion := { vx := e.model.getVx, wz := e.model.getWz }
  match e.previous with
  | some (v, w) => { twist with ax := e.model.getAx, ay := e.model.getWz * e.model.getVx, wzDot := (e.model.getWz - w) / dt
                                jerk := (e.model.getVx - v) / dt }
  | none => twist

/-- `updateStatus` and `updatePreviousValues` of `EgoEntitySimulation`, ES, lines 428-432 and 461-470. A time that is NaN is `none`. -/
noncomputable def Sim.updateStatus (e : Sim) (road : Pose → Option Lane) (time : Option ℝ) (dt : ℝ) : Sim :=
  let e := e.setStatus road (time.getD 0) e.getCurrentPose (e.motion dt)
  { e with previous := some (e.model.getVx, e.model.getWz) }

/-- `world_relative_position_` as computed in ES, lines 237-242 and 309-313. -/
def Sim.toLocal (e : Sim) (p : Pt) : Pt := rotate e.initial.orientation.conj (p.sub e.initial.position)

/-- `EgoEntitySimulation::calculateAccelerationBySlope`, ES, lines 362-377. -/
noncomputable def Sim.slope (e : Sim) : ℝ :=
  match e.considerSlope, e.status.lane with
  | true, some lane => -Real.sin lane.pitch * -9.81
  | _, _ => 0

/-- The input vector made in `EgoEntitySimulation::update`, ES, lines 316-350. -/
noncomputable def Sim.input (e : Sim) (c : Command) : Input := match e.model.kind with
  | .delayAcc | .delayAccGeared | .delayMapAccGeared | .idealAcc | .idealAccGeared =>
    { drive := signOf c.gear * c.acceleration + e.slope, steer := c.tireAngle }
  | .delayAccGearedNoGuard => { drive := c.acceleration, gear := c.gear, slope := e.slope, steer := c.tireAngle }
  | .delayVel | .idealVel => { drive := c.speed, steer := c.tireAngle }

/-- `EgoEntitySimulation::update`, ES, lines 297-360. -/
noncomputable def Sim.update (e : Sim) (road : Pose → Option Lane) (time : Option ℝ) (dt : ℝ) (started : Bool) (c : Command) : Option Sim := do
  let e := { e with relative := e.toLocal e.status.pose.position }
  let model ← if started then e.model.step c.gear (e.input c) dt else some e.model
  let e := { e with model, relative := { e.relative with x := model.state.x, y := model.state.y } }
  return e.updateStatus road time dt

/-- The yaw in `tf2::Matrix3x3::getRPY` (tf2, not in /repo), used by `convertQuaternionToEulerAngle`,
/repo/common/math/geometry/include/geometry/quaternion/quaternion_to_euler.hpp, lines 28-40, for a unit quaternion. The first column of the
matrix is where the x axis is turned to. If the nose points straight up or down the yaw is 0. -/
noncomputable def yawOf (q : Quat) : ℝ :=
  let m := rotate q ⟨1, 0, 0⟩
  if |m.z| ≥ 1 then 0
  else
    let pitch := -Real.arcsin m.z
    atan2 (m.y / Real.cos pitch) (m.x / Real.cos pitch)

/-- The status an ego is overwritten with: the members read by `EgoEntitySimulation::overwrite`. -/
structure Given where
  pose : Pose
  vx : ℝ
  wz : ℝ
  ax : ℝ

/-- The new state vector in `EgoEntitySimulation::overwrite`, ES, lines 245-289. `junk` is the content of the vector where nothing is
assigned: the pedal acceleration of the model without fall guard. The quaternion of `R₀ᵀ R` is that of the relative rotation up to its sign,
which does not matter for the yaw; this holds for unit quaternions. -/
noncomputable def Sim.overwritten (e : Sim) (g : Given) (local_ : Pt) (junk : ℝ) : State :=
  let yaw := yawOf (e.initial.orientation.conj.mul g.pose.orientation)
  let base : State := { x := local_.x, y := local_.y, yaw }
  let steer := if |g.vx| < 1e-9 then 0 else Real.arctan (g.wz * e.wheelBase / g.vx)
  match e.model.kind with
  | .idealVel => base
  | .idealAcc | .idealAccGeared => { base with vx := g.vx }
  | .delayVel => { base with vx := g.vx, steer }
  | .delayAcc | .delayAccGeared | .delayMapAccGeared => { base with vx := g.vx, steer, acc := g.ax }
  | .delayAccGearedNoGuard => { base with vx := g.vx, steer, acc := g.ax, pedal := junk }

/-- `EgoEntitySimulation::overwrite`, ES, lines 222-295. -/
noncomputable def Sim.overwrite (e : Sim) (road : Pose → Option Lane) (g : Given) (time : Option ℝ) (dt : ℝ) (started : Bool) (junk : ℝ) : Sim :=
  let e := { e with relative := e.toLocal g.pose.position }
  let e := if started then { e with model := { e.model with state := e.overwritten g e.relative junk } } else e
  e.updateStatus road time dt

/-- One call of the simulation of the ego. -/
inductive Op where
  | update (road : Pose → Option Lane) (time : Option ℝ) (started : Bool) (c : Command)
  | overwrite (road : Pose → Option Lane) (g : Given) (time : Option ℝ) (started : Bool) (junk : ℝ)

noncomputable def Sim.apply (e : Sim) (dt : ℝ) : Op → Option Sim
  | .update road time started c => e.update road time dt started c
  | .overwrite road g time started junk => some (e.overwrite road g time dt started junk)

/-- A sequence of calls. -/
noncomputable def Sim.run (e : Sim) (dt : ℝ) : List Op → Option Sim
  | [] => some e
  | op :: l => do
    let e ← e.apply dt op
    e.run dt l

end Verif.Ego
