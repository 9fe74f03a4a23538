import Mathlib.Analysis.SpecialFunctions.Trigonometric.Basic
import Verif.Sensing.Select

/-!
How noise moves the entities that a detection sensor reports, and the inertial measurement unit.

SS = `simulation/simple_sensor_simulator`, DS =
`SS/src/sensor_simulation/detection_sensor/detection_sensor.cpp`, IC =
`SS/src/sensor_simulation/imu/imu_sensor.cpp`, IH =
`SS/include/simple_sensor_simulator/sensor_simulation/imu/imu_sensor.hpp`.
-/

namespace Verif.Sensing

/-- The cosine of `std::atan2(y, x)`; `atan2(0, 0)` is zero (DS 499, 511). -/
noncomputable def cosOf (x y : ℝ) : ℝ := if x = 0 ∧ y = 0 then 1 else x / Real.sqrt (x ^ 2 + y ^ 2)
/-- The sine of `std::atan2(y, x)` (DS 499, 514). -/
noncomputable def sinOf (x y : ℝ) : ℝ := if x = 0 ∧ y = 0 then 0 else y / Real.sqrt (x ^ 2 + y ^ 2)

/-- The noise of version 2 on the pose of a detected entity (DS 498-525).  Entities are upright; the
heights are not changed by the code. -/
noncomputable def noised2 (ego e : Pose) (distanceNoise yawNoise : ℝ) (flip : Bool) : Pose :=
  let x := e.x - ego.x
  let y := e.y - ego.y
  ⟨e.x + distanceNoise * cosOf x y, e.y + distanceNoise * sinOf x y, e.yaw + (yawNoise + if flip then Real.pi else 0)⟩

/-- A place on the map. -/
abbrev Place := ℝ × ℝ

/-- `math::geometry::transformPoint` for upright poses: where a point of the body is on the map. -/
noncomputable def place (p : Pose) (q : Place) : Place :=
  (p.x + (Real.cos p.yaw * q.1 - Real.sin p.yaw * q.2), p.y + (Real.sin p.yaw * q.1 + Real.cos p.yaw * q.2))

/-- `apply_yaw_flip` (DS 418-447): the entity turns by half a turn about the centre of its bounding
box. -/
noncomputable def flipped (e : Pose) (centre : Place) : Pose :=
  let c := place e centre
  let turned : Pose := ⟨c.1, c.2, e.yaw + Real.pi⟩
  let p := place turned (-centre.1, -centre.2)
  ⟨p.1, p.2, turned.yaw⟩

/-- The noise of version 4 on the pose of a detected entity (DS 619-669).  `base` is the point of the
outline of the entity that is closest to the ego (DS 572-579), which is not computed here. -/
noncomputable def noised4 (ego : Place) (base centre : Place) (e : Pose) (xNoise yNoise yawNoise : ℝ) (flip : Bool) : Pose :=
  let dx := base.1 - ego.1
  let dy := base.2 - ego.2
  let length := Real.sqrt (dx ^ 2 + dy ^ 2)
  if length < 1e-6 then e
  else
    let ux := dx / length
    let uy := dy / length
    let ox := e.x - base.1
    let oy := e.y - base.2
    let rx := base.1 + (Real.cos yawNoise * ox - Real.sin yawNoise * oy)
    let ry := base.2 + (Real.sin yawNoise * ox + Real.cos yawNoise * oy)
    let result : Pose :=
      ⟨rx + (xNoise * uy + yNoise * ux), ry + (xNoise * (-ux) + yNoise * uy), e.yaw + yawNoise⟩
    if flip then flipped result centre else result

/-- A vector in space. -/
structure Vec where
  x : ℝ
  y : ℝ
  z : ℝ

/-- The sum. -/
noncomputable def Vec.add (a b : Vec) : Vec := ⟨a.x + b.x, a.y + b.y, a.z + b.z⟩

/-- The configuration of the sensor (IH 35-48, 84-87). -/
structure ImuConfig where
  entity : Text
  addGravity : Bool
  orientation : ℝ
  twist : ℝ
  acceleration : ℝ
  overridden : Bool

/-- What the sensor reads of an entity: the orientation as roll, pitch and yaw (IC 42-44). -/
structure Motion where
  name : Text
  rpy : Vec
  angular : Vec
  linear : Vec

/-- The draws of the three distributions (IC 31-36), used or not. -/
structure ImuDraw where
  orientation : Vec
  twist : Vec
  acceleration : Vec

/-- The message, with the orientation as roll, pitch and yaw, and the diagonals of the covariances
(IH 69-72, IC 80-89). -/
structure Imu where
  rpy : Vec
  angular : Vec
  linear : Vec
  covariances : ℝ × ℝ × ℝ

/-- A rotation by roll, pitch and yaw (`tf2::Quaternion::setRPY` and `tf2::Matrix3x3`), applied to a
vector. -/
noncomputable def rotate (r v : Vec) : Vec :=
  let cr := Real.cos r.x; let sr := Real.sin r.x
  let cp := Real.cos r.y; let sp := Real.sin r.y
  let cy := Real.cos r.z; let sy := Real.sin r.z
  ⟨cy * cp * v.x + (cy * sp * sr - sy * cr) * v.y + (cy * sp * cr + sy * sr) * v.z,
   sy * cp * v.x + (sy * sp * sr + cy * cr) * v.y + (sy * sp * cr - cy * sr) * v.z,
   -sp * v.x + cp * sr * v.y + cp * cr * v.z⟩

/-- `generateMessage` (IC 27-91), without the stamp and the frame.  The noise of the publisher, which is
used when the configuration is overridden, comes after it and is not part of this. -/
noncomputable def generate (c : ImuConfig) (m : Motion) (d : ImuDraw) : Imu :=
  let rpy := if ¬ c.overridden ∧ c.orientation > 0 then m.rpy.add d.orientation else m.rpy
  let angular := if ¬ c.overridden ∧ c.twist > 0 then m.angular.add d.twist else m.angular
  let linear := if ¬ c.overridden ∧ c.acceleration > 0 then m.linear.add d.acceleration else m.linear
  let linear := if c.addGravity then linear.add (rotate rpy ⟨0, 0, -9.81⟩) else linear
  ⟨rpy, angular, linear, (c.orientation ^ 2, c.twist ^ 2, c.acceleration ^ 2)⟩

/-- `ImuSensor::update` (IH 95-108): the message that is published in a frame, if any. -/
noncomputable def imuUpdate (c : ImuConfig) (l : List Motion) (d : ImuDraw) : Option Imu :=
  match l with
  | [] => none
  | m :: rest => if m.name = c.entity then some (generate c m d) else imuUpdate c rest d

end Verif.Sensing
