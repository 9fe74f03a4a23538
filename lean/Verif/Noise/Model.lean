import Verif.Geometry.Turn
/-
The errors added to what is published: /repo/external/concealer/include/concealer/publisher.hpp (called PH), /repo/external/concealer/src/publisher.cpp
(PC), /repo/simulation/simple_sensor_simulator/include/simple_sensor_simulator/sensor_simulation/imu/imu_sensor.hpp (IH) and
/repo/simulation/simple_sensor_simulator/src/sensor_simulation/imu/imu_sensor.cpp (IC).

Numbers are real numbers, as in `Verif.Geometry`. Time stamps and frames are not modelled. The variates of the standard normal distribution that
the engine of a publisher and its distributions produce, in the order in which they are drawn, are a function `tape` of a natural number; the
state of the engine is the number of those drawn. `std::normal_distribution` (C++ standard library, not in /repo) multiplies the variate by the
standard deviation and adds the mean.

PH 66 draws two variates in the operands of one sum, whose order of evaluation C++ leaves open: `first` says whether the multiplicative one is
drawn first. The theorems hold for both.
-/
namespace Verif.Noise
open Verif.Geometry Classical

/-- The parameters of a `std::normal_distribution`, read at PH 54-59; a parameter that is not given is zero
(/repo/common/get_parameter/include/get_parameter/get_parameter.hpp, lines 43-52). -/
structure Dist where
  mean : ℝ
  deviation : ℝ

/-- One draw. -/
def Dist.draw (d : Dist) (variate : ℝ) : ℝ := variate * d.deviation + d.mean

/-- `NormalDistributionError`, PH 43-62. -/
structure Err where
  additive : Dist
  multiplicative : Dist

/-- `NormalDistributionError::apply`, PH 64-67: the value, and the number of variates drawn. -/
def Err.apply (tape : ℕ → ℝ) (first : Bool) (e : Err) (n : ℕ) (value : ℝ) : ℝ × ℕ :=
  let m := e.multiplicative.draw (tape (if first then n else n + 1))
  let a := e.additive.draw (tape (if first then n + 1 else n))
  (value * (m + 1) + a, n + 2)

/-- Three errors, applied one after the other to the parts of a vector. -/
def apply3 (tape : ℕ → ℝ) (first : Bool) (ex ey ez : Err) (n : ℕ) (v : Pt) : Pt × ℕ :=
  let x := ex.apply tape first n v.x
  let y := ey.apply tape first x.2 v.y
  let z := ez.apply tape first y.2 v.z
  (⟨x.1, y.1, z.1⟩, z.2)

/-! ### The seed -/

/-- A number as `unsigned int`: the remainder modulo 2^32. -/
def toUnsigned (value : ℤ) : ℕ := (value % 2 ^ 32).toNat

/-- A 64 bit parameter as `int`: `get_value<int>` converts. -/
def toInt (value : ℤ) : ℤ := let r := value % 2 ^ 32; if r < 2 ^ 31 then r else r - 2 ^ 32

/-- The seed of `RandomNumberEngine`, PC 29-39. `std::random_device::min()` is 0 and `max()` is 2^32 - 1, of type `unsigned int`, so that the
`int` is converted to this type before it is compared. `none` is the error. -/
def seed (parameter : ℤ) : Option ℕ :=
  let value := toInt parameter
  if 0 ≤ toUnsigned value ∧ toUnsigned value ≤ 2 ^ 32 - 1 then some (toUnsigned value) else none

/-- What the engine is initialised with, PC 40: `device` is what `std::random_device` gives. -/
def engineSeed (parameter : ℤ) (device : ℕ) : Option ℕ := (seed parameter).map fun s => if s ≠ 0 then s else device

/-! ### The velocity report -/

/-- `autoware_vehicle_msgs::msg::VelocityReport` (not in /repo). -/
@[ext] structure Velocity where
  longitudinal : ℝ
  lateral : ℝ
  heading : ℝ

/-- `NormalDistribution<VelocityReport>`, PH 115-131. -/
structure VelocityNoise where
  threshold : ℝ
  longitudinal : Err
  lateral : Err
  heading : Err

/-- `NormalDistribution<VelocityReport>::operator()`, PC 133-149. -/
noncomputable def VelocityNoise.publish (c : VelocityNoise) (tape : ℕ → ℝ) (first : Bool) (n : ℕ) (m : Velocity) : Velocity × ℕ :=
  if Real.sqrt (m.longitudinal ^ 2 + m.lateral ^ 2) < c.threshold then (m, n)
  else
    let a := c.longitudinal.apply tape first n m.longitudinal
    let b := c.lateral.apply tape first a.2 m.lateral
    let d := c.heading.apply tape first b.2 m.heading
    (⟨a.1, b.1, d.1⟩, d.2)

/-! ### The odometry -/

/-- `nav_msgs::msg::Odometry` (not in /repo), without the covariances, which are not touched. -/
structure Odometry where
  position : Pt
  orientation : Quat
  linear : Pt
  angular : Pt

/-- `NormalDistribution<Odometry>`, PH 88-112. -/
structure OdometryNoise where
  threshold : ℝ
  px : Err
  py : Err
  pz : Err
  roll : Err
  pitch : Err
  yaw : Err
  lx : Err
  ly : Err
  lz : Err
  ax : Err
  ay : Err
  az : Err

/-- `Eigen::AngleAxisd` about the first, second and third axis, as a quaternion (Eigen, not in /repo). -/
noncomputable def aboutX (a : ℝ) : Quat := ⟨Real.sin (a / 2), 0, 0, Real.cos (a / 2)⟩
/-- See `aboutX`. -/
noncomputable def aboutY (a : ℝ) : Quat := ⟨0, Real.sin (a / 2), 0, Real.cos (a / 2)⟩
/-- See `aboutX`. -/
noncomputable def aboutZ (a : ℝ) : Quat := ⟨0, 0, Real.sin (a / 2), Real.cos (a / 2)⟩

/-- `NormalDistribution<Odometry>::operator()`, PC 67-117. `euler` is `eulerAngles(0, 1, 2)` of the matrix of a quaternion (Eigen, not in
/repo). `toRotationMatrix` of a quaternion of length one is the matrix of `rotate`. -/
noncomputable def OdometryNoise.publish (c : OdometryNoise) (euler : Quat → Pt) (tape : ℕ → ℝ) (first : Bool) (n : ℕ) (m : Odometry) :
    Odometry × ℕ :=
  if Real.sqrt (m.linear.x ^ 2 + m.linear.y ^ 2 + m.linear.z ^ 2) < c.threshold then (m, n)
  else
    let loc := apply3 tape first c.px c.py c.pz n ⟨0, 0, 0⟩
    let world := rotate m.orientation loc.1
    let angles := apply3 tape first c.roll c.pitch c.yaw loc.2 (euler m.orientation)
    let q := ((aboutX angles.1.x).mul (aboutY angles.1.y)).mul (aboutZ angles.1.z)
    let linear := apply3 tape first c.lx c.ly c.lz angles.2 m.linear
    let angular := apply3 tape first c.ax c.ay c.az linear.2 m.angular
    (⟨m.position.add world, q, linear.1, angular.1⟩, angular.2)

/-! ### The pose with covariance -/

/-- `geometry_msgs::msg::PoseWithCovarianceStamped` (not in /repo): the covariance has 36 entries, by row. -/
structure PoseCov where
  position : Pt
  orientation : Quat
  covariance : ℕ → ℝ

/-- `NormalDistribution<PoseWithCovarianceStamped>`, PH 134-155. -/
structure PoseNoise where
  px : Err
  py : Err
  pz : Err
  roll : Err
  pitch : Err
  yaw : Err
  cxx : Err
  cyy : Err
  czz : Err
  crr : Err
  cpp : Err
  cww : Err

/-- Assignment to an entry of a covariance. -/
def setAt (f : ℕ → ℝ) (i : ℕ) (v : ℝ) : ℕ → ℝ := fun j => if j = i then v else f j

/-- `tf2::Quaternion::normalize` (tf2, not in /repo). -/
noncomputable def normalizeQuat (q : Quat) : Quat :=
  let l := Real.sqrt (q.x ^ 2 + q.y ^ 2 + q.z ^ 2 + q.w ^ 2)
  ⟨q.x / l, q.y / l, q.z / l, q.w / l⟩

/-- `NormalDistribution<PoseWithCovarianceStamped>::operator()`, PC 172-222. `setRPY` of tf2 is `eulerToQuat`; the product of quaternions of tf2
is `Quat.mul`. -/
noncomputable def PoseNoise.publish (c : PoseNoise) (tape : ℕ → ℝ) (first : Bool) (n : ℕ) (m : PoseCov) : PoseCov × ℕ :=
  let loc := apply3 tape first c.px c.py c.pz n ⟨0, 0, 0⟩
  let world := rotate m.orientation loc.1
  let angles := apply3 tape first c.roll c.pitch c.yaw loc.2 ⟨0, 0, 0⟩
  let q := normalizeQuat (m.orientation.mul (eulerToQuat angles.1))
  let c1 := apply3 tape first c.cxx c.cyy c.czz angles.2 ⟨0, 0, 0⟩
  let c2 := apply3 tape first c.crr c.cpp c.cww c1.2 ⟨0, 0, 0⟩
  let k0 := setAt m.covariance (6 * 0 + 0) c1.1.x
  let k1 := setAt k0 (6 * 1 + 1) c1.1.y
  let k2 := setAt k1 (6 * 2 + 2) c1.1.z
  let k3 := setAt k2 (6 * 3 + 3) c2.1.x
  let k4 := setAt k3 (6 * 4 + 4) c2.1.y
  let k5 := setAt k4 (6 * 5 + 5) c2.1.z
  (⟨m.position.add world, q, k5⟩, c2.2)

/-! ### The inertial measurement unit -/

/-- `sensor_msgs::msg::Imu` (not in /repo): each covariance has 9 entries, by row. -/
structure Imu where
  orientation : Quat
  angular : Pt
  linear : Pt
  orientationCov : ℕ → ℝ
  angularCov : ℕ → ℝ
  linearCov : ℕ → ℝ

/-- `NormalDistribution<Imu>`, PH 158-185, with `active`. The errors come in groups of three. -/
structure ImuNoise where
  active : Bool
  roll : Err
  pitch : Err
  yaw : Err
  ax : Err
  ay : Err
  az : Err
  lx : Err
  ly : Err
  lz : Err
  orientationCov : Err × Err × Err
  angularCov : Err × Err × Err
  linearCov : Err × Err × Err

/-- The entries on the diagonal of a covariance of nine. -/
def setDiagonal (f : ℕ → ℝ) (v : Pt) : ℕ → ℝ := setAt (setAt (setAt f (3 * 0 + 0) v.x) (3 * 1 + 1) v.y) (3 * 2 + 2) v.z

/-- `NormalDistribution<Imu>::operator()`, PC 251-297. `rpy` is `convertQuaternionToEulerAngle`, with `getRPY` of tf2 (not in /repo). -/
noncomputable def ImuNoise.publish (c : ImuNoise) (rpy : Quat → Pt) (tape : ℕ → ℝ) (first : Bool) (n : ℕ) (m : Imu) : Imu × ℕ :=
  if ¬c.active then (m, n)
  else
    let angles := apply3 tape first c.roll c.pitch c.yaw n (rpy m.orientation)
    let angular := apply3 tape first c.ax c.ay c.az angles.2 m.angular
    let linear := apply3 tape first c.lx c.ly c.lz angular.2 m.linear
    let o := apply3 tape first c.orientationCov.1 c.orientationCov.2.1 c.orientationCov.2.2 linear.2 ⟨0, 0, 0⟩
    let a := apply3 tape first c.angularCov.1 c.angularCov.2.1 c.angularCov.2.2 o.2 ⟨0, 0, 0⟩
    let l := apply3 tape first c.linearCov.1 c.linearCov.2.1 c.linearCov.2.2 a.2 ⟨0, 0, 0⟩
    (⟨eulerToQuat angles.1, angular.1, linear.1, setDiagonal m.orientationCov o.1, setDiagonal m.angularCov a.1, setDiagonal m.linearCov l.1⟩, l.2)

/-- `ImuSensorBase` and `ImuSensor`, IH 32-121: the configuration of the sensor, and the parameter `override_legacy_configuration`. -/
structure ImuSensor where
  entity : String
  gravity : Bool
  orientationDev : ℝ
  twistDev : ℝ
  accelDev : ℝ
  override : Bool

/-- What the sensor uses of the status of an entity. -/
structure Status where
  name : String
  orientation : Quat
  angular : Pt
  linear : Pt

/-- `applyNoise`, IC 31-36, with a distribution of mean zero, if the standard deviation is positive, IC 48-56. -/
noncomputable def legacy (tape : ℕ → ℝ) (deviation : ℝ) (n : ℕ) (v : Pt) : Pt × ℕ :=
  if deviation > 0 then
    let d : Dist := ⟨0, deviation⟩
    (⟨v.x + d.draw (tape n), v.y + d.draw (tape (n + 1)), v.z + d.draw (tape (n + 2))⟩, n + 3)
  else (v, n)

/-- `calculateCovariance`, IH 69-72. -/
def covarianceOf (deviation : ℝ) : ℕ → ℝ := fun i => if i = 0 ∨ i = 4 ∨ i = 8 then deviation ^ 2 else 0

/-- `generateMessage`, IC 26-92: the message, and the number of variates drawn from the generator of the sensor. -/
noncomputable def ImuSensor.generate (s : ImuSensor) (rpy : Quat → Pt) (tape : ℕ → ℝ) (n : ℕ) (e : Status) : Imu × ℕ :=
  let angles := if ¬s.override then legacy tape s.orientationDev n (rpy e.orientation) else (rpy e.orientation, n)
  let angular := if ¬s.override then legacy tape s.twistDev angles.2 e.angular else (e.angular, angles.2)
  let linear := if ¬s.override then legacy tape s.accelDev angular.2 e.linear else (e.linear, angular.2)
  let accel := if s.gravity then linear.1.add (rotate (eulerToQuat angles.1) ⟨0, 0, -9.81⟩) else linear.1
  (⟨eulerToQuat angles.1, angular.1, accel, covarianceOf s.orientationDev, covarianceOf s.twistDev, covarianceOf s.accelDev⟩, linear.2)

/-- The randomizer of the publisher, IH 90-92: switched off unless the legacy configuration is overridden. -/
def ImuSensor.randomizer (s : ImuSensor) (c : ImuNoise) : ImuNoise := if ¬s.override then { c with active := false } else c

/-- `update`, IH 95-109: what is published, if there is an entity of this name. `tape` and `n` belong to the sensor, `tape'` and `n'` to the publisher. -/
noncomputable def ImuSensor.update (s : ImuSensor) (c : ImuNoise) (rpy : Quat → Pt) (tape : ℕ → ℝ) (n : ℕ) (tape' : ℕ → ℝ) (first : Bool) (n' : ℕ)
    (statuses : List Status) : Option Imu :=
  (statuses.find? fun e => e.name == s.entity).map fun e =>
    ((s.randomizer c).publish rpy tape' first n' (s.generate rpy tape n e).1).1

end Verif.Noise
