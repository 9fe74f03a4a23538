import Mathlib.Analysis.Real.Sqrt
/-
Points, quaternions and poses, and the vector, quaternion and transformation functions of /repo/common/math/geometry.

Numbers are modelled as real numbers with exact arithmetic: rounding, overflow and NaN of `double` are not modelled, except where a
definition says so. A thrown `SimulationError` is `none`.
-/
namespace Verif.Geometry

/-- `geometry_msgs::msg::Point` and `geometry_msgs::msg::Vector3`: three doubles (ROS 2 messages, not in /repo). -/
@[ext] structure Pt where
  x : ℝ
  y : ℝ
  z : ℝ

/-- `geometry_msgs::msg::Quaternion`: four doubles (ROS 2 message, not in /repo). -/
@[ext] structure Quat where
  x : ℝ
  y : ℝ
  z : ℝ
  w : ℝ

/-- `geometry_msgs::msg::Pose` (ROS 2 message, not in /repo). -/
structure Pose where
  position : Pt
  orientation : Quat

/-- `traffic_simulator_msgs::msg::BoundingBox`: /repo/simulation/traffic_simulator_msgs/msg/BoundingBox.msg, with the three members
of `dimensions` in one point. -/
structure BBox where
  center : Pt
  dims : Pt

/-- `std::numeric_limits<double>::epsilon()`. -/
noncomputable def eps : ℝ := 1 / 2 ^ 52

/-- `operator+`, /repo/common/math/geometry/include/geometry/vector3/operator.hpp, lines 40-59. -/
def Pt.add (a b : Pt) : Pt := ⟨a.x + b.x, a.y + b.y, a.z + b.z⟩

/-- `operator-`, /repo/common/math/geometry/include/geometry/vector3/operator.hpp, lines 61-80. -/
def Pt.sub (a b : Pt) : Pt := ⟨a.x - b.x, a.y - b.y, a.z - b.z⟩

/-- `operator*` with a scalar, /repo/common/math/geometry/include/geometry/vector3/operator.hpp, lines 82-101. -/
def Pt.smul (v : Pt) (k : ℝ) : Pt := ⟨v.x * k, v.y * k, v.z * k⟩

/-- `norm`, /repo/common/math/geometry/include/geometry/vector3/norm.hpp, and `hypot`, vector3/hypot.hpp: the length of a vector. -/
noncomputable def Pt.norm (v : Pt) : ℝ := Real.sqrt (v.x ^ 2 + v.y ^ 2 + v.z ^ 2)

/-- `getDistance`, /repo/common/math/geometry/src/distance.cpp, lines 37-40. -/
noncomputable def distance (p q : Pt) : ℝ := Real.sqrt ((p.x - q.x) ^ 2 + (p.y - q.y) ^ 2 + (p.z - q.z) ^ 2)

open Classical in
/-- `truncate`, /repo/common/math/geometry/include/geometry/vector3/truncate.hpp, lines 24-36. -/
noncomputable def truncate (v : Pt) (max : ℝ) : Pt :=
  if max < v.norm then v.smul (max / v.norm) else v

open Classical in
/-- `normalize`, /repo/common/math/geometry/include/geometry/vector3/normalize.hpp, lines 27-38: throws for a vector of length at most
`epsilon`. -/
noncomputable def normalize (v : Pt) : Option Pt :=
  if |v.norm| ≤ eps then none else some (v.smul (1 / v.norm))

/-- `operator*` of quaternions, /repo/common/math/geometry/include/geometry/quaternion/operator.hpp, lines 53-65. -/
def Quat.mul (a b : Quat) : Quat where
  x := a.w * b.x - a.z * b.y + a.y * b.z + a.x * b.w
  y := a.z * b.x + a.w * b.y - a.x * b.z + a.y * b.w
  z := -a.y * b.x + a.x * b.y + a.w * b.z + a.z * b.w
  w := -a.x * b.x - a.y * b.y - a.z * b.z + a.w * b.w

/-- The conjugate taken in `getRotation`, /repo/common/math/geometry/include/geometry/quaternion/get_rotation.hpp, lines 33-36. -/
def Quat.conj (a : Quat) : Quat := ⟨-a.x, -a.y, -a.z, a.w⟩

/-- `getRotation`, /repo/common/math/geometry/include/geometry/quaternion/get_rotation.hpp, lines 27-38. -/
def getRotation (a b : Quat) : Quat := a.conj.mul b

/-- `getRotationMatrix`, /repo/common/math/geometry/include/geometry/quaternion/get_rotation_matrix.hpp, lines 29-45, applied to a
column vector as in `mat * v`, /repo/common/math/geometry/src/transform.cpp, lines 68-73. -/
def rotate (q : Quat) (v : Pt) : Pt where
  x := (q.x * q.x - q.y * q.y - q.z * q.z + q.w * q.w) * v.x + 2 * (q.x * q.y - q.z * q.w) * v.y + 2 * (q.z * q.x + q.w * q.y) * v.z
  y := 2 * (q.x * q.y + q.z * q.w) * v.x + (-q.x * q.x + q.y * q.y - q.z * q.z + q.w * q.w) * v.y + 2 * (q.y * q.z - q.x * q.w) * v.z
  z := 2 * (q.z * q.x - q.w * q.y) * v.x + 2 * (q.y * q.z + q.w * q.x) * v.y + (-q.x * q.x - q.y * q.y + q.z * q.z + q.w * q.w) * v.z

/-- `transformPoint` with one pose, /repo/common/math/geometry/src/transform.cpp, lines 65-82. -/
def transformPoint (pose : Pose) (p : Pt) : Pt := (rotate pose.orientation p).add pose.position

/-- `transformPoint` with a pose and a sensor pose, /repo/common/math/geometry/src/transform.cpp, lines 84-103. -/
def transformPointSensor (pose sensor : Pose) (p : Pt) : Pt :=
  ((rotate (getRotation sensor.orientation pose.orientation) p).add pose.position).sub sensor.position

/-- `getRelativePose`, /repo/common/math/geometry/src/transform.cpp, lines 26-63: `from_tf.inverse() * to_tf` of tf2. Simplified: tf2
(not in /repo) keeps the rotation as a matrix and reads the quaternion back from it, which for unit quaternions gives this quaternion
up to its sign. -/
def getRelativePose (a b : Pose) : Pose where
  position := rotate a.orientation.conj (b.position.sub a.position)
  orientation := a.orientation.conj.mul b.orientation

/-- `transformRelativePoseToGlobal`, /repo/simulation/traffic_simulator/src/utils/pose.cpp, lines 169-179: product of two tf2
transforms. Simplified as in `getRelativePose`. -/
def transformRelativePoseToGlobal (a r : Pose) : Pose where
  position := (rotate a.orientation r.position).add a.position
  orientation := a.orientation.mul r.orientation

end Verif.Geometry
