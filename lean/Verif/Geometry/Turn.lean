import Verif.Geometry.Vec
import Mathlib.Analysis.SpecialFunctions.Complex.Arg
import Mathlib.Analysis.SpecialFunctions.Trigonometric.Inverse
/-
Orientations from angles and directions, and interpolation between orientations: /repo/common/math/geometry/include/geometry/quaternion.
-/
namespace Verif.Geometry
open Classical

/-- `std::atan2` (C++ standard library, not in /repo), with `atan2(0, 0) = 0`; signed zeros are not modelled. -/
noncomputable def atan2 (y x : ℝ) : ℝ := Complex.arg ⟨x, y⟩

/-- `convertEulerAngleToQuaternion`, /repo/common/math/geometry/include/geometry/quaternion/euler_to_quaternion.hpp, lines 28-42, with
`tf2::Quaternion::setRPY` (tf2, not in /repo). The argument holds roll, pitch and yaw. -/
noncomputable def eulerToQuat (v : Pt) : Quat :=
  let cr := Real.cos (v.x / 2); let sr := Real.sin (v.x / 2)
  let cp := Real.cos (v.y / 2); let sp := Real.sin (v.y / 2)
  let cy := Real.cos (v.z / 2); let sy := Real.sin (v.z / 2)
  ⟨sr * cp * cy - cr * sp * sy, cr * sp * cy + sr * cp * sy, cr * cp * sy - sr * sp * cy, cr * cp * cy + sr * sp * sy⟩

/-- `convertDirectionToQuaternion`, /repo/common/math/geometry/include/geometry/quaternion/direction_to_quaternion.hpp, lines 28-35. -/
noncomputable def directionToQuat (d : Pt) : Quat :=
  eulerToQuat ⟨0, atan2 (-d.z) (Real.sqrt (d.x ^ 2 + d.y ^ 2)), atan2 d.y d.x⟩

/-- `slerp`, /repo/common/math/geometry/include/geometry/quaternion/slerp.hpp, lines 30-55. `acos` of a number outside [-1, 1] and `sqrt`
of a negative number, which need quaternions that are not of length one, are not modelled as NaN. -/
noncomputable def slerp (a b : Quat) (t : ℝ) : Quat :=
  let qr := a.w * b.w + a.x * b.x + a.y * b.y + a.z * b.z
  let ss := 1 - qr * qr
  if |ss| ≤ eps then a
  else
    let sp := Real.sqrt ss
    let ph := Real.arccos qr
    let pt := ph * t
    let t1 := Real.sin pt / sp
    let t0 := Real.sin (ph - pt) / sp
    ⟨a.x * t0 + b.x * t1, a.y * t0 + b.y * t1, a.z * t0 + b.z * t1, a.w * t0 + b.w * t1⟩

/-- `getAngleDifference`, /repo/common/math/geometry/include/geometry/quaternion/get_angle_difference.hpp, lines 29-38, with the angle of
`Eigen::AngleAxisd` (Eigen, not in /repo): twice `atan2` of the length of the vector part and the absolute value of the scalar part. The
inverse of a quaternion is its conjugate divided by the square of its length. -/
noncomputable def angleDifference (a b : Quat) : ℝ :=
  let n2 := a.x ^ 2 + a.y ^ 2 + a.z ^ 2 + a.w ^ 2
  let d := Quat.mul ⟨-a.x / n2, -a.y / n2, -a.z / n2, a.w / n2⟩ b
  abs (2 * atan2 (Real.sqrt (d.x ^ 2 + d.y ^ 2 + d.z ^ 2)) (abs d.w))

end Verif.Geometry
