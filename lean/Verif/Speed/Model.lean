import Mathlib.Algebra.Order.Field.Basic
/-
Model of the longitudinal speed planner.

B = simulation/traffic_simulator/src/behavior/longitudinal_speed_planning.cpp.

Numbers are the elements of an arbitrary linearly ordered field: rounding, overflow and the special values of `double`
are not modelled. Only the longitudinal components are modelled; the others are integrated without limits in the code.
`std::clamp` with a lower bound above the upper one is undefined behaviour: `none`.
-/
namespace Verif.Speed

variable {K : Type} [Field K] [LinearOrder K]

/-- simulation/traffic_simulator_msgs/msg/DynamicConstraints.msg -/
structure Constraints (K : Type) where
  maxAcceleration : K
  maxAccelerationRate : K
  maxDeceleration : K
  maxDecelerationRate : K
  maxSpeed : K

/-- `current_twist.linear.x`, `current_accel.linear.x` and the linear jerk. -/
structure State (K : Type) where
  speed : K
  acceleration : K
  jerk : K
  deriving DecidableEq

/-- `std::clamp` -/
def clamp (x lo hi : K) : Option K :=
  if hi < lo then none else some (if x < lo then lo else if hi < x then hi else x)

/-- B 256-260 -/
def isAccelerating (target : K) (s : State K) : Bool := decide (s.speed ≤ target)

/-- B 268-286 -/
def planLinearJerk (dt : K) (c : Constraints K) (target : K) (s : State K) : Option K := do
  let a ←
    if isAccelerating target s then
      clamp (s.acceleration + dt * c.maxAccelerationRate) 0 (min c.maxAcceleration ((target - s.speed) / dt))
    else
      clamp (s.acceleration - dt * c.maxDecelerationRate) (max (c.maxDeceleration * -1) ((target - s.speed) / dt)) 0
  return (a - s.acceleration) / dt

/-- B 288-298 -/
def forwardAccel (dt : K) (c : Constraints K) (jerk a : K) : Option K :=
  clamp (a + dt * jerk) (c.maxDeceleration * -1) c.maxAcceleration

/-- B 300-313 -/
def forwardTwist (dt : K) (c : Constraints K) (a v : K) : Option K :=
  clamp (v + a * dt) (-1 * c.maxSpeed) c.maxSpeed

/-- B 92-107 `getDynamicStates`, with the time derivatives of B 315-332. -/
def step (dt : K) (c : Constraints K) (target : K) (s : State K) : Option (State K) := do
  let target := if c.maxSpeed < target then c.maxSpeed else target
  let jerk ← planLinearJerk dt c target s
  let accel ← forwardAccel dt c jerk s.acceleration
  let speed ← forwardTwist dt c accel s.speed
  let a := (speed - s.speed) / dt
  return ⟨speed, a, (a - s.acceleration) / dt⟩

/-- The planner applied again and again with the same target, as behavior_tree_plugin/src/action_node.cpp 411-430 does
from frame to frame. -/
def run (dt : K) (c : Constraints K) (target : K) : Nat → State K → Option (State K)
  | 0, s => some s
  | n + 1, s => (step dt c target s).bind (run dt c target n)

/-- B 136-141, with the tolerance 0.01 which all callers use. -/
def isTargetSpeedReached (target v : K) : Bool := decide (|target - v| ≤ 1 / 100)

/-- B 109-134 `getRunningDistance`, the loop: `none` if it does not end or is undefined. -/
def runningLoop (dt : K) (c : Constraints K) (target : K) (s : State K) (ret : K) : Option K := do
  let n ← step dt c target s
  let ret := ret + n.speed * dt + n.acceleration * dt * dt / 2 + n.jerk * dt * dt * dt / 6
  if isTargetSpeedReached target n.speed then some ret else runningLoop dt c target n ret
partial_fixpoint

/-- B 109-134 `getRunningDistance` -/
def runningDistance (dt : K) (c : Constraints K) (target : K) (s : State K) : Option K :=
  if isTargetSpeedReached target s.speed then some 0 else runningLoop dt c target s 0

/-- simulation/behavior_tree_plugin/src/action_node.cpp 420-428: the distance an entity is moved in one frame. -/
def moved (dt : K) (before after : State K) : K := (after.speed + before.speed) / 2 * dt

/-! ### Durations -/

/-- B 158-164 -/
def velocityWithConstantJerk (s : State K) (jerk duration : K) : K :=
  s.speed + 1 / 2 * jerk * duration * duration + s.acceleration * duration

/-- B 143-156 -/
def velocityToward (c : Constraints K) (target : K) (s : State K) (duration : K) : K :=
  if isAccelerating target s then velocityWithConstantJerk s c.maxAccelerationRate duration
  else velocityWithConstantJerk s c.maxDecelerationRate duration

/-- B 166-184 `getQuadraticAccelerationDurationWithConstantJerk`; the square root is a parameter. -/
def quadraticToMaxSpeed (sqrt : K → K) (c : Constraints K) (target : K) (s : State K) : K :=
  if isAccelerating target s then
    (-s.acceleration + sqrt (s.acceleration * s.acceleration + 2 * c.maxAccelerationRate * (c.maxSpeed - s.speed))) / c.maxAccelerationRate
  else
    (-s.acceleration + sqrt (s.acceleration * s.acceleration + 2 * c.maxDecelerationRate * (-c.maxSpeed - s.speed))) / c.maxDecelerationRate

/-- B 186-220 -/
def quadraticDuration (sqrt : K → K) (c : Constraints K) (target : K) (s : State K) : K :=
  if isAccelerating target s then
    let duration := (c.maxAcceleration - s.acceleration) / c.maxAccelerationRate
    if velocityWithConstantJerk s c.maxAccelerationRate duration < target then duration else quadraticToMaxSpeed sqrt c target s
  else
    let duration := (s.acceleration - c.maxDeceleration) / c.maxDecelerationRate
    if velocityWithConstantJerk s (-c.maxDecelerationRate) duration < target then duration else quadraticToMaxSpeed sqrt c target s

/-- B 222-242, 244-254 -/
def linearDuration (sqrt : K → K) (c : Constraints K) (target : K) (s : State K) : K :=
  let quad := quadraticDuration sqrt c target s
  if |velocityToward c target s quad - target| ≤ |(1 / 100 : K)| then 0
  else if isAccelerating target s then (target - velocityToward c target s quad) / c.maxAcceleration
  else (velocityToward c target s quad - target) / c.maxDeceleration

/-- B 32-39 `getAccelerationDuration` -/
def accelerationDuration (sqrt : K → K) (c : Constraints K) (target : K) (s : State K) : K :=
  quadraticDuration sqrt c target s + linearDuration sqrt c target s

/-- B 41-90 `planConstraintsFromJerkAndTimeConstraint`; `none` is the exception. -/
def planConstraints (sqrt : K → K) (c : Constraints K) (target : K) (s : State K) (T : K) : Option (Constraints K) :=
  if T ≤ quadraticDuration sqrt c target s then
    let rate := 2 * (target - s.speed - s.acceleration * T) / (T * T)
    some { c with maxAccelerationRate := rate, maxDecelerationRate := rate }
  else if isAccelerating target s then
    let d := c.maxAccelerationRate * T * c.maxAccelerationRate * T
      + 2 * c.maxAccelerationRate * (s.speed + s.acceleration * T - target)
    if d < 0 then none else some { c with maxAcceleration := c.maxAccelerationRate * T - sqrt d + s.acceleration }
  else
    let d := c.maxDecelerationRate * T * c.maxDecelerationRate * T
      - 2 * c.maxDecelerationRate * (s.speed - s.acceleration * T - target)
    if d < 0 then none else some { c with maxDeceleration := -c.maxDecelerationRate * T + sqrt d + s.acceleration }

end Verif.Speed
