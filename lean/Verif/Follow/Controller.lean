import Mathlib.Analysis.Real.Sqrt
import Mathlib.Algebra.Order.Floor.Ring
import Mathlib.Algebra.Order.Archimedean.Real.Basic
/-
The controller of the speed along a trajectory:
/repo/simulation/traffic_simulator/include/traffic_simulator/behavior/follow_waypoint_controller.hpp, called WH below, and
/repo/simulation/traffic_simulator/src/behavior/follow_waypoint_controller.cpp, called WC below.

Numbers are real numbers with exact arithmetic. A thrown `ControllerError` or `SemanticError` is `none`; so is undefined behaviour and a loop that does
not end (the loops are `partial_fixpoint` functions). A time that is NaN is `none` of an `Option`; infinite times are left out. The predictions are those for
`use_distance_along_lanelet = false` (WH:50), the value in /repo, which do not use the functions for the road.
-/
namespace Verif.Follow
open Classical

/-- The members of `FollowWaypointController`, WH:130-140. `maxSpeed` is used by the constructor only, as value for a target speed that is not given
(WH:300-313). -/
structure Ctrl where
  dt : ℝ
  braking : Bool
  maxAcc : ℝ
  maxAccRate : ℝ
  maxDec : ℝ
  maxDecRate : ℝ
  target : ℝ

/-- The constructor, WH:300-313. -/
def Ctrl.make (dt : ℝ) (braking : Bool) (maxSpeed maxAcc maxAccRate maxDec maxDecRate : ℝ) (target : Option ℝ) : Ctrl :=
  ⟨dt, braking, maxAcc, maxAccRate, maxDec, maxDecRate, target.getD maxSpeed⟩

/-- `local_epsilon`, WH:298. -/
noncomputable def ε : ℝ := 1 / 10 ^ 12

/-- `step_time_tolerance`, WH:149. -/
noncomputable def timeTol : ℝ := 1 / 10 ^ 6

/-- `predicted_distance_tolerance`, WH:159. -/
noncomputable def distTol : ℝ := 1

/-- `remaining_distance_tolerance`, WH:289. -/
noncomputable def arrivalTol : ℝ := 1 / 10

/-- `std::numeric_limits<double>::max()`. -/
noncomputable def huge : ℝ := 2 ^ 1024 - 2 ^ 971

/-- `minimum_discrete_steps` in `accelerationWithJerkConstraint`, WC:139-140; `std::round` of a number that is not negative. -/
noncomputable def steps (dt d j : ℝ) : ℝ := max 1 (⌊Real.sqrt (2 * |d| / j) / dt + 1 / 2⌋ : ℝ)

/-- `accelerationWithJerkConstraint`, WC:129-154. -/
noncomputable def jerkAcc (dt speed target rate : ℝ) : ℝ :=
  let d := target - speed
  let j := |rate|
  let n := steps dt d j
  d / (n * dt) + (if d ≥ 0 then 1 else -1) * j * dt * (n - 1) / 2

/-- `local_min_acceleration` in `getAccelerationLimits`, WC:160-161 and 165-167. -/
noncomputable def lowest (c : Ctrl) (acc speed : ℝ) : ℝ :=
  max (max (jerkAcc c.dt speed 0 c.maxDecRate) (-c.maxDec)) (acc - c.maxDecRate * c.dt)

/-- `local_max_acceleration` in `getAccelerationLimits`, WC:162-163 and 168-170. -/
noncomputable def highest (c : Ctrl) (acc speed : ℝ) : ℝ :=
  min (min (jerkAcc c.dt speed c.target c.maxAccRate) c.maxAcc) (acc + c.maxAccRate * c.dt)

/-- `getAccelerationLimits`, WC:156-204. The local variable `max_speed` hides the member of that name, WC:193-196. -/
noncomputable def limits (c : Ctrl) (acc speed : ℝ) : Option (ℝ × ℝ) :=
  let lo := lowest c acc speed
  let hi := highest c acc speed
  if hi + ε < lo - ε then none
  else
    let minSpeed := speed + lo * c.dt
    let maxSpeed := speed + hi * c.dt
    if maxSpeed < -ε ∨ maxSpeed > min maxSpeed c.target + ε ∨ minSpeed < -ε ∨ minSpeed > min maxSpeed c.target + ε then none
    else some (lo, hi)

/-- `clampAcceleration`, WC:21-48. `std::clamp` with bounds in the wrong order is undefined; here it is what libstdc++ computes. -/
noncomputable def clampAcc (c : Ctrl) (candidate acc speed : ℝ) : Option ℝ :=
  if speed + (acc + c.maxAccRate * c.dt) * c.dt < 0 then some (min (jerkAcc c.dt speed 0 c.maxAccRate) c.maxAcc)
  else if speed + (acc - c.maxDecRate * c.dt) * c.dt > c.target then some (max (jerkAcc c.dt speed c.target c.maxDecRate) (-c.maxDec))
  else (limits c acc speed).map fun l => min (max candidate l.1) l.2

/-- `getAnalyticalAccelerationForLastSteps`, WC:50-92. -/
noncomputable def lastSteps (c : Ctrl) (time dist acc speed : ℝ) : Option ℝ :=
  if time ≤ c.dt * 2 then
    if c.braking = false ∨ |speed| < ε then clampAcc c 0 acc speed else none
  else if time ≤ c.dt * 3 then
    if c.braking then clampAcc c (-speed / c.dt) acc speed
    else clampAcc c (2 / 3 * (dist - 2 * speed * c.dt) / c.dt ^ 2) acc speed
  else if time ≤ c.dt * 4 then
    if c.braking then clampAcc c (2 * (dist - speed * c.dt) / c.dt ^ 2) acc speed else none
  else none

/-- `static_cast<std::size_t>` of a `double` below 2^64: towards zero, undefined (`none`) for numbers up to -1. -/
noncomputable def toSize (x : ℝ) : Option ℝ :=
  if x ≤ -1 then none else if x < 0 then some 0 else some (⌊x⌋ : ℝ)

/-- `roundTimeToFullStepsWithTolerance`, WC:94-119. -/
noncomputable def roundTime (dt time tol : ℝ) : Option ℝ :=
  if time ≥ (2 ^ 64 - 1) * dt then none
  else (toSize (time / dt)).map fun n =>
    if time / dt - n * dt / dt > 1 - tol then n * dt + dt + tol else n * dt + tol

/-- `PredictedEntityStatus`, WH:46-127: of the status only speed and acceleration. -/
structure Pred where
  speed : ℝ
  acc : ℝ
  dist : ℝ
  time : ℝ

/-- `PredictedEntityStatus::step`, WH:82-110. -/
noncomputable def Pred.step (p : Pred) (a dt : ℝ) : Pred where
  speed := p.speed + a * dt
  acc := (p.speed + a * dt - p.speed) / dt
  dist := p.dist + (p.speed + (p.speed + a * dt)) * (1 / 2) * dt
  time := p.time + dt

/-- `isImmobile`, WH:119-123. -/
def Pred.immobile (p : Pred) : Prop := |p.speed| < ε ∧ |p.acc| < ε

/-- One pass of the braking loops, WC:222-233 and 254-265. -/
noncomputable def brake (c : Ctrl) (p : Pred) : Option Pred := do
  let clamped ← clampAcc c p.acc p.acc p.speed
  if clamped ≠ p.acc then return p.step clamped c.dt
  else
    let l ← limits c p.acc p.speed
    return p.step l.1 c.dt

/-- The loop of `getPredictedStopEntityStatusWithoutConsideringTime`, WC:218-235: the outer `none` is an error, the inner one `std::nullopt`. -/
noncomputable def stopLoop (c : Ctrl) (dist : ℝ) (p : Pred) : Option (Option Pred) :=
  if p.immobile then some (some p)
  else if p.dist > dist + distTol then some none
  else do
    let q ← brake c p
    stopLoop c dist q
partial_fixpoint

/-- `getPredictedStopEntityStatusWithoutConsideringTime`, WC:206-236. -/
noncomputable def predictStop (c : Ctrl) (a dist acc speed : ℝ) : Option (Option Pred) :=
  stopLoop c dist ((Pred.mk speed acc 0 0).step a c.dt)

/-- `brakeUntilImmobility` in `getPredictedWaypointArrivalState`, WC:248-268: the state and whether it is immobile. -/
noncomputable def brakeLoop (c : Ctrl) (time : ℝ) (p : Pred) : Option (Pred × Bool) :=
  if p.immobile then some (p, true)
  else if p.time ≥ time then some (p, false)
  else do
    let q ← brake c p
    brakeLoop c time q
partial_fixpoint

/-- The loop that makes the acceleration zero in `getPredictedWaypointArrivalState`, WC:293-307. -/
noncomputable def coastLoop (c : Ctrl) (time : ℝ) (p : Pred) : Option Pred :=
  if |p.acc| > 0 then
    if p.time ≥ time then none
    else do
      let a ← clampAcc c 0 p.acc p.speed
      coastLoop c time (p.step a c.dt)
  else some p
partial_fixpoint

/-- The end of `getPredictedWaypointArrivalState`, WC:309-346. -/
noncomputable def arrivalEnd (c : Ctrl) (time dist : ℝ) (p : Pred) : Option (Option Pred) := do
  if |p.speed| ≤ ε then return none
  else
    let (q, found) ← (if c.braking then do
      let (q, still) ← brakeLoop c time p
      if !still then return (q, some none)
      else if |q.time - time| ≤ c.dt then return (q, some (some q))
      else return (q, none) else return (p, none) : Option (Pred × Option (Option Pred)))
    match found with
    | some r => return r
    | none =>
      let rest := dist - q.dist
      if rest ≥ huge * p.speed then none
      else
        let t ← roundTime c.dt (rest / p.speed) timeTol
        return some { q with dist := t * p.speed + q.dist, time := t + q.time }

/-- `getPredictedWaypointArrivalState`, WC:238-348. -/
noncomputable def predictArrival (c : Ctrl) (a time dist acc speed : ℝ) : Option (Option Pred) := do
  if time < c.dt then return some ⟨speed, acc, 0, 0⟩
  else
    let a ← clampAcc c a acc speed
    let p := (Pred.mk speed acc 0 0).step a c.dt
    let found ← (if c.braking then do
      let (q, still) ← brakeLoop c time p
      if !still then return some none
      else if |q.time - time| ≤ c.dt then return some (some q)
      else return none else return none : Option (Option (Option Pred)))
    match found with
    | some r => return r
    | none =>
      let p ← coastLoop c time p
      arrivalEnd c time dist p

/-- The choice between candidates in `getAcceleration` without time, WC:373-401: the best acceleration so far and its remaining distance. -/
noncomputable def considerStop (c : Ctrl) (dist acc speed : ℝ) (best : Option ℝ × ℝ) (a : ℝ) : Option (Option ℝ × ℝ) := do
  match ← predictStop c a dist acc speed with
  | none => return best
  | some p =>
    let d := dist - p.dist
    if d ≥ 0 ∧ best.2 ≥ 0 then return if d < best.2 then (some a, d) else best
    else if d ≥ 0 ∧ ¬ best.2 ≥ 0 then return (some a, d)
    else if ¬ d ≥ 0 ∧ ¬ best.2 ≥ 0 then return if |d| < |best.2| then (some a, d) else best
    else return best

/-- The candidates, WC:364-372 and 524-529: `lo + i * (hi - lo) / 30`. -/
noncomputable def candidate (lo hi : ℝ) (i : ℕ) : ℝ := lo + i * ((hi - lo) / 30)

/-- `getAcceleration` without time, WC:350-411. -/
noncomputable def accelerationNoTime (c : Ctrl) (dist acc speed : ℝ) : Option ℝ := do
  let (lo, hi) ← limits c acc speed
  let best ← (List.range 31).foldlM (fun best i => considerStop c dist acc speed best (candidate lo hi i)) (none, -huge)
  best.1

/-- `isBetterCandidate`, WC:480-489; `best` holds `min_time_diff` and `min_distance_diff`. -/
def better (best : ℝ × ℝ) (t d : ℝ) : Prop :=
  (¬ |t - best.1| < ε ∧ |t| < |best.1|) ∨ (|t - best.1| < ε ∧ d ≥ 0 ∧ (|d| < |best.2| ∨ best.2 < 0))

/-- `considerCandidate`, WC:493-506. -/
noncomputable def considerTime (c : Ctrl) (time dist acc speed : ℝ) (best : Option ℝ × ℝ × ℝ) (a : ℝ) : Option (Option ℝ × ℝ × ℝ) := do
  match ← predictArrival c a time dist acc speed with
  | none => return best
  | some p => return if better best.2 (time - p.time) (dist - p.dist) then (some a, time - p.time, dist - p.dist) else best

/-- The candidates in the order of their consideration, WC:508-530. -/
noncomputable def candidates (lo hi : ℝ) : List ℝ :=
  [lo] ++ (if lo < 0 ∧ hi > 0 then [0] else []) ++ [hi] ++
    (if (hi - lo) / 30 > ε then (List.range 29).map fun i => candidate lo hi (i + 1) else [])

/-- The choice of `getAcceleration` with time, WC:477-552. -/
noncomputable def accelerationByTime (c : Ctrl) (time dist acc speed lo hi : ℝ) : Option ℝ := do
  let best ← (candidates lo hi).foldlM (fun best a => considerTime c time dist acc speed best a) (none, huge, huge)
  let a ← best.1
  if best.2.1 ≤ -c.dt + timeTol then return hi
  else if best.2.1 ≥ c.dt - timeTol then return lo
  else if |best.2.1| < c.dt ∧ best.2.2 > distTol then none
  else return a

/-- `getAcceleration`, WC:413-554. -/
noncomputable def acceleration (c : Ctrl) (time : Option ℝ) (dist acc speed : ℝ) : Option ℝ := do
  if speed + (acc + c.maxAccRate * c.dt) * c.dt < 0 then return acc + c.maxAccRate * c.dt
  else if speed + (acc - c.maxDecRate * c.dt) * c.dt > c.target then return acc - c.maxDecRate * c.dt
  else
    let (lo, hi) ← limits c acc speed
    if (speed + lo * c.dt * (1 / 2)) * c.dt > dist then return lo
    else if |lo - hi| < ε then return lo
    else
      match time with
      | none => accelerationNoTime c dist acc speed
      | some t =>
        let time ← roundTime c.dt t timeTol
        if c.braking = true ∧ time ≤ c.dt * 4 then lastSteps c time dist acc speed
        else if time ≤ c.dt * 3 then lastSteps c time dist acc speed
        else accelerationByTime c time dist acc speed lo hi

end Verif.Follow
