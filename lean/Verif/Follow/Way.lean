import Verif.Follow.Controller
import Verif.Follow.WaySpec
import Verif.Geometry.Turn
/-
Following a trajectory: `makeUpdatedStatus`, /repo/simulation/traffic_simulator/src/behavior/follow_trajectory.cpp, called FT below.

Numbers are real numbers with exact arithmetic, so the checks for NaN and infinity (FT:296-342, 350-371, 394-452) are left out. The function changes the trajectory,
so the changed trajectory is part of the result. The outcome `none` means that the recursion does not end; an exception and undefined behaviour are
`some (.error _)`. Where the controller fails, throws or does not return, the outcome is `.error .thrown`.
-/
namespace Verif.Follow
open Classical Verif.Geometry

/-- What is given by the road: the distance along the lanelets (`distance_along_lanelet`, FT:172-216), which falls back to the length of the line, the refined position
when the entity goes from one lanelet to another (`refine_position_for_lanelet_transition`, FT:485-510), and pitch and yaw of an orientation
(`convertQuaternionToEulerAngle`, tf2, not in /repo). -/
structure World where
  dist : Pt → Pt → ℝ
  refine : Status → Pt → Quat → Pt → Option Pt
  pitch : Quat → ℝ
  yaw : Quat → ℝ

/-- `traffic_simulator_msgs::msg::BehaviorParameter` as far as it is used: the dynamic constraints. -/
structure Param where
  maxSpeed : ℝ
  maxAcc : ℝ
  maxAccRate : ℝ
  maxDec : ℝ
  maxDecRate : ℝ

/-- How a call can fail. -/
inductive Fault where
  | thrown
  | undefined
  deriving DecidableEq

/-- `isDefinitelyLessThan`, /repo/common/math/arithmetic/include/arithmetic/floating_point/comparison.hpp, lines 48-56. -/
def less (a b : ℝ) : Prop := b - a > eps * max |a| |b|

/-- `scalarToDirectionVector`, /repo/common/math/geometry/include/geometry/vector3/scalar_to_direction_vector.hpp. -/
noncomputable def direct (w : World) (m : ℝ) (q : Quat) : Pt :=
  ⟨Real.cos (-w.pitch q) * Real.cos (w.yaw q) * m, Real.cos (-w.pitch q) * Real.sin (w.yaw q) * m, Real.sin (-w.pitch q) * m⟩

/-- `nearest_timed_waypoint`, FT:150-156: the waypoints up to the nearest one with a time, from the target on, and its time; `none` if there is none. -/
def nearestTimed : List Vertex → Option (ℕ × ℝ)
  | [] => none
  | v :: l => match v.time with
    | some x => some (0, x)
    | none => (nearestTimed l).map fun r => (r.1 + 1, r.2)

/-- The accumulated distance of `distance_to_waypoint`, FT:226-237: to the first waypoint and on to the one with index `n`; `none` where there is none. -/
noncomputable def pathTo (w : World) (p : Pt) : List Vertex → ℕ → Option ℝ
  | [], _ => none
  | v :: _, 0 => some (w.dist p v.pos)
  | v :: l, n + 1 => (pathTo w v.pos l n).map (w.dist p v.pos + ·)

/-- `distance_to_timed_or_final_waypoint`, FT:246-254; `l` are the waypoints from the target on. -/
noncomputable def distanceTimed (w : World) (p : Pt) (l : List Vertex) : Option ℝ :=
  match nearestTimed l with
  | some r => pathTo w p l r.1
  | none => pathTo w p l (l.length - 1)

/-- `remaining_time_to_waypoint`, FT:263-273. -/
noncomputable def remaining (base : Option ℝ) (now : ℝ) (time : Option ℝ) : Option ℝ :=
  time.map fun x => if base.getD 0 + x - now ≠ 0 then base.getD 0 + x - now else eps

/-- `remaining_time_to_nearest_timed_waypoint`, FT:282-290. -/
noncomputable def remainingTimed (base : Option ℝ) (now : ℝ) (l : List Vertex) : Option ℝ :=
  remaining base now ((nearestTimed l).map Prod.snd)

/-- `is_nearest_timed_waypoint_final`, FT:158-161. -/
def timedFinal (l : List Vertex) : Bool :=
  match nearestTimed l with
  | some r => r.1 + 1 == l.length
  | none => true

/-- `step_displacement_vector`, FT:458-469. -/
noncomputable def displacement (w : World) (dt : ℝ) (s : Status) (v : Pt) : Pt :=
  (if v.norm > eps then v.smul (1 / v.norm) else direct w 1 s.orient).smul ((s.vel.norm + v.norm) * (1 / 2) * dt)

/-- `previous_target_waypoint_direction`, FT:471-480. -/
noncomputable def heading (s : Status) (v₀ v₁ : Vertex) : Quat :=
  if (v₁.pos.sub v₀.pos).norm > eps then directionToQuat (v₁.pos.sub v₀.pos) else s.orient

/-- `update_entity_status`, FT:512-563, with `validate_arrival_time`, FT:373-392. The check for at least two waypoints (FT:344-349) comes after they were used. -/
noncomputable def move (w : World) (dt : ℝ) (s : Status) (t : Traj) (v₀ v₁ : Vertex) (v : Pt) : Except Fault Status :=
  if ∃ r, remainingTimed t.base s.time (t.vertices.drop 1) = some r ∧ r < -dt then .error .thrown
  else
    let pos := s.pos.add (displacement w dt s v)
    let q := heading s v₀ v₁
    let vel : Pt := ⟨v.norm, 0, 0⟩
    .ok { time := s.time + dt
          pos := if s.onLane then (w.refine s pos q v).getD pos else pos
          orient := q
          vel := vel
          acc := (vel.sub s.vel).smul (1 / dt)
          onLane := false }

/-- `constrained_brake_velocity`, FT:569-579. -/
noncomputable def brakeVelocity (w : World) (b : Param) (dt speed : ℝ) (q : Quat) : Pt :=
  direct w (speed + max (jerkAcc dt speed 0 b.maxDecRate) (-b.maxDec) * dt) q

/-- `velocity_from_speed`, FT:581-596. -/
noncomputable def towards (w : World) (s : Status) (target : Pt) (speed : ℝ) : Pt :=
  let d := target.sub s.pos
  let pitch := if s.onLane then -w.pitch s.orient else atan2 d.z (Real.sqrt (d.x ^ 2 + d.y ^ 2))
  let yaw := atan2 d.y d.x
  ⟨Real.cos pitch * Real.cos yaw * speed, Real.cos pitch * Real.sin yaw * speed, Real.sin pitch * speed⟩

/-- `desired_velocity`, FT:598-666. -/
noncomputable def desired (w : World) (b : Param) (dt : ℝ) (target : Option ℝ) (s : Status) (t : Traj) (v₁ : Vertex) : Except Fault Pt :=
  if t.ignorable = false then .error .thrown
  else
    let l := t.vertices.drop 1
    let time := remainingTimed t.base s.time l
    let c := Ctrl.make dt (timedFinal l) b.maxSpeed b.maxAcc b.maxAccRate b.maxDec b.maxDecRate (if time = none then target else none)
    match distanceTimed w s.pos l with
    | none => .error .undefined
    | some d => match acceleration c time d s.acc.x s.vel.x with
      | none => .error .thrown
      | some a => .ok (towards w s v₁.pos (s.vel.x + a * dt))

/-- What happens with the next waypoint. -/
inductive Choice where
  | done
  | go (v : Pt)
  | next

/-- `is_entity_immobile`, FT:778-783. -/
def still (s : Status) : Prop := |s.vel.x| < ε ∧ |s.acc.x| < ε

/-- `handle_intermediate_waypoint`, FT:741-776. -/
noncomputable def intermediate (w : World) (b : Param) (dt : ℝ) (target : Option ℝ) (s : Status) (t : Traj) (v₁ : Vertex) : Except Fault Choice :=
  match desired w b dt target s t v₁ with
  | .error e => .error e
  | .ok v =>
    let d := w.dist s.pos v₁.pos
    let step := (displacement w dt s v).norm
    match remaining t.base s.time v₁.time with
    | none => if step ≥ d ∨ d < ε then .ok .next else .ok (.go v)
    | some r =>
      if less r (dt / 2) then
        if step ≥ d ∨ d < ε then .ok .next else .error .thrown
      else .ok (.go v)

/-- `handle_final_waypoint`, FT:785-827. -/
noncomputable def final (w : World) (b : Param) (dt : ℝ) (target : Option ℝ) (s : Status) (t : Traj) (v₀ v₁ : Vertex) : Except Fault Choice :=
  let d := w.dist s.pos v₁.pos
  if still s ∧ d ≤ arrivalTol then
    match remaining t.base s.time v₁.time with
    | none => .ok .done
    | some r => if less r (dt / 2) then .ok .done else .ok (.go ⟨0, 0, 0⟩)
  else if (still s ∧ d > arrivalTol) ∧ d < w.dist s.pos v₀.pos then .error .thrown
  else if d ≤ arrivalTol then .ok (.go (brakeVelocity w b dt s.vel.x s.orient))
  else (desired w b dt target s t v₁).map .go

/-- The change of the trajectory in `discard_previous_waypoint_and_recurse`, FT:703-734. -/
def discard (now : ℝ) (t : Traj) (v₀ v₁ : Vertex) (l : List Vertex) : Traj :=
  { t with
    base := if t.base.isSome && v₁.time.isSome then some now else t.base
    vertices := if t.closed then v₁ :: l ++ [v₀] else v₁ :: l }

/-- `makeUpdatedStatus`, FT:99-876, without the log. The result is the new status, `none` when the trajectory is done, and the changed trajectory. A trajectory of fewer
than two waypoints is accessed behind its end, FT:145-148 from FT:869-875. -/
noncomputable def follow (w : World) (b : Param) (dt : ℝ) (target : Option ℝ) (s : Status) (t : Traj) : Option (Except Fault (Option Status × Traj)) :=
  match t.vertices with
  | v₀ :: v₁ :: l =>
    match if l.isEmpty then final w b dt target s t v₀ v₁ else intermediate w b dt target s t v₁ with
    | .error e => some (.error e)
    | .ok .done => some (.ok (none, t))
    | .ok (.go v) => match move w dt s t v₀ v₁ v with
      | .error e => some (.error e)
      | .ok s' => some (.ok (some s', t))
    | .ok .next => follow w b dt target s (discard s.time t v₀ v₁ l)
  | _ => some (.error .undefined)
partial_fixpoint

end Verif.Follow
