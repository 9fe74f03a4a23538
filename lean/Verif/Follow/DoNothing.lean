import Verif.Geometry.Turn
/-
Trajectories of entities without behaviour: /repo/simulation/do_nothing_plugin/src/plugin.cpp, called DN below.

Numbers are real numbers with exact arithmetic; a `double` that may be NaN or infinite is `Option ℝ`, with `none` for these. An exception is `none`.
-/
namespace Verif.Follow.Idle
open Classical Verif.Geometry

/-- `traffic_simulator_msgs::msg::Vertex`, /repo/simulation/traffic_simulator_msgs/msg/Vertex.msg: a pose with a time, NaN if it has none. -/
structure Vertex where
  time : Option ℝ
  pos : Pt
  orient : Quat

/-- `traffic_simulator_msgs::msg::PolylineTrajectory`, /repo/simulation/traffic_simulator_msgs/msg/PolylineTrajectory.msg and Polyline.msg. The base time is
NaN for absolute times, /repo/openscenario/openscenario_interpreter/src/syntax/follow_trajectory_action.cpp, lines 110-113. -/
structure Traj where
  base : Option ℝ
  ignorable : Bool
  closed : Bool
  offset : ℝ
  vertices : List Vertex

/-- The members of `traffic_simulator_msgs::msg::EntityStatus` that the plugin changes: linear velocity, acceleration and jerk along the heading, angular velocity around
z. Left out: the angular acceleration and the lanelet pose. -/
structure Status where
  time : ℝ
  pos : Pt
  orient : Quat
  speed : Option ℝ
  acc : Option ℝ
  jerk : Option ℝ
  turn : Option ℝ

/-- What is given by the road: height and orientation of the lane a pose is matched to, if there is one (`CanonicalizedEntityStatus::set`,
/repo/simulation/traffic_simulator/src/data_type/entity_status.cpp, lines 22-48 and 67-85); and the yaw of a quaternion (tf2, not in /repo). -/
structure World where
  lane : Pt → Quat → Option (ℝ × Quat)
  yaw : Quat → ℝ

/-- `+` of doubles. -/
def plus (a b : Option ℝ) : Option ℝ := a.bind fun x => b.map fun y => x + y

/-- `-` of doubles. -/
def minus (a b : Option ℝ) : Option ℝ := a.bind fun x => b.map fun y => x - y

/-- `/` of doubles; a division by zero is infinite or NaN. -/
noncomputable def over (a b : Option ℝ) : Option ℝ := a.bind fun x => b.bind fun y => if y = 0 then none else some (x / y)

/-- `<=` of doubles: false for NaN. -/
def atMost (a b : Option ℝ) : Prop := ∃ x y, a = some x ∧ b = some y ∧ x ≤ y

/-- `checkPolylineTrajectory`, DN:31-61, for a trajectory that is there. -/
def check (t : Traj) : Prop := t.closed = false ∧ t.ignorable = true ∧ |t.offset| ≤ eps ∧ 2 ≤ t.vertices.length

/-- `interpolate_entity_status`, DN:84-124, for a ratio that is a number. -/
noncomputable def between (w : World) (s : Status) (r : ℝ) (v₀ v₁ : Vertex) : Status :=
  let d := minus v₁.time v₀.time
  let speed := over (some (distance v₁.pos v₀.pos)) d
  let acc := over (minus s.speed speed) d
  { s with
    pos := (v₀.pos.smul (1 - r)).add (v₁.pos.smul r)
    orient := slerp v₀.orient v₁.orient r
    speed := speed
    acc := acc
    jerk := over (minus s.acc acc) d
    turn := over (some (w.yaw (getRotation v₀.orient v₁.orient))) d }

/-- The pair found by `std::adjacent_find`, DN:139-144. -/
noncomputable def findPair (base now : Option ℝ) : List Vertex → Option (Vertex × Vertex)
  | a :: b :: l => if atMost (plus base a.time) now ∧ atMost now (plus base b.time) then some (a, b) else findPair base now (b :: l)
  | _ => none

/-- The result of the interpolation: an unchanged status (`std::nullopt`), a new one, or a position that is NaN. -/
inductive Outcome where
  | same
  | status (s : Status)
  | nan

/-- `interpolateEntityStatusFromPolylineTrajectory`, DN:71-154; `now` is `current_time + step_time`. The vertices are at least two, by `check`. -/
noncomputable def interpolate (w : World) (t : Traj) (s : Status) (now : ℝ) : Outcome :=
  match t.vertices.head?, t.vertices.getLast?, t.vertices.dropLast.getLast? with
  | some first, some last, some before =>
    if atMost (some now) (plus t.base first.time) then .same
    else if atMost (plus t.base last.time) (some now) then .status (between w s 1 before last)
    else match findPair t.base (some now) t.vertices with
      | some (a, b) => match over (minus (minus (some now) t.base) a.time) (minus b.time a.time) with
        | some r => .status (between w s r a b)
        | none => .nan
      | none => .same
  | _, _, _ => .same

/-- The state of the plugin, /repo/simulation/do_nothing_plugin/include/do_nothing_plugin/plugin.hpp, lines 66-84; `following` means that the request is
`FOLLOW_POLYLINE_TRAJECTORY`. -/
structure State where
  status : Status
  following : Bool
  traj : Option Traj

/-- `CanonicalizedEntityStatus::set`, /repo/simulation/traffic_simulator/src/data_type/entity_status.cpp, lines 22-48 and 67-85: on a lane, height and orientation are
those of the lane. -/
def onRoad (w : World) (s : Status) : Status :=
  match w.lane s.pos s.orient with
  | some (z, q) => { s with pos := { s.pos with z := z }, orient := q }
  | none => s

/-- `DoNothingBehavior::update`, DN:163-209, with `getLastVertexTimestamp`, DN:63-69. An exception, or a position that is NaN, is `none`. The lane of a status that
was on a lane before and does not change is matched again here; the code uses the one it had. -/
noncomputable def update (w : World) (now dt : ℝ) (p : State) : Option State :=
  let s := { p.status with time := now }
  if p.following then
    match p.traj with
    | none => none
    | some t =>
      if check t then
        let s' := match interpolate w t s (now + dt) with
          | .same => some s
          | .status s' => some s'
          | .nan => none
        s'.map fun s' =>
          { p with status := onRoad w s'
                   following := !decide (atMost (plus t.base (t.vertices.getLast?.bind Vertex.time)) (some (now + dt))) }
      else none
  else some { p with status := onRoad w { s with speed := some 0, acc := some 0, turn := some 0 } }

end Verif.Follow.Idle
