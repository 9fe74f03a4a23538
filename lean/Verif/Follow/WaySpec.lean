import Verif.Geometry.Vec
/-
Trajectories, and words for following them, independent of the code that follows them.
-/
namespace Verif.Follow
open Verif.Geometry

/-- `traffic_simulator_msgs::msg::Vertex`, /repo/simulation/traffic_simulator_msgs/msg/Vertex.msg: the position and the time, which may be left open (NaN in the
code, `none` here). The orientation is not used by the code that is modelled. -/
structure Vertex where
  pos : Pt
  time : Option ℝ

/-- `traffic_simulator_msgs::msg::PolylineTrajectory`, /repo/simulation/traffic_simulator_msgs/msg/PolylineTrajectory.msg and Polyline.msg. Times are relative to
the base time, if there is one. `ignorable` is `dynamic_constraints_ignorable`. -/
structure Traj where
  base : Option ℝ
  ignorable : Bool
  closed : Bool
  vertices : List Vertex

/-- The members of `traffic_simulator_msgs::msg::EntityStatus` that are used for following a trajectory: time, pose, linear velocity and acceleration, and whether
the pose is on a lane. Angular velocity and acceleration are left out. -/
structure Status where
  time : ℝ
  pos : Pt
  orient : Quat
  vel : Pt
  acc : Pt
  onLane : Bool

namespace Spec

/-- The trajectory after its first waypoint was left behind at the time `now`: the next waypoint is the previous one now. A closed trajectory gets
the old one as last waypoint. Relative times count from the last waypoint with a time that was reached. -/
inductive Leave (now : ℝ) : Traj → Traj → Prop where
  | relative (t₀ t₁ : ℝ) (g : Bool) (v₀ : Vertex) (p : Pt) (l : List Vertex) :
      Leave now ⟨some t₀, g, false, v₀ :: ⟨p, some t₁⟩ :: l⟩ ⟨some now, g, false, ⟨p, some t₁⟩ :: l⟩
  | relativeClosed (t₀ t₁ : ℝ) (g : Bool) (v₀ : Vertex) (p : Pt) (l : List Vertex) :
      Leave now ⟨some t₀, g, true, v₀ :: ⟨p, some t₁⟩ :: l⟩ ⟨some now, g, true, ⟨p, some t₁⟩ :: l ++ [v₀]⟩
  | untimed (b : Option ℝ) (g : Bool) (v₀ : Vertex) (p : Pt) (l : List Vertex) :
      Leave now ⟨b, g, false, v₀ :: ⟨p, none⟩ :: l⟩ ⟨b, g, false, ⟨p, none⟩ :: l⟩
  | untimedClosed (b : Option ℝ) (g : Bool) (v₀ : Vertex) (p : Pt) (l : List Vertex) :
      Leave now ⟨b, g, true, v₀ :: ⟨p, none⟩ :: l⟩ ⟨b, g, true, ⟨p, none⟩ :: l ++ [v₀]⟩
  | absolute (t₁ : ℝ) (g : Bool) (v₀ : Vertex) (p : Pt) (l : List Vertex) :
      Leave now ⟨none, g, false, v₀ :: ⟨p, some t₁⟩ :: l⟩ ⟨none, g, false, ⟨p, some t₁⟩ :: l⟩
  | absoluteClosed (t₁ : ℝ) (g : Bool) (v₀ : Vertex) (p : Pt) (l : List Vertex) :
      Leave now ⟨none, g, true, v₀ :: ⟨p, some t₁⟩ :: l⟩ ⟨none, g, true, ⟨p, some t₁⟩ :: l ++ [v₀]⟩

/-- Leaving any number of waypoints behind, each of which satisfies `may`. -/
inductive Leaves (now : ℝ) (may : Traj → Prop) : Traj → Traj → Prop where
  | none (t : Traj) : Leaves now may t t
  | one {t t' t'' : Traj} : may t → Leave now t t' → Leaves now may t' t'' → Leaves now may t t''

/-- The time of the simulation at which a waypoint is due. -/
def Due (t : Traj) (v : Vertex) (due : ℝ) : Prop := ∃ x, v.time = some x ∧ due = t.base.getD 0 + x

/-- The length of the way through the positions, each stretch measured by `dist`. -/
def wayLength (dist : Pt → Pt → ℝ) : List Pt → ℝ
  | p :: q :: l => dist p q + wayLength dist (q :: l)
  | _ => 0

/-- The waypoint that decides about the speed, of those that are left: the first one with a time, and the last one if there is none with a time. -/
def Decisive (left : List Vertex) (n : ℕ) (v : Vertex) : Prop :=
  left[n]? = some v ∧ (∀ k < n, ∀ u, left[k]? = some u → u.time = none) ∧ (v.time = none → n + 1 = left.length)

end Spec
end Verif.Follow
