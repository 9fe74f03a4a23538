import Verif.Request.Model

/-!
# What one expects of requests, limits, synchronising and ranges

None of this uses the functions of the model.
-/
namespace Verif.Request

/-- What an entity may have been asked to do. -/
inductive Demand (P T L : Type)
  | nothing
  | goal (p : P)
  | route (ps : List P)
  | trajectory (t : T)
  | change (c : L)
  | straight

section
variable {P M T L : Type}

/-- `Asks w k c d`: the call `c`, made to an entity of kind `k`, asks it to do `d`. A call that asks
nothing of that kind of entity, or whose poses are not on a lane, is not related to any demand.
Crosswalks are lanes for pedestrians only. -/
inductive Asks (w : World P M T) : Kind → Call P M T L → Demand P T L → Prop
  | acquire {k p} : k ≠ .misc → Asks w k (.acquire p) (.goal p)
  | acquireAt {k m p} : k ≠ .misc → w.snap (decide (k = .pedestrian)) m = some p →
      Asks w k (.acquireAt m) (.goal p)
  | route {k ps} : k ≠ .misc → Asks w k (.route ps) (.route ps)
  | routeAt {k ms ps} : k ≠ .misc → ms.map (w.snap (decide (k = .pedestrian))) = ps.map some →
      Asks w k (.routeAt ms) (.route ps)
  | follow {k t} : k ≠ .misc → Asks w k (.follow (some t)) (.trajectory t)
  | change {c} : Asks w .vehicle (.change c) (.change c)
  | direction {c} : Asks w .vehicle (.direction (some c)) (.change c)
  | straight : Asks w .pedestrian .straight .straight
  | cancel {k} : k ≠ .misc → Asks w k .cancel .nothing
  | done {k} : Asks w k .done .nothing

/-- The entity is doing `d`. -/
def Meets (s : State P T L) : Demand P T L → Prop
  | .nothing => s.request = .none
  | .goal p => s.request = .followLane ∧ s.waypoints = [p]
  | .route ps => s.request = .followLane ∧ s.waypoints = ps
  | .trajectory t => s.request = .followTrajectory ∧ s.trajectory = some t
  | .change c => s.request = .laneChange ∧ s.change = some c
  | .straight => s.request = .walkStraight

/-- The call asks for a place on the map. -/
def Call.ByPlace : Call P M T L → Prop
  | .acquireAt _ => True
  | _ => False

/-- The call asks for a lane change, or to drop what was asked. -/
def Call.Mild : Call P M T L → Prop
  | .change _ => True
  | .direction _ => True
  | .cancel => True
  | _ => False

end

section
variable {K : Type} [Field K] [LinearOrder K]

/-- One of the limits. -/
def Limits.value (l : Limits K) : Which → K
  | .speed => l.speed
  | .acceleration => l.acceleration
  | .accelerationRate => l.accelerationRate
  | .deceleration => l.deceleration
  | .decelerationRate => l.decelerationRate

/-- How far one gets in the time `t`, starting at speed `v`, at a constant acceleration `a`. -/
def covered (v a t : K) : K := v * t + a * t ^ 2 / 2

/-- Outside the range by more than a hundredth. -/
def Outside (lo hi x : K) : Prop := x < lo - 1 / 100 ∨ hi + 1 / 100 < x

/-- What the complaint is about, and its range. -/
def Ranges.Broken (r : Ranges K) (f : Frame K) : Complaint → Prop
  | .speed => Outside r.minSpeed r.maxSpeed f.speed
  | .acceleration => Outside r.minAcceleration r.maxAcceleration f.acceleration
  | .jerk => Outside r.minJerk r.maxJerk f.jerk

end

end Verif.Request
