import Verif.Pace.Model
/- Words used in the statements about changes of speed. -/
namespace Verif.Pace
open Verif.Job

variable {K : Type} [Field K] [LinearOrder K]

/-- No job is active: there is no request under way. -/
def Idle (s : S (Ent K) K) : Prop := ∀ j ∈ s.jobs, j.active = false

/-- Within a hundredth of a metre per second. -/
def Near (v w : K) : Prop := -(1 / 100) ≤ v - w ∧ v - w ≤ 1 / 100

/-- The entity is at most as fast as its limit and the limits are not negative; so is the default. -/
structure Sound (e : Ent K) : Prop where
  now : 0 ≤ e.constraints.maxAcceleration ∧ 0 ≤ e.constraints.maxAccelerationRate ∧ 0 ≤ e.constraints.maxDeceleration ∧
    0 ≤ e.constraints.maxDecelerationRate ∧ 0 ≤ e.constraints.maxSpeed
  default : 0 ≤ e.standard.maxAcceleration ∧ 0 ≤ e.standard.maxAccelerationRate ∧ 0 ≤ e.standard.maxDeceleration ∧
    0 ≤ e.standard.maxDecelerationRate ∧ 0 ≤ e.standard.maxSpeed
  slow : -e.constraints.maxSpeed ≤ e.motion.speed ∧ e.motion.speed ≤ e.constraints.maxSpeed

/-- A speed that is possible under the limits in force and under the default limits. -/
def Possible (v : K) (e : Ent K) : Prop :=
  -e.constraints.maxSpeed ≤ v ∧ v ≤ e.constraints.maxSpeed ∧ -e.standard.maxSpeed ≤ v ∧ v ≤ e.standard.maxSpeed

/-- The speed at a time after the start of an even change from `cur` to `v` that takes the time `T`. -/
def ramp (cur v T t : K) : K := cur + (v - cur) * min 1 (t / T)

/-- The speed after a call that went well. -/
def Res.speed : Res (S (Ent K) K) → Option K
  | .ok s => some s.st.motion.speed
  | .throws => none
  | .undefined => none

/-- The limit of the acceleration after a call that went well. -/
def Res.limit : Res (S (Ent K) K) → Option K
  | .ok s => some s.st.constraints.maxAcceleration
  | .throws => none
  | .undefined => none

/-- The calls one after the other. -/
def Res.andThen (r : Res (S (Ent K) K)) (f : S (Ent K) K → Res (S (Ent K) K)) : Res (S (Ent K) K) :=
  match r with
  | .ok s => f s
  | .throws => .throws
  | .undefined => .undefined

end Verif.Pace
