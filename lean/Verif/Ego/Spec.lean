import Verif.Ego.Model
import Verif.Vehicle.Spec
/-
Vocabulary of the statements about the simulation of the ego.
-/
namespace Verif.Ego
open Verif.Vehicle Verif.Geometry

/-- The orientation of something upright that is turned by `θ` about the vertical. -/
noncomputable def upright (θ : ℝ) : Quat := ⟨0, 0, Real.sin (θ / 2), Real.cos (θ / 2)⟩

/-- Seen from above, `p` is `ahead` in front of `o` and `left` to the left of it, for someone who looks along the heading `θ`. -/
def AheadLeft (o : Pt) (θ ahead left : ℝ) (p : Pt) : Prop :=
  p.x = o.x + ahead * Real.cos θ - left * Real.sin θ ∧ p.y = o.y + ahead * Real.sin θ + left * Real.cos θ

/-- Seen from above, `p` and `q` are at most `d` apart. -/
def CloseTo (p q : Pt) (d : ℝ) : Prop := (q.x - p.x) ^ 2 + (q.y - p.y) ^ 2 ≤ d ^ 2

/-- The call comes after the start of the scenario, or is not an overwriting. -/
def Settled : Op → Prop
  | .update .. => True
  | .overwrite _ _ _ started _ => started = true

/-- The two orientations turn every vector to the same vector. -/
def SameTurn (a b : Quat) : Prop := ∀ v, rotate a v = rotate b v

/-- Where the orientation turns the front of the vehicle. -/
def nose (q : Quat) : Pt := rotate q ⟨1, 0, 0⟩

open Classical in
/-- The direction in which a gear turns a positive acceleration. -/
noncomputable def direction (g : Gear) : ℝ := if Backward g then -1 else if g = .none then 0 else 1

/-- What gravity does along the road: nothing if it is not to be considered or if there is no lane. -/
noncomputable def gravity (considered : Bool) (lane : Option Lane) : ℝ := match considered, lane with
  | true, some l => 9.81 * Real.sin l.pitch
  | _, _ => 0

/-- What a vehicle model is told when the command is `c` and the acceleration by gravity is `a`. -/
noncomputable def commanded (k : Kind) (c : Command) (a : ℝ) : Input := match k with
  | .idealVel | .delayVel => { drive := c.speed, steer := c.tireAngle }
  | .delayAccGearedNoGuard => { drive := c.acceleration, steer := c.tireAngle, gear := c.gear, slope := a }
  | _ => { drive := direction c.gear * c.acceleration + a, steer := c.tireAngle }

end Verif.Ego
