import Mathlib.Analysis.Real.Sqrt
import Mathlib.Algebra.BigOperators.Group.Finset.Basic
/-
Words for the motion along a trajectory, independent of the controller.
-/
namespace Verif.Follow.Spec
open Finset

/-- The speed after `k` steps of length `dt` that start with speed `v` and acceleration `a`, when the acceleration falls by `jerk * dt` with every step. -/
def speedAfter (dt v a jerk : ℝ) (k : ℕ) : ℝ := v + ∑ i ∈ range k, (a - jerk * dt * i) * dt

/-- The speeds and accelerations a vehicle can have that starts with speed `v` and no acceleration and is moved, step by step, by the accelerations which
`decide acc speed` allows. -/
inductive Run (dt : ℝ) (decide : ℝ → ℝ → ℝ → Prop) (v : ℝ) : ℝ → ℝ → Prop where
  | start : Run dt decide v v 0
  | step {speed acc next : ℝ} : Run dt decide v speed acc → decide acc speed next → Run dt decide v (speed + next * dt) next

/-- `best` is a better place to stop than `other`, both given as the distance left to the waypoint: stopping before the waypoint is better than after it, and
nearer is better than farther. -/
def StopsBetter (best other : ℝ) : Prop := (0 ≤ other → 0 ≤ best ∧ best ≤ other) ∧ (best < 0 → other ≤ best)

/-- The distance of a step of length `dt` that changes the speed evenly. -/
noncomputable def travelled (dt v a : ℝ) : ℝ := v * dt + a * dt ^ 2 / 2

end Verif.Follow.Spec
