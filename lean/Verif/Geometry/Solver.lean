import Verif.Geometry.Vec
import Mathlib.Analysis.SpecialFunctions.Trigonometric.Inverse
import Mathlib.Analysis.SpecialFunctions.Pow.Real
/-
The solver for polynomial equations up to degree three: /repo/common/math/geometry/src/solver/polynomial_solver.cpp.

Numbers are real numbers. A NaN that the code computes even in exact arithmetic (square root of a negative number, 0 / 0) is `none`; a
thrown `SimulationError` is an outer `none`.
-/
namespace Verif.Geometry
open Classical

/-- `tolerance`, /repo/common/math/geometry/include/geometry/solver/polynomial_solver.hpp, line 98. -/
noncomputable def tol : ℝ := 1 / 10 ^ 7

/-- `isApproximatelyEqualTo`, /repo/common/math/geometry/src/solver/polynomial_solver.cpp, lines 239-243. -/
def approx (v0 v1 : ℝ) : Prop := |v0 - v1| ≤ tol

/-- `is_in_range` in `filterByRange`, /repo/common/math/geometry/src/solver/polynomial_solver.cpp, lines 150-159; all comparisons with NaN
are false. -/
noncomputable def inRange (lo hi : ℝ) : Option ℝ → Option ℝ
  | none => none
  | some v =>
    if lo ≤ v ∧ v ≤ hi then some v
    else if |v - hi| ≤ tol then some hi
    else if |v - lo| ≤ tol then some lo
    else none

/-- `filterByRange`, /repo/common/math/geometry/src/solver/polynomial_solver.cpp, lines 142-170. -/
noncomputable def filterByRange (values : List (Option ℝ)) (lo hi : ℝ) : List ℝ := values.filterMap (inRange lo hi)

/-- `solveLinearEquation`, /repo/common/math/geometry/src/solver/polynomial_solver.cpp, lines 47-73. -/
noncomputable def solveLinear (a b lo hi : ℝ) : Option (List ℝ) :=
  if approx a 0 then
    if approx b 0 then none else some (filterByRange [] lo hi)
  else some (filterByRange [some (-b / a)] lo hi)

/-- `solveQuadraticEquation`, /repo/common/math/geometry/src/solver/polynomial_solver.cpp, lines 75-97. -/
noncomputable def solveQuadratic (a b c lo hi : ℝ) : Option (List ℝ) :=
  if approx a 0 then solveLinear b c lo hi
  else
    let discriminant := b * b - 4 * a * c
    some (filterByRange
      (if approx discriminant 0 then [some (-b / (2 * a))]
       else if discriminant < 0 then []
       else [some ((-b - Real.sqrt discriminant) / (2 * a)), some ((-b + Real.sqrt discriminant) / (2 * a))]) lo hi)

/-- The argument of `acos`: `std::clamp(r / std::sqrt(q3), -1.0, 1.0)`, /repo/common/math/geometry/src/solver/polynomial_solver.cpp, line 199.
For `q3 < 0` the root is NaN; for `q3 = 0` the quotient is NaN or infinite; NaN passes through `clamp`. -/
noncomputable def ratio (r q3 : ℝ) : Option ℝ :=
  if q3 < 0 then none
  else if q3 = 0 then (if r = 0 then none else if r < 0 then some (-1) else some 1)
  else some (max (-1) (min (r / Real.sqrt q3) 1))

/-- `std::cbrt` of a number that is not negative (C++ standard library, not in /repo). -/
noncomputable def cbrt (x : ℝ) : ℝ := x ^ ((1 : ℝ) / 3)

/-- `solveMonicCubicEquationWithComplex`, /repo/common/math/geometry/src/solver/polynomial_solver.cpp, lines 173-237: real and imaginary
parts. -/
noncomputable def solveMonic (a b c : ℝ) : List (Option ℝ × ℝ) :=
  let q := (a * a - 3 * b) / 9
  let r := (a * (2 * a * a - 9 * b) + 27 * c) / 54
  let q3 := q * q * q
  if r * r ≤ q3 + tol then
    match ratio r q3 with
    | none => [(none, 0), (none, 0), (none, 0)]
    | some k =>
      let t := Real.arccos k
      [(some (-2 * Real.sqrt q * Real.cos (t / 3) - a / 3), 0),
       (some (-2 * Real.sqrt q * Real.cos ((t + 2 * Real.pi) / 3) - a / 3), 0),
       (some (-2 * Real.sqrt q * Real.cos ((t - 2 * Real.pi) / 3) - a / 3), 0)]
  else
    let real := -cbrt (|r| + Real.sqrt (r * r - q3))
    let A := if r < 0 then -1 * real else real
    let B := if approx A 0 then 0 else q / A
    let im := 0.5 * Real.sqrt 3 * (A - B)
    if approx im 0 then [(some ((A + B) - a / 3), 0), (some (-0.5 * (A + B) - a / 3), 0)]
    else [(some ((A + B) - a / 3), 0), (some (-0.5 * (A + B) - a / 3), -im), (some (-0.5 * (A + B) - a / 3), im)]

/-- `solveCubicEquation`, /repo/common/math/geometry/src/solver/polynomial_solver.cpp, lines 99-140. -/
noncomputable def solveCubic (a b c d lo hi : ℝ) : Option (List ℝ) :=
  if approx a 0 then solveQuadratic b c d lo hi
  else
    some (filterByRange
      ((solveMonic (b / a) (c / a) (d / a)).filterMap fun v => if |v.2| ≤ eps then some v.1 else none) lo hi)

end Verif.Geometry
