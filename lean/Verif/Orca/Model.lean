import Verif.Geometry.Turn
/-
How pedestrians of the context-aware behavior plugin choose their velocity among other entities: the half planes of allowed velocities
(`orca.cpp`) and the search for a velocity in them (`solver.cpp`) of /repo/simulation/context_gamma_planner/src/orca.

Numbers are real numbers with exact arithmetic. Where a `double` would become NaN, and where `normalize` throws, the model gives `none`
(each definition says so).
-/
namespace Verif.Orca
open Geometry Classical

/-- `struct line`, /repo/simulation/context_gamma_planner/include/context_gamma_planner/orca/solver.hpp, lines 32-36: the velocities
allowed are those on the left of the line. -/
@[ext] structure Line where
  point : Pt
  dir : Pt

/-- `ORCA_EPSILON`, /repo/simulation/context_gamma_planner/include/context_gamma_planner/orca/solver.hpp, line 30: the `float` nearest to
0.00001. -/
noncomputable def orcaEps : ℝ := 10995116 / 2 ^ 40

/-- `innerProduct`, /repo/common/math/geometry/include/geometry/vector3/inner_product.hpp, lines 28-31. -/
def inner (a b : Pt) : ℝ := a.x * b.x + a.y * b.y + a.z * b.z

/-- `cross2d`, /repo/common/math/geometry/include/geometry/vector3/cross_2d.hpp, lines 29-32. -/
def cross2d (a b : Pt) : ℝ := a.x * b.y - a.y * b.x

/-- How far a velocity is on the forbidden side of a line: the expression of
/repo/simulation/context_gamma_planner/src/orca/solver.cpp, lines 126, 149 and 189. -/
def violation (l : Line) (v : Pt) : ℝ := cross2d l.dir (l.point.sub v)

/-- One pass of the loop over the earlier lines in `applyConstraintOnLine`,
/repo/simulation/context_gamma_planner/src/orca/solver.cpp, lines 57-84. -/
noncomputable def narrow (c : Line) (b : ℝ × ℝ) (o : Line) : Option (ℝ × ℝ) :=
  let denominator := cross2d c.dir o.dir
  let numerator := cross2d o.dir (c.point.sub o.point)
  if |denominator| ≤ orcaEps then
    if numerator < 0 then none else some b
  else
    let t := numerator / denominator
    let b := if 0 ≤ denominator then (b.1, min b.2 t) else (max b.1 t, b.2)
    if b.2 < b.1 then none else some b

/-- The part of the line `c` that is within the speed limit and allowed by the earlier lines: `applyConstraintOnLine`,
/repo/simulation/context_gamma_planner/src/orca/solver.cpp, lines 40-84. -/
noncomputable def interval (before : List Line) (c : Line) (limit : ℝ) : Option (ℝ × ℝ) :=
  let projection := inner c.point c.dir
  let discriminant := projection * projection + limit * limit - inner c.point c.point
  if discriminant < 0 then none
  else before.foldlM (narrow c) (-projection - Real.sqrt discriminant, -projection + Real.sqrt discriminant)

/-- The place on the line: `applyConstraintOnLine`, /repo/simulation/context_gamma_planner/src/orca/solver.cpp, lines 86-108. -/
noncomputable def choose (c : Line) (wish : Pt) (align : Bool) (b : ℝ × ℝ) : ℝ :=
  if align then
    if 0 < inner wish c.dir then b.2 else b.1
  else
    let t := inner c.dir (wish.sub c.point)
    if t < b.1 then b.1 else if b.2 < t then b.2 else t

/-- `applyConstraintOnLine`, /repo/simulation/context_gamma_planner/src/orca/solver.cpp, lines 31-109. `before` are the lines
`[0, line_no)`. -/
noncomputable def applyOnLine (before : List Line) (c : Line) (limit : ℝ) (wish : Pt) (align : Bool) : Option Pt :=
  (interval before c limit).map fun b => c.point.add (c.dir.smul (choose c wish align b))

/-- The first value of `result`: `solveLinearProgramForConstraints`, /repo/simulation/context_gamma_planner/src/orca/solver.cpp,
lines 117-123. `none`: `normalize` throws. -/
noncomputable def firstChoice (radius : ℝ) (wish : Pt) (align : Bool) : Option Pt :=
  if align then some (wish.smul radius)
  else if radius * radius < inner wish wish then (normalize wish).map (·.smul radius)
  else some wish

/-- The loop of `solveLinearProgramForConstraints`, /repo/simulation/context_gamma_planner/src/orca/solver.cpp, lines 125-137: the number
of the line that failed, or the number of lines, and `result`. -/
noncomputable def solveFrom (radius : ℝ) (wish : Pt) (align : Bool) : List Line → List Line → Pt → Nat × Pt
  | before, [], result => (before.length, result)
  | before, l :: rest, result =>
    if 0 < violation l result then
      match applyOnLine before l radius wish align with
      | none => (before.length, result)
      | some r => solveFrom radius wish align (before ++ [l]) rest r
    else solveFrom radius wish align (before ++ [l]) rest result

/-- `solveLinearProgramForConstraints`, /repo/simulation/context_gamma_planner/src/orca/solver.cpp, lines 113-138. `none`: `normalize`
throws. -/
noncomputable def solve (lines : List Line) (radius : ℝ) (wish : Pt) (align : Bool) : Option (Nat × Pt) :=
  (firstChoice radius wish align).map (solveFrom radius wish align [] lines)

/-- The line `l` for the earlier line `lines[j]`: `resolveConstraintViolationViaIntersectionSearch`,
/repo/simulation/context_gamma_planner/src/orca/solver.cpp, lines 153-173. `none`: `normalize` throws; `some none`: no line is added. -/
noncomputable def project (li lj : Line) : Option (Option Line) :=
  let determinant := cross2d li.dir lj.dir
  if |determinant| ≤ orcaEps then
    if 0 < inner li.dir lj.dir then some none
    else (normalize (lj.dir.sub li.dir)).map fun d => some ⟨(li.point.add lj.point).smul (1 / 2), d⟩
  else
    (normalize (lj.dir.sub li.dir)).map fun d =>
      some ⟨li.point.add (li.dir.smul (cross2d lj.dir (li.point.sub lj.point) / determinant)), d⟩

/-- `proj_lines`: `resolveConstraintViolationViaIntersectionSearch`, /repo/simulation/context_gamma_planner/src/orca/solver.cpp, lines
150-174. -/
noncomputable def projections (li : Line) (before : List Line) : Option (List Line) :=
  (before.mapM (project li)).map (·.filterMap id)

/-- The loop of `resolveConstraintViolationViaIntersectionSearch`, /repo/simulation/context_gamma_planner/src/orca/solver.cpp, lines
148-191. `none`: `normalize` throws. -/
noncomputable def resolveFrom (radius : ℝ) : List Line → List Line → ℝ → Pt → Option Pt
  | _, [], _, result => some result
  | before, l :: rest, distance, result =>
    if distance < violation l result then do
      let ps ← projections l before
      let s ← solve ps radius ⟨-l.dir.y, l.dir.x, 0⟩ true
      let r := if s.1 < ps.length then result else s.2
      resolveFrom radius (before ++ [l]) rest (violation l r) r
    else resolveFrom radius (before ++ [l]) rest distance result

/-- `optimizeVelocityWithConstraints`, /repo/simulation/context_gamma_planner/src/orca/solver.cpp, lines 194-210. It returns a velocity
unless `normalize` throws (`none`). -/
noncomputable def optimize (lines : List Line) (limit : ℝ) (wish : Pt) (align : Bool) : Option Pt := do
  let s ← solve lines limit wish align
  if s.1 < lines.length then resolveFrom limit (lines.take s.1) (lines.drop s.1) 0 s.2 else some s.2

/-- `computeBBoxEllipseRadius`, /repo/simulation/context_gamma_planner/src/orca/orca.cpp, lines 45-58. Simplified: `M_SQRT2` is the square
root of two. A box without length or width, for which the `double` is NaN, gives 0 here; the theorems leave it out. -/
noncomputable def radius (box : BBox) (relativeAngle angle : ℝ) : ℝ :=
  let major := box.dims.x * (1 / 2) * Real.sqrt 2
  let minor := box.dims.y * (1 / 2) * Real.sqrt 2
  let phi := relativeAngle - angle
  (major * minor) /
    Real.sqrt ((minor * Real.cos phi) * (minor * Real.cos phi) + (major * Real.sin phi) * (major * Real.sin phi))

/-- `combined_radius`, /repo/simulation/context_gamma_planner/src/orca/orca.cpp, lines 37 and 59-63. -/
noncomputable def combinedRadius (position : Pt) (box : BBox) (angle : ℝ) (otherBox : BBox) (otherAngle : ℝ) : ℝ :=
  let relativeAngle := atan2 position.y position.x
  radius box relativeAngle angle + radius otherBox (Real.pi + relativeAngle) otherAngle

/-- The direction and `u` for two entities apart whose relative velocity is nearest to the rounded end of the velocity obstacle:
/repo/simulation/context_gamma_planner/src/orca/orca.cpp, lines 74-78. `u` is along `direction`. -/
noncomputable def roundedEnd (r : ℝ) (w : Pt) : Pt × Pt :=
  let length := Real.sqrt (inner w w)
  let unit := w.smul (1 / length)
  let direction : Pt := ⟨unit.y, unit.x * -1, 0⟩
  (direction, direction.smul (r * (1 / 5) - length))

/-- The direction and `u` on a leg of the velocity obstacle: /repo/simulation/context_gamma_planner/src/orca/orca.cpp, lines 80-92. -/
noncomputable def leg (r : ℝ) (position velocity w : Pt) : Pt × Pt :=
  let sq := inner position position
  let l := Real.sqrt (sq - r * r)
  let direction : Pt :=
    if 0 < cross2d position w then
      ⟨(position.x * l - position.y * r) / sq, (position.x * r + position.y * l) / sq, 0⟩
    else
      Pt.smul ⟨(position.x * l + position.y * r) / sq, (-position.x * r + position.y * l) / sq, 0⟩ (-1)
  (direction, (direction.smul (velocity.x * direction.x + velocity.y * direction.y)).sub velocity)

/-- The direction and `u` for two entities that overlap: /repo/simulation/context_gamma_planner/src/orca/orca.cpp, lines 95-103. `none`:
`w` is zero, and `unit_w` is NaN. -/
noncomputable def overlap (r step : ℝ) (position velocity : Pt) : Option (Pt × Pt) :=
  let inverse := 1 / step
  let w := velocity.sub (position.smul inverse)
  let length := Real.sqrt (inner w w)
  if inner w w = 0 then none
  else
    let unit := w.smul (1 / length)
    some (⟨unit.y, unit.x * -1, 0⟩, unit.smul (r * inverse - length))

/-- The direction and `u` of `calculateOrcaLine`, /repo/simulation/context_gamma_planner/src/orca/orca.cpp, lines 65-104. `none`: the
numbers are NaN. -/
noncomputable def change (r step : ℝ) (position velocity : Pt) : Option (Pt × Pt) :=
  if r * r ≤ inner position position then
    let w := velocity.sub (position.smul (1 / 5))
    let dot := w.x * position.x + w.y * position.y
    if dot < 0 ∧ r * r * inner w w < dot * dot then some (roundedEnd r w) else some (leg r position velocity w)
  else overlap r step position velocity

/-- `calculateOrcaLine`, /repo/simulation/context_gamma_planner/src/orca/orca.cpp, lines 20-107. `none`: a line of NaN. -/
noncomputable def orcaLine (own position velocity : Pt) (box : BBox) (angle : ℝ) (otherBox : BBox) (otherAngle step : ℝ) :
    Option Line :=
  (change (combinedRadius position box angle otherBox otherAngle) step position velocity).map fun c =>
    ⟨own.add (c.2.smul (1 / 2)), c.1⟩

end Verif.Orca
