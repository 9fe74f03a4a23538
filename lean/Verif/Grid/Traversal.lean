import Mathlib.Algebra.Order.Archimedean.Real.Basic
import Mathlib.Algebra.Order.Floor.Ring
import Mathlib.Algebra.Order.Monoid.WithTop
/-
`GridTraversal`, the cells on a line: /repo/simulation/simple_sensor_simulator/src/sensor_simulation/occupancy_grid/grid_traversal.cpp, called GT below.

Real numbers instead of `double`; infinity, which is the result of the division by zero in GT:29-30, is `⊤`; whole numbers instead of `int32_t`.
-/
namespace Verif.Grid
open Classical

/-- One coordinate of the members of `GridTraversal`, GT:23-26: `start_` and `v_`. -/
structure Axis where
  s : ℝ
  v : ℝ

/-- `step_`, GT:27-28: the sign of `v_`, which is never a negative zero. -/
noncomputable def Axis.step (a : Axis) : ℤ := if a.v < 0 then -1 else 1

/-- `td_`, GT:29-30. -/
noncomputable def Axis.td (a : Axis) : WithTop ℝ := if a.v = 0 then ⊤ else ((a.step / a.v : ℝ) : WithTop ℝ)

/-- `tx` and `ty` in `begin`, GT:36-39. -/
noncomputable def Axis.first (a : Axis) : WithTop ℝ :=
  let t : ℤ := if a.v > 0 then ⌈a.s⌉ else ⌊a.s⌋
  if a.v ≠ 0 then (((t - a.s) / a.v : ℝ) : WithTop ℝ) else a.td

/-- `int32_t(start_)` in `begin`, GT:40: towards zero. -/
noncomputable def Axis.cell (a : Axis) : ℤ := if 0 ≤ a.s then ⌊a.s⌋ else ⌈a.s⌉

/-- `GridTraversal::Iterator`, GT:45-49. -/
structure It where
  tx : WithTop ℝ
  ty : WithTop ℝ
  x : ℤ
  y : ℤ

/-- `GridTraversal::begin`, GT:34-41. -/
noncomputable def begin' (ax ay : Axis) : It := ⟨ax.first, ay.first, ax.cell, ay.cell⟩

/-- `Iterator::operator++`, GT:53-63. -/
noncomputable def It.next (ax ay : Axis) (i : It) : It :=
  if i.tx < i.ty then { i with tx := i.tx + ax.td, x := i.x + ax.step } else { i with ty := i.ty + ay.td, y := i.y + ay.step }

/-- `Iterator::operator!=`, GT:65-68. -/
def It.more (i : It) : Prop := i.tx ≤ 1 ∨ i.ty ≤ 1

/-- The cells of a range-based `for` over a `GridTraversal`, from an iterator on; `none` means that it does not end. -/
noncomputable def run (ax ay : Axis) (i : It) : Option (List (ℤ × ℤ)) :=
  if i.more then do
    let r ← run ax ay (i.next ax ay)
    return (i.x, i.y) :: r
  else some []
partial_fixpoint

/-- The cells of `GridTraversal(p.x, p.y, q.x, q.y)`, GT:22-32. -/
noncomputable def traverse (p q : ℝ × ℝ) : Option (List (ℤ × ℤ)) :=
  let ax : Axis := ⟨p.1, q.1 - p.1⟩
  let ay : Axis := ⟨p.2, q.2 - p.2⟩
  run ax ay (begin' ax ay)

end Verif.Grid
