import Verif.Grid.Traversal
/-
`OccupancyGridBuilder`: /repo/simulation/simple_sensor_simulator/src/sensor_simulation/occupancy_grid/occupancy_grid_builder.cpp, called OB below.

The vectors of `height * width` counters are functions, and an access beyond their end, which would be undefined behaviour, is `none`. Counters are `int16_t`: what is
stored is cut to 16 bits. Columns and rows are whole numbers instead of `int32_t`.
-/
namespace Verif.Grid
open Classical

/-- The configuration, OB:23-39. -/
structure Config where
  resolution : ℝ
  height : Nat
  width : Nat
  occupied : Int
  invisible : Int

/-- `transformToPixel`, OB:52-57. -/
noncomputable def toPixel (c : Config) (p : ℝ × ℝ) : ℝ × ℝ :=
  ((p.1 + c.width * c.resolution / 2) / c.resolution, (p.2 + c.height * c.resolution / 2) / c.resolution)

/-- A conversion to `int16_t`. -/
def i16 (x : Int) : Int := (x + 32768) % 65536 - 32768

/-- The cells on the edges of a polygon, the loops OB:205-208: from each corner to the next, and from the last to the first. -/
noncomputable def outline (ps : List (ℝ × ℝ)) : Option (List (ℤ × ℤ)) :=
  ((ps.zip (ps.drop 1 ++ ps.take 1)).mapM fun e => traverse e.1 e.2).map List.flatten

/-- `min_cols_` and `max_cols_`, OB:201-202 and 209-212. -/
structure Cols where
  min : Nat → Int
  max : Nat → Int

/-- OB:209-212, for one cell. -/
def Cols.add (height : Nat) (s : Cols) (c : ℤ × ℤ) : Cols :=
  if c.2 ≥ 0 ∧ c.2 < height then
    ⟨Function.update s.min c.2.toNat (Min.min (s.min c.2.toNat) c.1), Function.update s.max c.2.toNat (Max.max (s.max c.2.toNat) c.1)⟩
  else s

/-- OB:201-214, for the cells of the edges. -/
def cols (height width : Nat) (cells : List (ℤ × ℤ)) : Cols := cells.foldl (Cols.add height) ⟨fun _ => width, fun _ => -1⟩

/-- A change of a counter. -/
def put (n : Nat) (g : Nat → Int) (i : Nat) (d : Int) : Option (Nat → Int) := if i < n then some (Function.update g i (i16 (g i + d))) else none

/-- The body of the loop over the rows, OB:218-235. -/
def addRow (height width : Nat) (s : Cols) (g : Nat → Int) (row : Nat) : Option (Nat → Int) :=
  let minCol := s.min row
  let maxCol := s.max row + 1
  if maxCol ≤ 0 ∨ minCol ≥ width then some g
  else do
    let g ← (if minCol ≤ 0 then put (height * width) g (width * row) 1 else put (height * width) g (width * row + minCol.toNat) 1 : Option (Nat → Int))
    if maxCol < width then put (height * width) g (width * row + maxCol.toNat) (-1) else some g

/-- `addPolygon`, OB:194-253, with the corners in pixels (OB:206-207). -/
noncomputable def addPolygon (height width : Nat) (g : Nat → Int) (ps : List (ℝ × ℝ)) : Option (Nat → Int) := do
  let cells ← outline ps
  (List.range height).foldlM (addRow height width (cols height width cells)) g

/-- The state: `primitive_count_` and the grids. -/
structure State where
  count : Int
  occupied : Nat → Int
  invisible : Nat → Int
  values : Nat → Int

/-- `reset`, OB:303-309; the origin is left out. -/
def State.reset (s : State) : State := { s with count := 0, invisible := fun _ => 0, occupied := fun _ => 0 }

/-- `add`, OB:255-274, for a primitive that occupies and hides the given polygons (in pixels). The second component tells whether an exception is thrown. -/
noncomputable def State.add (c : Config) (s : State) (occupied invisible : List (ℝ × ℝ)) : Option (State × Bool) :=
  let s' := { s with count := i16 (s.count + 1) }
  if s.count = 32767 then some (s', true)
  else do
    let inv ← addPolygon c.height c.width s'.invisible invisible
    let occ ← addPolygon c.height c.width s'.occupied occupied
    return ({ s' with invisible := inv, occupied := occ }, false)

/-- The sums along the rows, OB:284-288 and 290-294. -/
def sums (height width : Nat) (g : Nat → Int) : Nat → Int :=
  (List.range height).foldl (fun g row => (List.range (width - 1)).foldl (fun g col =>
    Function.update g (row * width + col + 1) (i16 (g (row * width + col + 1) + g (row * width + col)))) g) g

/-- `build`, OB:276-299. -/
def State.build (c : Config) (s : State) : State :=
  let inv := sums c.height c.width s.invisible
  let occ := sums c.height c.width s.occupied
  { s with invisible := inv, occupied := occ, values := fun i => if occ i ≠ 0 then c.occupied else if inv i ≠ 0 then c.invisible else 0 }

/-- The primitives of one frame are added one after the other, up to an exception. -/
noncomputable def State.addAll (c : Config) (s : State) : List (List (ℝ × ℝ) × List (ℝ × ℝ)) → Option (State × Bool)
  | [] => some (s, false)
  | p :: ps => do
    let r ← s.add c p.1 p.2
    if r.2 then some r else r.1.addAll c ps

/-- One frame: `reset`, `add` for each primitive, and `build`, as in `getOccupancyGrid`,
/repo/simulation/simple_sensor_simulator/src/sensor_simulation/occupancy_grid/occupancy_grid_sensor.cpp, lines 115-140. An exception leaves the grid as it is. -/
noncomputable def State.frame (c : Config) (s : State) (ps : List (List (ℝ × ℝ) × List (ℝ × ℝ))) : Option (State × Bool) := do
  let r ← s.reset.addAll c ps
  if r.2 then some r else some (r.1.build c, false)

end Verif.Grid
