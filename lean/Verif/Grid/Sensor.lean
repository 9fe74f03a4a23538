import Verif.Grid.Builder
import Verif.Grid.Shadow
/-
`OccupancyGridSensor`: /repo/simulation/simple_sensor_simulator/src/sensor_simulation/occupancy_grid/occupancy_grid_sensor.cpp, called OS below; OB is occupancy_grid_builder.cpp in
the same directory.

The convex hull of points (`math::geometry::get2DConvexHull`) and the clipping of a polygon to the grid (`boost::geometry::intersection`) are parameters. The vertices of a box are
real numbers instead of `float`. `UInt32` members of the configuration are natural numbers.
-/
namespace Verif.Grid
open Classical Geometry

/-- What is read from `traffic_simulator_msgs::EntityStatus`: the name, whether the type is `EGO`, the pose and the bounding box. -/
structure Entity where
  name : String
  ego : Bool
  pose : Pose
  box : BBox

/-- `OccupancyGridSensorConfiguration`, with what the builder is made from. -/
structure Settings where
  entity : String
  byRange : Bool
  range : ℝ
  grid : Config

/-- `getSensorPose`, OS:28-39; `none` is the exception. -/
def sensorPose (c : Settings) (status : List Entity) : Option Pose := (status.find? fun s => s.ego && s.name == c.entity).map (·.pose)

/-- `getDetectedObjects`, OS:41-63; `none` is the exception. -/
noncomputable def detectedObjects (c : Settings) (status : List Entity) (lidar : List String) : Option (List String) := do
  let pose ← sensorPose c status
  some ((status.filter fun s => lidar.contains s.name && (s.name != c.entity && decide (distance s.pose.position pose.position ≤ c.range))).map (·.name))

/-- The check for equal names, OS:72-81. -/
def uniqueNames (c : Settings) : List Entity → List String → Bool
  | [], _ => true
  | s :: status, seen => if c.entity != s.name then (if seen.contains s.name then false else uniqueNames c status (s.name :: seen)) else uniqueNames c status seen

/-- The names that are looked up, OS:104-112; `none` is the exception. -/
noncomputable def names (c : Settings) (status : List Entity) (lidar : List String) : Option (List String) := if c.byRange then detectedObjects c status lidar else some lidar

/-- The entities that are added to the grid, OS:116-121. -/
def drawn (c : Settings) (status : List Entity) (names : List String) : List Entity := status.filter fun s => c.entity != s.name && names.contains s.name

/-- The pose of the box of an entity, OS:123-134. -/
def boxPose (s : Entity) : Pose := ⟨s.pose.position.add (rotate s.pose.orientation s.box.center), s.pose.orientation⟩

/-- The vertices of a box, /repo/simulation/simple_sensor_simulator/src/sensor_simulation/primitives/box.cpp, lines 24-58. -/
noncomputable def boxVertices (d : Pt) : List Pt :=
  [⟨-0.5 * d.x, -0.5 * d.y, -0.5 * d.z⟩, ⟨-0.5 * d.x, -0.5 * d.y, 0.5 * d.z⟩, ⟨-0.5 * d.x, 0.5 * d.y, -0.5 * d.z⟩, ⟨-0.5 * d.x, 0.5 * d.y, 0.5 * d.z⟩,
    ⟨0.5 * d.x, -0.5 * d.y, -0.5 * d.z⟩, ⟨0.5 * d.x, -0.5 * d.y, 0.5 * d.z⟩, ⟨0.5 * d.x, 0.5 * d.y, -0.5 * d.z⟩, ⟨0.5 * d.x, 0.5 * d.y, 0.5 * d.z⟩]

/-- The vertices of the box of an entity on the map, OS:136-137 with `transform`,
/repo/simulation/simple_sensor_simulator/src/sensor_simulation/primitives/primitive.cpp, lines 72-89. -/
noncomputable def vertices (s : Entity) : List Pt := (boxVertices s.box.dims).map (transformPoint (boxPose s))

/-- `q * v` of Eigen for a quaternion and a vector: `v + 2 w (u × v) + 2 u × (u × v)` (Eigen, not in /repo). -/
def turn (q : Quat) (v : Pt) : Pt :=
  let cx := 2 * (q.y * v.z - q.z * v.y)
  let cy := 2 * (q.z * v.x - q.x * v.z)
  let cz := 2 * (q.x * v.y - q.y * v.x)
  ⟨v.x + q.w * cx + (q.y * cz - q.z * cy), v.y + q.w * cy + (q.z * cx - q.x * cz), v.z + q.w * cz + (q.x * cy - q.y * cx)⟩

/-- `transformToGrid`, OB:41-50. -/
def toGrid (origin : Pose) (p : Pt) : Pt :=
  let v := turn origin.orientation.conj p
  ⟨v.x - origin.position.x, v.y - origin.position.y, v.z - origin.position.z⟩

/-- `makeOccupiedArea`, OB:66-102. -/
def occupiedArea (hull : List Pt → List Pt) (clip : List (ℝ × ℝ) → List (ℝ × ℝ)) (origin : Pose) (s : List Pt) : List (ℝ × ℝ) :=
  clip ((hull s).map fun p => ((toGrid origin p).x, (toGrid origin p).y))

/-- The two polygons of an entity in pixels, `add`, OB:264-273 with OB:206-207; `none` if the computation of the hidden area does not end. -/
noncomputable def areas (hull : List Pt → List Pt) (clip : List (ℝ × ℝ) → List (ℝ × ℝ)) (c : Config) (origin : Pose) (s : Entity) : Option (List (ℝ × ℝ) × List (ℝ × ℝ)) := do
  let occ := occupiedArea hull clip origin (vertices s)
  let inv ← hidden (c.width * c.resolution / 2) (c.height * c.resolution / 2) occ
  some (occ.map (toPixel c), inv.map (toPixel c))

/-- The published message, OS:143-154; the time stamps and the frame are left out. -/
structure Message where
  data : Nat → Int
  height : Nat
  width : Nat
  resolution : ℝ
  origin : Pose

/-- The origin of the message, OS:151-153. -/
noncomputable def messageOrigin (c : Config) (pose : Pose) : Pose :=
  ⟨⟨pose.position.x - 0.5 * c.height * c.resolution, pose.position.y - 0.5 * c.width * c.resolution, pose.position.z⟩, pose.orientation⟩

/-- `getOccupancyGrid`, OS:65-155: `none` is undefined behaviour or a loop without end, `some none` an exception. -/
noncomputable def occupancyGrid (hull : List Pt → List Pt) (clip : List (ℝ × ℝ) → List (ℝ × ℝ)) (c : Settings) (builder : State) (status : List Entity) (lidar : List String) :
    Option (Option Message) :=
  if uniqueNames c status [] = false then some none
  else match status.find? fun s => c.entity == s.name with
    | none => some none
    | some ego =>
      let pose : Pose := ⟨ego.pose.position, ⟨0, 0, 0, 1⟩⟩
      match names c status lidar with
      | none => some none
      | some ns => do
        let ps ← (drawn c status ns).mapM (areas hull clip c.grid pose)
        let r ← builder.frame c.grid ps
        if r.2 then some none else some (some ⟨r.1.values, c.grid.height, c.grid.width, c.grid.resolution, messageOrigin c.grid pose⟩)

end Verif.Grid
