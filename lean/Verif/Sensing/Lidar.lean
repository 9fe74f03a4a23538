import Mathlib.Analysis.SpecialFunctions.Trigonometric.Basic
import Mathlib.Data.Matrix.Mul
import Verif.Sensing.Select

/-!
The LiDAR: its rays, its points and their noise.

SS = `simulation/simple_sensor_simulator`, LN = `SS/src/sensor_simulation/lidar/lidar_noise_model_v1.cpp`,
LH = `SS/include/simple_sensor_simulator/sensor_simulation/lidar/lidar_noise_model_v1.hpp`,
RC = `SS/src/sensor_simulation/lidar/raycaster.cpp`, RH = `…/lidar/raycaster.hpp`,
LS = `SS/src/sensor_simulation/lidar/lidar_sensor.cpp`, LH2 = `…/lidar/lidar_sensor.hpp`.
-/

namespace Verif.Sensing

/-- `DistanceBin` (LH 35-51), with the parameters of its distributions. -/
structure Bin where
  radiusSquared : ℝ
  radialMean : ℝ
  radialDeviation : ℝ
  tangentialMean : ℝ
  tangentialDeviation : ℝ
  rate : ℝ

/-- The constructor of `DistanceBin` (LH 42-50): it squares the radius it is given. -/
noncomputable def Bin.make (radius radialMean radialDeviation tangentialMean tangentialDeviation rate : ℝ) : Bin :=
  ⟨radius * radius, radialMean, radialDeviation, tangentialMean, tangentialDeviation, rate⟩

/-- `LidarNoiseModelV1::Config` (LH 53-54). -/
structure LidarConfig where
  ratio : ℝ
  bins : List Bin

/-- The loop of LN 57-61.  `none` is the undefined behaviour of reading a list beyond its end. -/
noncomputable def makeBins : List ℝ → List ℝ → List ℝ → List ℝ → List ℝ → List ℝ → Option (List Bin)
  | [], _, _, _, _, _ => some []
  | r :: rs, a :: as, b :: bs, c :: cs, d :: ds, t :: ts =>
    (makeBins rs as bs cs ds ts).map fun bins => Bin.make (r * r) a b c d t :: bins
  | _, _, _, _, _, _ => none

/-- The constructor of `Config` (LN 33-65), with the base path up to and including the dot after the
name of the configuration. -/
noncomputable def lidarConfig (p : Parameters) (base : Text) : Option LidarConfig :=
  (makeBins (p.numbersOf (base ++ "ellipse_y_radii".toList))
    (p.numbersOf (base ++ "distance.radial.mean.values".toList))
    (p.numbersOf (base ++ "distance.radial.standard_deviation.values".toList))
    (p.numbersOf (base ++ "distance.tangential.mean.values".toList))
    (p.numbersOf (base ++ "distance.tangential.standard_deviation.values".toList))
    (p.numbersOf (base ++ "true_positive.rate.values".toList))).map fun bins =>
      ⟨p.numberOf (base ++ "true_positive.rate.ellipse_normalized_x_radius".toList), bins⟩

/-- `getDistanceBin` (LN 67-80).  `none` when there is no bin: an assertion, or undefined behaviour
without assertions.  Division by a ratio of zero gives an infinity or a NaN, for which no comparison
holds. -/
noncomputable def binFor (c : LidarConfig) (x y : ℝ) : Option Bin :=
  let close := fun b : Bin => c.ratio ≠ 0 ∧ (x / c.ratio) ^ 2 + y ^ 2 < b.radiusSquared
  open Classical in
  match c.bins.find? (fun b => decide (close b)) with
  | some b => some b
  | none => c.bins.getLast?

/-- A point of the cloud, in the frame of the ego.  The code stores single precision numbers. -/
structure Point where
  x : ℝ
  y : ℝ
  z : ℝ

/-- The length of the ray to a point. -/
noncomputable def Point.length (p : Point) : ℝ := Real.sqrt (p.x ^ 2 + p.y ^ 2 + p.z ^ 2)

/-- What the random engine answers for one point (LN 154-159). -/
structure Draw where
  detected : Bool
  radial : ℝ
  tangential : ℝ

/-- LN 161-170. -/
noncomputable def moved (p : Point) (radial tangential : ℝ) : Point :=
  let distance := p.length
  let rx := p.x / distance
  let ry := p.y / distance
  let rz := p.z / distance
  ⟨p.x + (rx * radial + ry * tangential), p.y + (ry * radial + (-rx) * tangential), p.z + rz * radial⟩

/-- An entity as the noise model sees it: its position on the map and its name. -/
structure Target where
  name : Text
  x : ℝ
  y : ℝ

/-- What becomes of one point (LN 127-134, 142-171): removed (`some none`), kept (`some (some p)`), or
undefined behaviour (`none`).  `config` is `getConfigFor` (LN 82-100), `draw` the answers of the random
engine for this point. -/
noncomputable def fate (config : Target → Option LidarConfig) (targets : List Target) (egoX egoY : ℝ)
    (draw : Bin → Draw) (p : Point) (index : Nat) : Option (Option Point) :=
  match targets[index]? with
  | none => some none
  | some e =>
    match config e with
    | none => some (some p)
    | some c =>
      match binFor c (e.x - egoX) (e.y - egoY) with
      | none => none
      | some b => if (draw b).detected then some (some (moved p (draw b).radial (draw b).tangential)) else some none

/-- `applyNoise` (LN 115-176).  The code goes through the points entity by entity; since the draws are
arbitrary, the order is not part of the model. -/
noncomputable def applyNoise (config : Target → Option LidarConfig) (targets : List Target) (egoX egoY : ℝ)
    (draw : Nat → Bin → Draw) (points : List Point) (indices : List Nat) : Option (List Point) :=
  if points = [] ∨ indices.length ≠ points.length then some points
  else
    ((points.zip indices).zipIdx.mapM fun q => fate config targets egoX egoY (draw q.2) q.1.1 q.1.2).map
      fun fates => fates.filterMap id

/-- `getConfigFor` (LN 82-100): the answers are remembered by the name of the entity.  `find` is the
search for a configuration, `known` the answers so far. -/
def configOf {C E : Type} (name : E → Text) (find : E → Option C) (known : List (Text × Option C)) (e : E) :
    Option C × List (Text × Option C) :=
  match known.find? (fun k => k.1 == name e) with
  | some k => (k.2, known)
  | none => (find e, (name e, find e) :: known)

/-- The horizontal angles of `getDirections` (RC 88-99): each turn of the loop first adds the
resolution.  `none`: the loop does not end. -/
noncomputable def azimuths (resolution stop angle : ℝ) : Option (List ℝ) :=
  if angle ≤ stop then do
    let rest ← azimuths resolution stop (angle + resolution)
    pure ((angle + resolution) :: rest)
  else some []
partial_fixpoint

/-- `getDirections` (RC 78-107): for each horizontal angle all the vertical ones.  A sensor asks once
(LH2 80), so what is kept of the last call does not matter. -/
noncomputable def directions (verticals : List ℝ) (start stop resolution : ℝ) : Option (List (ℝ × ℝ)) :=
  (azimuths resolution stop start).map fun l => l.flatMap fun h => verticals.map fun v => (v, h)

/-- The direction of a ray in the frame of the ego (RC 92-97, 74; RH 112-126): the first column of the
rotation by roll zero, the vertical angle as pitch and the horizontal angle as yaw. -/
noncomputable def ray (d : ℝ × ℝ) : Fin 3 → ℝ :=
  ![Real.cos d.2 * Real.cos d.1, Real.sin d.2 * Real.cos d.1, -Real.sin d.1]

/-- What a raycast gives (RH 52-72, RC 120-133). -/
structure Cloud where
  points : List (Fin 3 → ℝ)
  indices : List Nat

/-- `intersect` (RH 96-132).  `hit` is the answer of Embree for a ray that starts at the ego and goes in
the given direction on the map: the entity and the distance. -/
noncomputable def cast (rotation : Matrix (Fin 3) (Fin 3) ℝ) (hit : (Fin 3 → ℝ) → Option (Nat × ℝ)) :
    List (ℝ × ℝ) → Cloud
  | [] => ⟨[], []⟩
  | d :: ds =>
    let rest := cast rotation hit ds
    match hit (rotation.mulVec (ray d)) with
    | some (i, distance) => ⟨(distance • ray d) :: rest.points, i :: rest.indices⟩
    | none => rest

/-- `getDetectedEntityNames` (RH 64-71), before the noise is applied (LS 46-50). -/
def seenNames (names : List Text) (c : Cloud) : List Text := c.indices.filterMap (names[·]?)

/-- What a LiDAR keeps from one frame to the next (LH2 37, 42). -/
structure Lidar where
  previous : ℝ
  seen : List Text

/-- `LidarSensor::update` (LH2 100-113), as far as the names of the entities are concerned. -/
noncomputable def Lidar.update (duration : ℝ) (s : Lidar) (now : ℝ) (names : List Text) : Lidar :=
  if now - s.previous - duration ≥ -0.002 then ⟨now, names⟩ else ⟨s.previous, []⟩

/-- The clock of a detection sensor or an occupancy grid sensor
(`SS/src/sensor_simulation/detection_sensor/detection_sensor.cpp` 289-292,
`occupancy_grid_sensor.hpp` 111-114): whether it works in this frame, and its new time. -/
noncomputable def due (duration previous now : ℝ) : Bool × ℝ :=
  if now - previous - duration ≥ -0.002 then (true, now) else (false, previous)

/-- Frames of a LiDAR and of another sensor (`sensor_simulation.cpp` 31-47): for each frame, whether
the other sensor works and which names it is given. -/
noncomputable def frames (scan update : ℝ) : Lidar → ℝ → List (ℝ × List Text) → List (Bool × List Text)
  | _, _, [] => []
  | s, previous, (now, names) :: rest =>
    let s' := s.update scan now names
    let d := due update previous now
    (d.1, s'.seen) :: frames scan update s' d.2 rest

end Verif.Sensing
