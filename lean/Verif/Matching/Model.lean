import Verif.Geometry.Spline
import Verif.Geometry.Turn
import Verif.Contact.Model
/-
The place of a pose on the lanes of the map, and back.

P = simulation/traffic_simulator/src/lanelet_wrapper/pose.cpp, U = simulation/traffic_simulator/src/utils/pose.cpp,
D = simulation/traffic_simulator/src/data_type/lanelet_pose.cpp, C = common/math/geometry/src/spline/catmull_rom_spline.cpp,
H = common/math/geometry/src/spline/hermite_curve.cpp, L = common/math/geometry/src/polygon/line_segment.cpp, all under /repo.

Numbers are real numbers with exact arithmetic, as in `Verif.Geometry`. A thrown exception is the outer `none`.
-/
namespace Verif.Matching
open Verif.Geometry Classical

/-- The identifier of a lane: `lanelet::Id` (lanelet2, not in /repo). -/
abbrev Id := Int

/-- `traffic_simulator_msgs::msg::LaneletPose`: /repo/simulation/traffic_simulator_msgs/msg/LaneletPose.msg. -/
structure LanePose where
  id : Id
  s : ℝ
  offset : ℝ
  rpy : Pt

/-- `convertQuaternionToEulerAngle`, /repo/common/math/geometry/include/geometry/quaternion/quaternion_to_euler.hpp, lines 30-39, with
`tf2::Matrix3x3::getRPY` (tf2, not in /repo): roll, pitch and yaw of the matrix of the quaternion. If the first axis is vertical the yaw is 0.
Simplified: tf2 divides the quaternion by its length first; the model is only for quaternions of length one. -/
noncomputable def quatToEuler (q : Quat) : Pt :=
  let a := rotate q ⟨1, 0, 0⟩
  let b := rotate q ⟨0, 1, 0⟩
  let c := rotate q ⟨0, 0, 1⟩
  if 1 ≤ |a.z| then
    if a.z < 0 then ⟨atan2 b.x c.x, Real.pi / 2, 0⟩ else ⟨atan2 (-b.x) (-c.x), -(Real.pi / 2), 0⟩
  else
    let pitch := -Real.arcsin a.z
    ⟨atan2 (b.z / Real.cos pitch) (c.z / Real.cos pitch), pitch, atan2 (a.y / Real.cos pitch) (a.x / Real.cos pitch)⟩

/-- The angles of a direction, as in L 111-116, H 286-289 and P 49-55: no roll, the pitch if it is asked for, the yaw. -/
noncomputable def directionAngles (t : Pt) (fillPitch : Bool) : Pt :=
  ⟨0, if fillPitch then atan2 (-t.z) (Real.sqrt (t.x ^ 2 + t.y ^ 2)) else 0, atan2 t.y t.x⟩

/-- `LineSegment::getPose` with `denormalize_s = true`, L 107-117. -/
noncomputable def segPose (l : Seg) (s : ℝ) (fillPitch : Bool) : Option Pose :=
  (l.getPoint s true).map fun p => ⟨p, eulerToQuat (directionAngles l.vector fillPitch)⟩

/-- `HermiteCurve::getPose`, H 278-293, at a share of the length. -/
noncomputable def curvePose (fillPitch : Bool) (c : Curve) (t : ℝ) : Pose :=
  ⟨c.point t, eulerToQuat (directionAngles (c.tangent t) fillPitch)⟩

/-- `CatmullRomSpline::getPose`, C 766-795. -/
noncomputable def splinePose (k : Spline) (s : ℝ) (fillPitch : Bool) : Option Pose :=
  match k.cp with
  | [] => none
  | [_] => none
  | [p, q] => segPose ⟨p, q⟩ s fillPitch
  | _ => k.onCurve (curvePose fillPitch) s

/-- `getSquaredDistanceIn2D`: C 532-565, with L 242-247 and H 69-74. -/
noncomputable def squaredDistance (k : Spline) (p : Pt) (s : ℝ) : Option ℝ :=
  (k.point s).map fun c => (p.x - c.x) ^ 2 + (p.y - c.y) ^ 2

/-- `getSquaredDistanceVector`, which is the vector from the spline to the point: C 567-604, with L 256-265 and H 76-85. -/
noncomputable def distanceVector (k : Spline) (p : Pt) (s : ℝ) : Option Pt :=
  (k.point s).map fun c => ⟨p.x - c.x, p.y - c.y, p.z - c.z⟩

/-- `innerProduct`, /repo/common/math/geometry/include/geometry/vector3/inner_product.hpp, lines 24-31. -/
def inner (a b : Pt) : ℝ := a.x * b.x + a.y * b.y + a.z * b.z

/-- `ALTITUDE_THRESHOLD`, simulation/traffic_simulator/include/traffic_simulator/lanelet_wrapper/pose.hpp 44. -/
def altitudeThreshold : ℝ := 1

/-- `isAltitudeWithinThreshold`, P 69-72. -/
def withinThreshold (current target : ℝ) : Prop := |current - target| ≤ altitudeThreshold

/-- `toLaneletPose` with one lane, P 81-120: the lane has the centre line `k`. The inner `none` is "not on this lane". -/
noncomputable def toLane (k : Spline) (id : Id) (p : Pose) (reach : ℝ) : Option (Option LanePose) :=
  match k.sValue p reach with
  | none => none
  | some none => some none
  | some (some s) =>
    match splinePose k s true with
    | none => none
    | some c =>
      if ¬ withinThreshold p.position.z c.position.z then some none
      else
        let low := Real.pi * 45 / 180
        let high := Real.pi - low
        let rpy := quatToEuler (getRotation c.orientation p.orientation)
        if |rpy.z| > low ∧ |rpy.z| < high then some none
        else
          match squaredDistance k p.position s, k.normal s, distanceVector k p.position s with
          | some d, some n, some v =>
            some (some ⟨id, s, if inner n v < 0 then Real.sqrt d * (-1) else Real.sqrt d, rpy⟩)
          | _, _, _ => none

/-- What of the map is used. Lanelet2 (not in /repo) answers these questions. -/
structure Road where
  /-- `centerPointsSpline`; `none` is an unknown lane. -/
  centre : Id → Option Spline
  /-- `previousLaneletIds`, `nextLaneletIds`, and the lanes beside a lane for a lane change -/
  previous : Id → List Id
  next : Id → List Id
  lefts : Id → List Id
  rights : Id → List Id
  /-- `nearbyLaneletIds` with threshold 0.1 and 5 lanes, P 139-144; modelled in `Verif.Lanes` -/
  nearby : Pt → Bool → List Id
  /-- `getDeterministicMatches`: the lanes within a distance of a hull, P 432-433 -/
  within : List (ℝ × ℝ) → ℝ → List Id
  /-- `removeNonRuleCompliantMatches`, P 434-437: may one drive there? -/
  compliant : Id → Bool

/-- `toLaneletPose` with one lane, P 81-89: the centre line of the lane is looked up. -/
noncomputable def onLane (r : Road) (p : Pose) (id : Id) (reach : ℝ) : Option (Option LanePose) :=
  (r.centre id).bind fun k => toLane k id p reach

/-- `toLaneletPose` with several lanes, P 122-133, and the loops P 164-180: the first lane that has a place. -/
noncomputable def onLanes (r : Road) (p : Pose) (reach : ℝ) : List Id → Option (Option LanePose)
  | [] => some none
  | i :: l =>
    match onLane r p i reach with
    | none => none
    | some (some x) => some (some x)
    | some none => onLanes r p reach l

/-- `toLaneletPose` with a pose only, P 135-146. -/
noncomputable def onNearby (r : Road) (p : Pose) (crosswalk : Bool) (reach : ℝ) : Option (Option LanePose) :=
  onLanes r p reach (r.nearby p.position crosswalk)

/-- `absoluteHull`, P 409-430: two corners of the box, made smaller about its centre, and turned by the yaw of the pose. -/
noncomputable def hull (p : Pose) (box : BBox) (ratio : ℝ) : List (ℝ × ℝ) :=
  let yaw := (quatToEuler p.orientation).z
  let place := fun (x y : ℝ) =>
    (Real.cos yaw * x - Real.sin yaw * y + p.position.x, Real.sin yaw * x + Real.cos yaw * y + p.position.y)
  [place (box.center.x + box.dims.x * (1 / 2) * ratio) (box.center.y + box.dims.y * (1 / 2) * ratio),
    place (box.center.x - box.dims.x * (1 / 2) * ratio) (box.center.y - box.dims.y * (1 / 2) * ratio)]

/-- `std::set<std::pair<double, lanelet::Id>>::insert` (C++ standard library, not in /repo), with the set as its elements in order. -/
noncomputable def insert (x : ℝ × Id) : List (ℝ × Id) → List (ℝ × Id)
  | [] => [x]
  | y :: l =>
    if x.1 < y.1 ∨ (x.1 = y.1 ∧ x.2 < y.2) then x :: y :: l
    else if x = y then y :: l
    else y :: insert x l

/-- The loop of `findMatchingLanes`, P 440-445. -/
noncomputable def collect (r : Road) (p : Pose) (reach : ℝ) : List Id → List (ℝ × Id) → Option (List (ℝ × Id))
  | [], set => some set
  | i :: l, set =>
    match onLane r p i reach with
    | none => none
    | some none => collect r p reach l set
    | some (some x) => collect r p reach l (insert (x.offset, x.id) set)

/-- `findMatchingLanes`, P 402-451. -/
noncomputable def findMatching (r : Road) (p : Pose) (box : BBox) (crosswalk : Bool) (reach ratio : ℝ) : Option (Option (List (ℝ × Id))) :=
  let found := r.within (hull p box ratio) reach
  let found := if crosswalk then found else found.filter r.compliant
  if found = [] then some none
  else
    match collect r p reach found [] with
    | none => none
    | some set => some (if set = [] then none else some set)

/-- `matchToLane`, P 453-470. -/
noncomputable def matchToLane (r : Road) (p : Pose) (box : BBox) (crosswalk : Bool) (reach ratio : ℝ) : Option (Option Id) :=
  (findMatching r p box crosswalk reach ratio).map fun o =>
    o.bind fun set => ((set.foldl (fun sorted x => insert (|x.1|, x.2) sorted) []).head?).map Prod.snd

/-- `toLaneletPose` with a pose and a box, P 148-182. The ratio 0.8 is `DEFAULT_MATCH_TO_LANE_REDUCTION_RATIO`, pose.hpp 30. -/
noncomputable def onBox (r : Road) (p : Pose) (box : BBox) (crosswalk : Bool) (reach : ℝ) : Option (Option LanePose) :=
  match matchToLane r p box crosswalk reach (4 / 5) with
  | none => none
  | some none => onNearby r p crosswalk reach
  | some (some id) =>
    match onLane r p id reach with
    | none => none
    | some (some x) => some (some x)
    | some none =>
      match onLanes r p reach (r.previous id) with
      | none => none
      | some (some x) => some (some x)
      | some none =>
        match onLanes r p reach (r.next id) with
        | none => none
        | some (some x) => some (some x)
        | some none => onNearby r p crosswalk reach

/-- `std::set<lanelet::Id>::insert`, with the set as its elements in order. -/
def insertId (x : Id) : List Id → List Id
  | [] => [x]
  | y :: l => if x < y then x :: y :: l else if x = y then y :: l else y :: insertId x l

/-- `toLaneletPoses`, P 184-203, with `leftLaneletIds` and `rightLaneletIds`, P 472-499, which throw if the opposite direction is asked for. -/
noncomputable def allPoses (r : Road) (p : Pose) (id : Id) (reach : ℝ) (opposite : Bool) : Option (List LanePose) :=
  if opposite then none
  else
    let ids := (r.lefts id ++ r.rights id ++ r.previous id ++ r.next id).foldl (fun set i => insertId i set) [id]
    (ids.mapM fun i => onLane r p i reach).map fun l => l.filterMap _root_.id

/-- The part of `toMapPose` after the pose is made canonical, P 39-60. `k` is the centre line of the lane. -/
noncomputable def place (k : Spline) (l : LanePose) (fillPitch : Bool) : Option Pose :=
  match splinePose k l.s true, (k.normal l.s).bind normalize, k.tangent l.s with
  | some c, some n, some t =>
    some ⟨c.position.add (n.smul l.offset), (eulerToQuat (directionAngles t fillPitch)).mul (eulerToQuat l.rpy)⟩
  | _, _, _ => none

/-- `adjustOrientationAndOzPosition`, D 101-124. `k` is the centre line of the lane and `slope` is `consider_pose_by_road_slope_`. -/
noncomputable def adjust (k : Spline) (slope : Bool) (l : LanePose) (m : Pose) : Option (LanePose × Pose) :=
  let m' : Option Pose := match k.sValue m 3 with
    | none => none
    | some none => some m
    | some (some s) => (k.point s).map fun c => { m with position := ⟨m.position.x, m.position.y, c.z⟩ }
  m'.bind fun m =>
    if slope then
      (splinePose k l.s true).map fun c =>
        let lane := quatToEuler c.orientation
        let entity := quatToEuler m.orientation
        let q := eulerToQuat ⟨entity.x, lane.y, entity.z⟩
        ({ l with rpy := quatToEuler (getRotation c.orientation q) }, { m with orientation := q })
    else some (l, m)

/-- `CanonicalizedLaneletPose`, D 29-36, for a lane pose that is already canonical: it is kept, and the map pose is made from it. -/
noncomputable def canonicalPose (k : Spline) (slope : Bool) (l : LanePose) : Option (LanePose × Pose) :=
  (place k l slope).bind fun m => adjust k slope l m

/-- `alignOrientationToLanelet`, D 91-99. -/
noncomputable def align (k : Spline) (x : LanePose × Pose) : Option (LanePose × Pose) :=
  (splinePose k x.1.s true).map fun c => ({ x.1 with rpy := ⟨0, 0, 0⟩ }, { x.2 with orientation := c.orientation })

/-- `toCanonicalizedLaneletPose` with a route, U 147-167. `canonical` is `toCanonicalizedLaneletPose` of a lane pose, U 104-116. -/
noncomputable def locate (r : Road) (canonical : LanePose → Option LanePose) (p : Pose) (box : BBox) (route : List Id) (crosswalk : Bool)
    (reach : ℝ) : Option (Option LanePose) :=
  match (if route = [] then some none else onLanes r p reach route) with
  | none => none
  | some (some x) => some (canonical x)
  | some none => (onBox r p box crosswalk reach).map fun o => o.bind canonical

/-- What `canonicalizeLaneletPose` answers, P 343-370: the canonical pose, or the lane at which the road ends. -/
inductive Road.Canonical
  | pose (l : LanePose)
  | ends (id : Id)

/-- `pedestrian::transformToCanonicalizedLaneletPose`, U 446-492. `canonicalize` is `canonicalizeLaneletPose` and `length` is `laneletLength`.
The constructor of `CanonicalizedLaneletPose`, which may throw, is `make`. -/
noncomputable def locatePedestrian (r : Road) (canonical : LanePose → Option LanePose) (canonicalize : LanePose → Road.Canonical)
    (length : Id → ℝ) (make : LanePose → Option LanePose) (p : Pose) (box : BBox) (route : List Id) (crosswalk : Bool) (reach : ℝ) :
    Option (Option LanePose) :=
  match locate r canonical p box route crosswalk reach with
  | none => none
  | some (some x) => some (some x)
  | some none =>
    match onNearby r p crosswalk 2 with
    | none => none
    | some none => some none
    | some (some x) =>
      match canonicalize x with
      | .pose _ => some (canonical x)
      | .ends id => (make ⟨id, if x.s < 0 then 0 else length id, x.offset, x.rpy⟩).map some

/-- The loop of `findRoutableAlternativeLaneletPoseFrom`, U 411-425: poses on other lanes with the lengths of the routes to them. -/
noncomputable def alternatives (r : Road) (canonical : LanePose → Option LanePose) (route : Id → Id → List Id) (start goal : Id) (p : Pose) :
    List (ℝ × Id) → Option (List (LanePose × List Id))
  | [] => some []
  | (_, i) :: l =>
    if i = goal ∨ route start i = [] then alternatives r canonical route start goal p l
    else
      match onLane r p i 3 with
      | none => none
      | some none => alternatives r canonical route start goal p l
      | some (some x) =>
        match canonical x with
        | none => alternatives r canonical route start goal p l
        | some y => (alternatives r canonical route start goal p l).map fun rest => (y, route start i) :: rest

/-- `std::min_element` by the length of the route (C++ standard library, not in /repo), U 426-432: the first of the shortest. -/
def shortest : List (LanePose × List Id) → Option LanePose
  | [] => none
  | x :: l => some (l.foldl (fun best y => if y.2.length < best.2.length then y else best) x).1

/-- `findRoutableAlternativeLaneletPoseFrom`, U 385-437. `goal` is the pose with its map pose. -/
noncomputable def alternative (r : Road) (canonical : LanePose → Option LanePose) (route : Id → Id → List Id) (start : Id)
    (goal : LanePose × Pose) (box : BBox) : Option (Option LanePose) :=
  if route start goal.1.id ≠ [] then some (some goal.1)
  else
    match findMatching r goal.2 box false 3 (4 / 5) with
    | none => none
    | some none => some none
    | some (some set) => (alternatives r canonical route start goal.1.id goal.2 set).map shortest

end Verif.Matching
