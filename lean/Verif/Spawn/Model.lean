import Mathlib.Algebra.Order.Field.Basic
import Mathlib.Algebra.Order.Ring.Rat
/-
Where a traffic source places the entities it makes, and what a map tells about stop lines, crosswalks and rights of way.

TC = simulation/traffic_simulator/src/traffic/traffic_source.cpp, TH = simulation/traffic_simulator/include/traffic_simulator/traffic/traffic_source.hpp,
LM = simulation/traffic_simulator/src/lanelet_wrapper/lanelet_map.cpp.

When entities are made, their names and the check of the corners against the source are in `Verif.Traffic`. Numbers are elements of an
ordered field: rounding and NaN are not modelled.
-/
namespace Verif.Spawn

abbrev Id := Nat

/-! ### Traffic sources -/

/-- A pose: a point on the plane, an altitude, an orientation. -/
structure Pose (K Q : Type) where
  x : K
  y : K
  z : K
  orientation : Q
  deriving DecidableEq

/-- An entry of the distribution (TH 65-66), without its weight: the parameters - of which only whether they are of a pedestrian and the
corners of the box are used here -, the behaviour and the 3D model. -/
structure Entry (B : Type) where
  pedestrian : Bool
  corners : List B
  behavior : String
  model : String

/-- TH 53-63: the configuration, as far as it is about places. -/
structure Config where
  outside : Bool
  fitting : Bool
  turned : Bool

/-- What the source needs of the map and of the geometry: `toCanonicalizedLaneletPose`, `alignOrientationToLanelet`, the lanelet of a
place, `toMapPose`, `transformPoints`, `isInLanelet` for points, `nearbyLaneletIds` without and with a limit, `laneletAltitude`, the distance
of a point and a pose compared with the radius of the source (see `Traffic.cornersInside`), cosine and sine, and an orientation made of a
yaw. -/
structure Ground (K Q P L B : Type) where
  toLane : Pose K Q → Bool → Option L
  align : L → L
  lane : L → Id
  toMap : L → Pose K Q
  transform : Pose K Q → List B → List P
  isIn : P → Id → Bool
  near : Pose K Q → K → Bool → List Id
  limited : Pose K Q → K → Bool → List Id
  altitude : Id → Pose K Q → K → Option K
  close : P → Pose K Q → K → Bool
  cos : K → K
  sin : K → K
  yaw : K → Q

/-- The random engine: it draws an angle, a radius and the index of an entry. -/
structure Engine (K E : Type) where
  angle : E → K × E
  radius : E → K × E
  index : E → Nat × E

/-- TH 109-120: what stays the same for a source. -/
structure Source (K Q B : Type) where
  radius : K
  pose : Pose K Q
  entries : List (Entry B)
  config : Config

section
variable {K Q P L B E : Type} [Field K] [LinearOrder K]

/-- TC 28-32, 34-64: `Validator`, made with the pose and radius of the source, for points and the lanelet they are said to be in. -/
def validate (g : Ground K Q P L B) (s : Source K Q B) (crosswalk : Bool) (points : List P) (id : Id) : Bool :=
  let ids := g.limited s.pose s.radius crosswalk
  decide (id ∈ ids) && points.all fun p => ids.any fun i => g.isIn p i

/-- TC 66-95: `makeRandomPose`. -/
def randomPose (g : Ground K Q P L B) (r : Engine K E) (s : Source K Q B) (pedestrian : Bool) (e : E) : Pose K Q × E :=
  let (a, e) := r.angle e
  let (d, e) := r.radius e
  let p := { s.pose with x := s.pose.x + d * g.cos a, y := s.pose.y + d * g.sin a }
  let p := match g.near p d pedestrian with
    | [] => p
    | i :: _ => match g.altitude i p d with
      | some z => { p with z := z }
      | none => p
  if s.config.turned then
    let (b, e) := r.angle e
    ({ p with orientation := g.yaw b }, e)
  else (p, e)

/-- TC 149-208: `isPoseValid`. -/
def isPoseValid (g : Ground K Q P L B) (s : Source K Q B) (n : Entry B) (p : Pose K Q) : Bool × Option L :=
  if !((g.transform p n.corners).all fun c => g.close c p s.radius) then (false, none)
  else if s.config.outside then (true, none)
  else match g.toLane p n.pedestrian with
    | none => (false, none)
    | some l =>
      let l := g.align l
      if !s.config.fitting then (true, some l)
      else if n.pedestrian then (!s.config.fitting || validate g s true (g.transform (g.toMap l) n.corners) (g.lane l), some l)
      else (!s.config.fitting || validate g s false (g.transform (g.toMap l) n.corners) (g.lane l), some l)

/-- TC 109-122: a place is drawn until one is valid; `none` is the error after the last attempt. -/
def draw (g : Ground K Q P L B) (r : Engine K E) (s : Source K Q B) (n : Entry B) : Nat → E → Option (Pose K Q × Option L) × E
  | 0, e => (none, e)
  | k + 1, e =>
    let (p, e) := randomPose g r s n.pedestrian e
    match isPoseValid g s n p with
    | (true, l) => (some (p, l), e)
    | (false, _) => draw g r s n k e

/-- What the spawners get (TC 124-145): the parameters, behaviour and model of an entry, and a place on a lane or on the map. -/
inductive Place (K Q L : Type)
  | lane (l : L)
  | world (p : Pose K Q)

/-- TC 102-146: one turn of the loop of `execute`, with the name left out; `none` is the error. `std::discrete_distribution` draws indices
of entries. `attempts` is the constant `max_randomization_attempts`, 10000. -/
def spawn (attempts : Nat) (g : Ground K Q P L B) (r : Engine K E) (s : Source K Q B) (e : E) : Option (Entry B × Place K Q L) × E :=
  let (i, e) := r.index e
  match s.entries[i]? with
  | none => (none, e)
  | some n => match draw g r s n attempts e with
    | (none, e) => (none, e)
    | (some (_, some l), e) => (some (n, .lane l), e)
    | (some (p, none), e) => (some (n, .world p), e)

end

/-! ### What a map tells -/

/-- A sign of the map: its type and the ids of its lines. -/
structure Sign where
  type : String
  lines : List Id
  deriving DecidableEq

/-- A lanelet: its subtype if it has one, its signs, and the lanelets of its rights of way. -/
structure Lane where
  id : Id
  subtype : Option String
  signs : List Sign
  rights : List (List Id)
  deriving DecidableEq

/-- `laneletLayer.get`, which throws (`none`) for an id that is not in the map. -/
def get (m : List Lane) (id : Id) : Option Lane := m.find? (·.id = id)

/-- LM 85-94: `laneletIds`. -/
def laneletIds (m : List Lane) : List Id := m.map (·.id)

/-- LM 96-118: `filterLaneletIds`. -/
def filterIds (m : List Lane) (ids : List Id) (subtype : String) : Option (List Id) :=
  (ids.mapM (get m)).map fun ls => (ls.filter fun l => l.subtype = some subtype).map (·.id)

/-- LM 398-410: `trafficSignsOnPath`. -/
def signsOnPath (m : List Lane) : List Id → Option (List Sign)
  | [] => some []
  | id :: ids => match get m id with
    | none => none
    | some l => (signsOnPath m ids).map (l.signs ++ ·)

/-- LM 412-423: `trafficSigns`. -/
def signs (m : List Lane) : Option (List Sign) := signsOnPath m (laneletIds m)

/-- LM 437-447 and 460-469: `stopLinesOnPath` and `stopLineIdsOnPath`. -/
def stopLineIdsOnPath (m : List Lane) (ids : List Id) : Option (List Id) :=
  (signsOnPath m ids).map fun l => l.foldl (fun r s => if s.type = "stop_sign" then r ++ s.lines else r) []

/-- LM 425-435 and 449-458: `stopLines` and `stopLineIds`. -/
def stopLineIds (m : List Lane) : Option (List Id) :=
  (signs m).map fun l => l.foldl (fun r s => if s.type = "stop_sign" then r ++ s.lines else r) []

/-- LM 339-352: `rightOfWayLaneletIds` of a lanelet. -/
def rightOfWay (m : List Lane) (id : Id) : Option (List Id) :=
  (get m id).map fun l => l.rights.foldl (fun r w => w.foldl (fun r i => if i ≠ id then r ++ [i] else r) r) []

/-- LM 354-362: `rightOfWayLaneletIds` of several, a map: `try_emplace` keeps the first value of a key. -/
def rightsOfWay (m : List Lane) : List Id → List (Id × List Id) → Option (List (Id × List Id))
  | [], r => some r
  | id :: ids, r => match rightOfWay m id with
    | none => none
    | some w => rightsOfWay m ids (if r.any (·.1 = id) then r else r ++ [(id, w)])

/-- LM 364-381 and 383-396: `conflictingCrosswalkIds` and `conflictingLaneIds`; `conflicts` is what the graphs of Lanelet2 give. -/
def conflicting (m : List Lane) (conflicts : Id → List Id) : List Id → List Id → Option (List Id)
  | [], r => some r
  | id :: ids, r => match get m id with
    | none => none
    | some l => conflicting m conflicts ids ((conflicts l.id).foldl (fun r i => r ++ [i]) r)

/-- simulation/traffic_simulator/src/utils/route.cpp 33-56: `isAnyConflictingEntity`, for the lanelets of the other entities. -/
def anyConflicting (m : List Lane) (crosswalks lanes : Id → List Id) (route others : List Id) : Option Bool :=
  (conflicting m crosswalks route []).bind fun c => (conflicting m lanes route []).map fun l =>
    others.any fun o => if c.count o ≥ 1 then true else decide (l.count o ≥ 1)

/-! ### The distance to the bounds of lanes -/

/-- What the distances are made of: the bounds of the lanelets (`none` if the lanelet is not in the map), the outline of the entity, the
distance of two lines (`getDistance2D`), and the largest number. -/
structure Sides (K P : Type) where
  left : Id → Option (List P)
  right : Id → Option (List P)
  outline : List P
  distance : List P → List P → K
  largest : K

/-- DU = simulation/traffic_simulator/src/utils/distance.cpp, 284-299 and 319-335: the distance to one bound of one lanelet; `none` is an
exception. -/
def toBound {K P : Type} (w : Sides K P) (side : Id → Option (List P)) (id : Id) : Option K :=
  match side id with
  | none => none
  | some b => if b.isEmpty then none else if w.outline.isEmpty then none else some (w.distance b w.outline)

/-- The loops DU 309-316 and 345-352. -/
def leastBound {K P : Type} [LinearOrder K] (w : Sides K P) (side : Id → Option (List P)) : List Id → K → Option K
  | [], m => some m
  | id :: ids, m => match toBound w side id with
    | none => none
    | some d => leastBound w side ids (if d < m then d else m)

/-- DU 301-317: `distanceToLeftLaneBound` of several lanelets. -/
def toLeft {K P : Type} [LinearOrder K] (w : Sides K P) (ids : List Id) : Option K :=
  if ids.isEmpty then none else leastBound w w.left ids w.largest

/-- DU 337-353: `distanceToRightLaneBound` of several lanelets. -/
def toRight {K P : Type} [LinearOrder K] (w : Sides K P) (ids : List Id) : Option K :=
  if ids.isEmpty then none else leastBound w w.right ids w.largest

/-- DU 365-373: `distanceToLaneBound` of several lanelets. -/
def toLaneBound {K P : Type} [LinearOrder K] (w : Sides K P) (ids : List Id) : Option K :=
  (toLeft w ids).bind fun l => (toRight w ids).map fun r => min l r

end Verif.Spawn
