import Mathlib.Algebra.Field.Basic
/-
Where entities are put: the status of an entity, teleporting and adding.

  ES = simulation/traffic_simulator/src/data_type/entity_status.cpp
  EB = simulation/traffic_simulator/src/entity/entity_base.cpp
  EM = simulation/traffic_simulator/include/traffic_simulator/entity/entity_manager.hpp
  PO = simulation/traffic_simulator/src/utils/pose.cpp
  EE = simulation/traffic_simulator/src/entity/ego_entity.cpp
  EH = simulation/traffic_simulator/include/traffic_simulator/entity/ego_entity.hpp
  SY = openscenario/openscenario_interpreter/src/syntax
  SC = openscenario/openscenario_interpreter/include/openscenario_interpreter/simulator_core.hpp
-/
namespace Verif.Place

inductive Fault where
  | thrown
  deriving DecidableEq

/-- A direction of the heading, as its cosine and its sine. -/
structure Turn (K : Type) where
  c : K
  s : K
  deriving DecidableEq

/-- A pose in the world: roll and pitch are not modelled. -/
structure Pose (K : Type) where
  x : K
  y : K
  z : K
  turn : Turn K
  deriving DecidableEq

variable {K I L A : Type}

/-- A pose on a lane: the lanelet, and the rest. `LaneletPose()` is `blank` below. -/
structure Map (K I L : Type) where
  /-- the lanelet of a pose on a lane -/
  lanelet : L → I
  /-- `LaneletPose()` -/
  blank : L
  /-- `CanonicalizedLaneletPose`, or none if it throws a `SemanticError` -/
  canon : L → Option L
  /-- the pose in the world of a canonical pose on a lane -/
  toMap : L → Pose K
  /-- `lanelet_wrapper::pose::toLaneletPose` on certain lanelets -/
  on : List I → Pose K → Option L
  /-- `lanelet_wrapper::pose::toLaneletPose` on any lanelet, with crosswalks or without -/
  near : Bool → Pose K → Option L
  /-- the same without a bounding box, and 1 m as distance, PO 118-131 -/
  plain : Pose K → Option L

/-- `EntityStatus`; `action` is the action status with speed and acceleration. -/
structure Raw (K L A : Type) where
  pose : Pose K
  valid : Bool
  lane : L
  action : A

/-- `CanonicalizedEntityStatus`. -/
structure Status (K L A : Type) extends Raw K L A where
  canonical : Option L

/-- ES 22-47: the constructor. -/
def make (m : Map K I L) (raw : Raw K L A) (canonical : Option L) : Status K L A :=
  match canonical with
  | some l => { pose := { raw.pose with z := (m.toMap l).z, turn := (m.toMap l).turn }, valid := true, lane := l, action := raw.action, canonical := some l }
  | none => { pose := raw.pose, valid := false, lane := m.blank, action := raw.action, canonical := none }

/-- PO 104-116: `toCanonicalizedLaneletPose` of a pose on a lane. -/
def toCanonical [DecidableEq L] (m : Map K I L) (l : L) : Option L := if l = m.blank then none else m.canon l

/-- PO 147-167: `toCanonicalizedLaneletPose` of a pose in the world, preferring lanelets. -/
def locate [DecidableEq L] (m : Map K I L) (ids : List I) (crosswalk : Bool) (p : Pose K) : Option L :=
  ((if ids.isEmpty then none else m.on ids p).or (m.near crosswalk p)).bind (toCanonical m)

/-- ES 142-145: `getLaneletIds`. -/
def laneletIds (m : Map K I L) (s : Status K L A) : List I := match s.canonical with
  | some l => [m.lanelet l]
  | none => []

/-- ES 65-82: `set` with preferred lanelets. `crosswalk` says whether the entity is a pedestrian or a misc object. The assertions on names and types hold since `raw` is made of the same status. -/
def set [DecidableEq L] (m : Map K I L) (crosswalk : Bool) (raw : Raw K L A) (ids : List I) : Status K L A :=
  make m raw (if raw.valid then toCanonical m raw.lane else locate m ids crosswalk raw.pose)

/-- EB 586-599 and ES 84-88: `setStatus` of a pose. -/
def setPose [DecidableEq L] (m : Map K I L) (crosswalk : Bool) (s : Status K L A) (p : Pose K) (a : A) : Status K L A :=
  set m crosswalk { s.toRaw with pose := p, action := a } (laneletIds m s)

/-- Turns one after the other. -/
def Turn.mul [Mul K] [Add K] [Sub K] (t u : Turn K) : Turn K := ⟨t.c * u.c - t.s * u.s, t.s * u.c + t.c * u.s⟩

/-- PO 169-179: `transformRelativePoseToGlobal`, with headings only. -/
def Pose.mul [Mul K] [Add K] [Sub K] (p q : Pose K) : Pose K :=
  ⟨p.x + (p.turn.c * q.x - p.turn.s * q.y), p.y + (p.turn.s * q.x + p.turn.c * q.y), p.z + q.z, p.turn.mul q.turn⟩

/-- EB 601-619: `setStatus` of a pose relative to another one. -/
def setRelative [DecidableEq L] [Mul K] [Add K] [Sub K] (m : Map K I L) (crosswalk : Bool) (s : Status K L A) (reference relative : Pose K) (a : A) : Status K L A :=
  setPose m crosswalk s (reference.mul relative) a

/-- EB 621-631: `setStatus` of a canonical pose on a lane. -/
def setCanonical (m : Map K I L) (s : Status K L A) (l : L) (a : A) : Status K L A :=
  make m { s.toRaw with action := a, pose := m.toMap l, lane := l, valid := true } (some l)

/-- EB 633-646: `setStatus` of a pose on a lane. -/
def setLane [DecidableEq L] (m : Map K I L) (s : Status K L A) (l : L) (a : A) : Except Fault (Status K L A) :=
  match toCanonical m l with
  | some l => .ok (setCanonical m s l a)
  | none => .error .thrown

/-- EE 460-469: `EgoEntity::setMapPose`; `route` are the lanelets of the route. -/
def setMapPose [DecidableEq L] (m : Map K I L) (s : Status K L A) (p : Pose K) (route : List I) : Status K L A :=
  set m false { s.toRaw with pose := p, valid := false } route

/-- EH 151-162: the guard of `EgoEntity::setStatus`. It is a template, which hides the virtual functions but does not override them, so it is not called through `EntityBase &`. -/
def guard [LT K] [DecidableLT K] [OfNat K 0] (time : K) (controlled : Bool) (f : Status K L A → Status K L A) (s : Status K L A) : Except Fault (Status K L A) :=
  if 0 < time ∧ controlled = false then .error .thrown else .ok (f s)

/-- EM 125-181: the status of a new entity at a pose in the world. -/
def spawnPose [DecidableEq L] (m : Map K I L) (crosswalk : Bool) (p : Pose K) (a : A) : Status K L A :=
  make m ⟨p, false, m.blank, a⟩ ((m.near crosswalk p).bind (toCanonical m))

/-- EM 125-181: the status of a new entity at a canonical pose on a lane. -/
def spawnLane (m : Map K I L) (l : L) (a : A) : Status K L A := make m ⟨m.toMap l, false, m.blank, a⟩ (some l)

/-- A position in a scenario, read: SY/world_position.cpp, relative_world_position.cpp, relative_object_position.cpp, lane_position.cpp. References are given by the pose of the entity,
none if there is no such entity. -/
inductive Position (K L : Type) where
  | world (p : Pose K)
  | relativeWorld (reference : Option (Pose K)) (dx dy dz : K) (orientation : Turn K)
  | relativeObject (reference : Option (Pose K)) (dx dy dz : K) (orientation : Turn K)
  | lane (l : L)

/-- The heading of the world. -/
def Turn.one [OfNat K 0] [OfNat K 1] : Turn K := ⟨1, 0⟩

/-- math/geometry/src/transform.cpp 67-84: `transformPoint`. -/
def Pose.transform [Mul K] [Add K] [Sub K] (p : Pose K) (x y z : K) : K × K × K := (p.turn.c * x - p.turn.s * y + p.x, p.turn.s * x + p.turn.c * y + p.y, z + p.z)

/-- The conversion of a position to a pose in the world: world_position.cpp 39-48, relative_world_position.cpp 49-52, relative_object_position.cpp 50-75, lane_position.cpp 52-55.
If the reference does not exist, relative_object_position.cpp gives NaN, which is an error here. -/
def toWorld [Mul K] [Add K] [Sub K] [OfNat K 0] [OfNat K 1] (m : Map K I L) : Position K L → Except Fault (Pose K)
  | .world p => .ok p
  | .relativeWorld _ _ _ _ _ => .error .thrown
  | .relativeObject none _ _ _ _ => .error .thrown
  | .relativeObject (some r) dx dy dz _ => let q := r.transform dx dy dz; .ok ⟨q.1, q.2.1, q.2.2, .one⟩
  | .lane l => match m.canon l with
    | some l => .ok (m.toMap l)
    | none => .error .thrown

/-- The conversion of a position to a pose on a lane: world_position.cpp 34-37, relative_world_position.cpp 44-47, relative_object_position.cpp 45-48, lane_position.cpp 40-50; SC 81-102. -/
def toLane [DecidableEq L] [Mul K] [Add K] [Sub K] [OfNat K 0] [OfNat K 1] (m : Map K I L) : Position K L → Except Fault L
  | .lane l => match m.canon l with
    | some l => .ok l
    | none => .error .thrown
  | p => match toWorld m p with
    | .error e => .error e
    | .ok p => match (m.plain p).bind (toCanonical m) with
      | some l => .ok l
      | none => .error .thrown

/-- SY/teleport_action.cpp 63-89 and SC 525-537: `teleport`. `still` is the action status of something that stands, the default argument of `setStatus`. -/
def teleport [DecidableEq L] [Mul K] [Add K] [Sub K] (m : Map K I L) (crosswalk : Bool) (still : A) (s : Status K L A) : Position K L → Except Fault (Status K L A)
  | .world p => .ok (setPose m crosswalk s p still)
  | .relativeWorld none _ _ _ _ => .error .thrown
  | .relativeWorld (some r) dx dy dz o => .ok (setRelative m crosswalk s r ⟨dx, dy, dz, o⟩ still)
  | .relativeObject none _ _ _ _ => .error .thrown
  | .relativeObject (some r) dx dy dz o => .ok (setRelative m crosswalk s r ⟨dx, dy, dz, o⟩ still)
  | .lane l => match m.canon l with
    | some l => .ok (setCanonical m s l still)
    | none => .error .thrown

/-- SY/add_entity_action.cpp 49-185: an entity is spawned and teleported to the same position. `waiting` is the action status of a new entity. -/
def add [DecidableEq L] [Mul K] [Add K] [Sub K] [OfNat K 0] [OfNat K 1] (m : Map K I L) (crosswalk : Bool) (still waiting : A) (p : Position K L) : Except Fault (Status K L A) :=
  let spawned : Except Fault (Status K L A) := match p with
    | .lane l => match m.canon l with
      | some l => .ok (spawnLane m l waiting)
      | none => .error .thrown
    | p => match toWorld m p with
      | .error e => .error e
      | .ok p => .ok (spawnPose m crosswalk p waiting)
  match spawned with
  | .error e => .error e
  | .ok s => teleport m crosswalk still s p

/-- The ways in which the status of an entity is changed while a scenario runs: a teleport, or what the other simulator reports about the ego (`setMapPose`). -/
inductive Change (K I L : Type) where
  | teleport (p : Position K L)
  | report (p : Pose K) (route : List I)

/-- One change. What throws leaves the status as it was: EB 591-646 and EE 460-469 set the status last. -/
def step [DecidableEq L] [Mul K] [Add K] [Sub K] (m : Map K I L) (crosswalk : Bool) (still : A) (s : Status K L A) : Change K I L → Status K L A
  | .teleport p => match teleport m crosswalk still s p with
    | .ok s => s
    | .error _ => s
  | .report p route => setMapPose m s p route

/-- Any number of changes. -/
def run [DecidableEq L] [Mul K] [Add K] [Sub K] (m : Map K I L) (crosswalk : Bool) (still : A) (s : Status K L A) (cs : List (Change K I L)) : Status K L A :=
  cs.foldl (step m crosswalk still) s

end Verif.Place
