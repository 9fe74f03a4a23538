import Mathlib.Algebra.Order.Floor.Defs
import Mathlib.Algebra.Order.Floor.Semiring
import Verif.Lanes.Centerline
/-!
Lane changes: the lane asked for, and the place on it to go to.

LC = simulation/traffic_simulator/src/lanelet_wrapper/lane_change.cpp, EB = simulation/traffic_simulator/src/entity/entity_base.cpp,
R = simulation/traffic_simulator/src/utils/route.cpp, LA = openscenario/openscenario_interpreter/src/syntax/lane_change_action.cpp,
RT = openscenario/openscenario_interpreter/src/syntax/relative_target_lane.cpp.
-/

namespace Verif.Lanes

abbrev Id := Nat

/-- `lane_change::Direction`, simulation/traffic_simulator/include/traffic_simulator/data_type/lane_change.hpp 29. -/
inductive Direction where
  | straight
  | left
  | right
  deriving DecidableEq

/-- What is asked of the map and its routing graph. -/
structure Roads where
  /-- `laneletLayer.exists` -/
  known : Id → Bool
  /-- `routingGraph(type)->left`, `right`: the lane one can change to -/
  left : Id → Option Id
  right : Id → Option Id
  /-- `nextLaneletIds`, `leftLaneletIds`, `rightLaneletIds` -/
  next : Id → List Id
  lefts : Id → List Id
  rights : Id → List Id
  /-- `canChangeLane`, LC 30-38 -/
  allowed : Id → Id → Bool

/-- `laneChangeableLaneletId`, LC 40-54. `laneletLayer.get` throws if there is no such lanelet. -/
def beside (r : Roads) (id : Id) (d : Direction) : Except Fault (Option Id) :=
  if r.known id then .ok (match d with | .straight => some id | .left => r.left id | .right => r.right id)
  else .error .thrown

/-- The loop of LC 64-71. -/
def shifted (r : Roads) (d : Direction) : Nat → Id → Except Fault (Option Id)
  | 0, id => .ok (some id)
  | n + 1, id => do
    match ← beside r id d with
    | none => .ok none
    | some id' => shifted r d n id'

/-- `laneChangeableLaneletId` with a number of lanes, LC 56-73. -/
def laneChangeable (r : Roads) (id : Id) (d : Direction) (shift : Nat) : Except Fault (Option Id) :=
  if shift = 0 then beside r id .straight else shifted r d shift id

/-- RT 29-38 -/
def directionOf (value : Int) : Direction := if value < 0 then .right else if value = 0 then .straight else .left

/-- `std::abs` of a 64 bit integer, which becomes the `std::uint8_t` `shift`, LA 96-104. It is undefined for the least integer. -/
def shiftOf (value : Int) : Except Fault Nat :=
  if value = -9223372036854775808 then .error .undefined else .ok (value.natAbs % 256)

/-- The kinds of entities, as far as they differ in `requestLaneChange`. -/
inductive Kind where
  /-- `VehicleEntity`, vehicle_entity.cpp 264-278 -/
  | vehicle
  /-- `EgoEntity`, ego_entity.cpp 365-379 -/
  | ego
  /-- `PedestrianEntity` and `MiscObjectEntity`: entity_base.hpp 218-232 -/
  | other
  deriving DecidableEq

/-- An entity: its kind, its name and the lanelet it is on. -/
structure Actor where
  kind : Kind
  name : String
  lanelet : Option Id
  deriving DecidableEq

/-- The lane change that is handed to the behavior, if any. `K` is the type of offsets. -/
abbrev Request (K : Type) := Option (Id × K)

/-- `requestLaneChange` with parameters: what is asked for afterwards. `old` was asked for before. -/
def request {K : Type} (a : Actor) (old : Request K) (target : Id × K) : Except Fault (Request K) := match a.kind with
  | .vehicle => .ok (some target)
  | .ego => .error .thrown
  | .other => .ok old

/-- `requestLaneChange(Direction)`, EB 161-170. The offset is zero, vehicle_entity.cpp 267-268. -/
def requestDirection {K : Type} (zero : K) (r : Roads) (a : Actor) (old : Request K) (d : Direction) : Except Fault (Request K) :=
  match a.lanelet with
  | none => .ok old
  | some id => do
    match ← beside r id d with
    | none => .ok old
    | some id' => request a old (id', zero)

/-- The reference of a relative target, EB 186-204. `others` are the statuses of the other entities. -/
def reference (a : Actor) (others : String → Option (Option Id)) (entity : String) : Except Fault Id :=
  if entity = a.name then
    match a.lanelet with
    | none => .error .thrown
    | some id => .ok id
  else match others entity with
    | none => .error .thrown
    | some none => .error .thrown
    | some (some id) => .ok id

/-- `requestLaneChange(RelativeTarget)`, EB 181-216. -/
def requestRelative {K : Type} (r : Roads) (a : Actor) (others : String → Option (Option Id)) (old : Request K) (entity : String) (d : Direction) (shift : Nat) (offset : K) :
    Except Fault (Request K) := do
  let id ← reference a others entity
  match ← laneChangeable r id d shift with
  | none => .error .thrown
  | some id' => request a old (id', offset)

/-- `LaneChangeAction::start` for a `RelativeTargetLane`, LA 62-87, 96-104. -/
def changeRelative {K : Type} (r : Roads) (a : Actor) (others : String → Option (Option Id)) (old : Request K) (entity : String) (value : Int) (offset : K) :
    Except Fault (Request K) := do
  requestRelative r a others old entity (directionOf value) (← shiftOf value) offset

/-- `countLaneChanges`, LC 87-101: the changes to the left and to the right on a route. -/
def countOn (r : Roads) : List Id → Nat × Nat
  | a :: b :: l =>
    let n := countOn r (b :: l)
    if b ∈ r.next a then n else if b ∈ r.lefts a then (n.1 + 1, n.2) else if b ∈ r.rights a then (n.1, n.2 + 1) else n
  | _ => (0, 0)

/-- `countLaneChanges`, LC 75-104, given the route found in the graph. -/
def countLaneChanges (r : Roads) (route : List Id) : Option (Nat × Nat) := if route = [] then none else some (countOn r route)

/-- `Constraint::Type`, simulation/traffic_simulator/include/traffic_simulator/data_type/lane_change.hpp 46. -/
inductive Constraint where
  | none
  | lateralVelocity
  | longitudinalDistance
  | time
  deriving DecidableEq

section
variable {K C : Type} [Field K] [LinearOrder K]

/-- What LC 106-235 asks of the geometry of the lanes. -/
structure Target (K C : Type) where
  /-- `laneletLength` of the target lane -/
  length : K
  /-- how far ahead of the vehicle the place at `s` on the target lane with an offset is, `getRelativePose(from_pose, to_pose).position.x` -/
  ahead : K → K → K
  /-- the curve from the vehicle to the place at `s` with an offset, LC 107-158 with half of the distance; `none` is an exception -/
  curve : K → K → Option C
  /-- `getMaximum2DCurvature` and `getLength` -/
  curvature : C → K
  arc : C → K
  /-- LC 168-180: where the line across the own lane, that far ahead along the own lane, meets the target lane -/
  across : K → Option K

/-- LC 203-226: one place after the other, without an offset. Places are a metre apart: 0, 1, 2, … -/
def candidates (t : Target K C) (maximum forward : K) : List Nat → Except Fault (List (K × C))
  | [] => .ok []
  | n :: l =>
    if t.ahead n 0 ≤ forward then candidates t maximum forward l
    else match t.curve n 0 with
      | none => .error .thrown
      | some c => do
        let rest ← candidates t maximum forward l
        .ok (if t.curvature c < maximum then ((n : K), c) :: rest else rest)

/-- `std::min_element`: the first of the least. -/
def leastBy (f : K × C → K) : List (K × C) → Option (K × C)
  | [] => none
  | a :: l => match leastBy f l with
    | none => some a
    | some b => if f b < f a then some b else some a

/-- `laneChangeTrajectory` from a pose on the map, LC 195-237. Arithmetic is exact. -/
def choosePath [FloorSemiring K] (t : Target K C) (maximum length forward : K) : Except Fault (Option (C × K)) := do
  let l ← candidates t maximum forward (List.range ⌈t.length⌉₊)
  .ok ((leastBy (fun p => |length - t.arc p.2|) l).map fun p => (p.2, p.1))

/-- `laneChangeTrajectory` from a pose on a lanelet, LC 160-193. -/
def boundPath (t : Target K C) (type : Constraint) (value offset : K) : Except Fault (Option (C × K)) :=
  match t.across (if type = .longitudinalDistance then value else 20) with
  | none => .ok none
  | some s => match t.curve s offset with
    | none => .error .thrown
    | some c => .ok (some (c, s))

/-- `laneChangeTrajectory`, R 138-164. `offset` is `target.offset`; the constants are those of R 151-152. -/
def path [FloorSemiring K] (r : Roads) (t : Target K C) (own target : Id) (type : Constraint) (value offset : K) : Except Fault (Option (C × K)) :=
  if r.allowed own target then
    match type with
    | .none => choosePath t 10 20 1
    | _ => boundPath t type value offset
  else .ok none
end
end Verif.Lanes
