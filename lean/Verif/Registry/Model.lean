import Mathlib.Order.Defs.LinearOrder
/-
Model of the entity registry: `EntityManager` and `API` of traffic_simulator and, behind a request/reply
socket, `ScenarioSimulator` of simple_sensor_simulator.

Abbreviations: TS = simulation/traffic_simulator, SSS = simulation/simple_sensor_simulator.
Not modelled: everything about an entity but its name and kind (its pose appears in `distances` only),
sensors, traffic lights, the clock.
-/
namespace Verif.Registry

/-- TS/include/traffic_simulator/entity/entity_manager.hpp 128-140: the four entity types. -/
inductive Kind where
  | ego | vehicle | pedestrian | misc
deriving DecidableEq, Repr

/-- SSS/include/simple_sensor_simulator/simple_sensor_simulator.hpp (members of `ScenarioSimulator`): the
parameters of the entities by kind, reduced to the names, and the keys of `entity_status_`. -/
structure Sim (α : Type) where
  egos : List α
  vehicles : List α
  pedestrians : List α
  miscs : List α
  status : List α
deriving DecidableEq, Repr

/-- The three replies of the environment simulator: `result.success` is true, is false, or an exception
leaves `MultiServer::poll` (simulation_interface/src/zmq_multi_server.cpp 24-110): it runs in a plain
`std::thread`, so the process terminates and the client waits for the reply for ever. -/
inductive Reply where
  | ok | refused | dead
deriving DecidableEq, Repr

variable {α : Type} [DecidableEq α]

namespace Sim

/-- SSS/src/simple_sensor_simulator.cpp 61-85 `initialize`: all lists are cleared. -/
def empty : Sim α := ⟨[], [], [], [], []⟩

/-- 178-191 `insertEntitySpawnedStatus`: `std::map::insert` keeps an existing key. -/
def insertStatus (n : α) (s : Sim α) : Sim α :=
  if n ∈ s.status then s else { s with status := s.status ++ [n] }

/-- 193-251 `spawnVehicleEntity`, `spawnPedestrianEntity`, `spawnMiscObjectEntity`. -/
def spawn (n : α) (k : Kind) (s : Sim α) : Sim α × Reply :=
  match k with
  | .ego => if s.egos ≠ [] then (s, .dead) else (insertStatus n { s with egos := s.egos ++ [n] }, .ok)
  | .vehicle => (insertStatus n { s with vehicles := s.vehicles ++ [n] }, .ok)
  | .pedestrian => (insertStatus n { s with pedestrians := s.pedestrians ++ [n] }, .ok)
  | .misc => (insertStatus n { s with miscs := s.miscs ++ [n] }, .ok)

/-- 253-279 `despawnEntity`: the four lists are searched in order until something is removed. -/
def despawn (n : α) (s : Sim α) : Sim α × Reply :=
  let rest (l : List α) := l.filter (fun m => m ≠ n)
  let erased := s.status.filter (fun m => m ≠ n)
  if n ∈ s.egos then ({ s with egos := rest s.egos, status := erased }, .ok)
  else if n ∈ s.vehicles then ({ s with vehicles := rest s.vehicles, status := erased }, .ok)
  else if n ∈ s.pedestrians then ({ s with pedestrians := rest s.pedestrians, status := erased }, .ok)
  else if n ∈ s.miscs then ({ s with miscs := rest s.miscs, status := erased }, .ok)
  else (s, .refused)

/-- 130-176 `updateEntityStatus`: the names of the request are looked up with `at`; the reply has the
same names. The states themselves are not modelled. -/
def updateStatus (ns : List α) (s : Sim α) : Reply :=
  if ∀ n ∈ ns, n ∈ s.status then .ok else .dead

/-- 87-119 `updateFrame` with `getBoundingBox` (341-366): every entity with a status must be in one of
the lists. -/
def updateFrame (s : Sim α) : Reply :=
  if ∀ n ∈ s.status, n ∈ s.egos ∨ n ∈ s.vehicles ∨ n ∈ s.pedestrians ∨ n ∈ s.miscs then .ok else .dead

end Sim

/-- What a caller of the API sees: the call returns (true), returns false, throws, never returns, or has
undefined behaviour. -/
inductive Result where
  | ok | no | throws | hangs | undefined
deriving DecidableEq, Repr

/-- Both processes. `entities` is the `unordered_map` of the entity manager in its iteration order;
`closed` is `not is_running` of the client. -/
structure World (α : Type) where
  entities : List (α × Kind)
  sim : Sim α
  closed : Bool
  standalone : Bool

/-- The order in which an `unordered_map` is iterated after an insertion (which may rehash): any
permutation. -/
structure Hash (α : Type) where
  order : List (α × Kind) → List (α × Kind)
  perm : ∀ l, (order l).Perm l

namespace World

/-- entity_manager.cpp 278-281 `isEntityExist`. -/
def exists_ (w : World α) (n : α) : Bool := w.entities.any (fun e => e.1 = n)

/-- entity_manager.cpp 236-241 `isAnyEgoSpawned`. -/
def anyEgo (w : World α) : Bool := w.entities.any (fun e => e.2 = .ego)

/-- entity_manager.cpp 283-290 `getEntityNames`. -/
def names (w : World α) : List α := w.entities.map (·.1)

/-- entity_manager.hpp 114-193 `spawnEntity`: the status is made first - a second Ego is refused - then
the entity is constructed, which may throw (`ctor` is false: a behaviour plugin that cannot be loaded,
a pose that cannot be matched), then `emplace` fails if the name is taken. -/
def spawnEntity (H : Hash α) (n : α) (k : Kind) (ctor : Bool) (w : World α) : World α × Result :=
  if k = .ego ∧ w.anyEgo = true then (w, .throws)
  else if ctor = false then (w, .throws)
  else if w.exists_ n then (w, .throws)
  else ({ w with entities := H.order (w.entities ++ [(n, k)]) }, .ok)

/-- entity_manager.cpp 362-365 `despawnEntity`. -/
def despawnEntity (n : α) (w : World α) : World α × Result :=
  if w.exists_ n then ({ w with entities := w.entities.filter (fun e => e.1 ≠ n) }, .ok) else (w, .no)

/-- simulation_interface/src/zmq_multi_client.cpp 42-150: a request after `closeConnection` is not sent
and answered by a default-constructed response, in which `success` is false. -/
def ask (f : Sim α → Sim α × Reply) (w : World α) : World α × Reply :=
  if w.closed then (w, .refused) else let r := f w.sim; ({ w with sim := r.1 }, r.2)

/-- TS/include/traffic_simulator/api/api.hpp 122-191 `API::spawn`. -/
def spawn (H : Hash α) (n : α) (k : Kind) (ctor : Bool) (w : World α) : World α × Result :=
  match w.spawnEntity H n k ctor with
  | (w', .ok) =>
    if w'.standalone then (w', .ok)
    else match ask (Sim.spawn n k) w' with
      | (w'', .ok) => (w'', .ok)
      | (w'', .refused) => (w'', .throws)
      | (w'', .dead) => (w'', .hangs)
  | (w', r) => (w', r)

/-- TS/src/api/api.cpp 323-335 `API::despawn`. -/
def despawn (n : α) (w : World α) : World α × Result :=
  match w.despawnEntity n with
  | (w', .ok) =>
    if w'.standalone then (w', .ok)
    else match ask (Sim.despawn n) w' with
      | (w'', .ok) => (w'', .ok)
      | (w'', .refused) => (w'', .no)
      | (w'', .dead) => (w'', .hangs)
  | (w', r) => (w', r)

/-- `std::all_of` over the names with `despawn`: it stops at the first false. -/
def despawnList : List α → World α → World α × Result
  | [], w => (w, .ok)
  | n :: ns, w => match despawn n w with
    | (w', .ok) => despawnList ns w'
    | (w', r) => (w', r)

/-- api.cpp 337-342 `API::despawnEntities`. -/
def despawnEntities (w : World α) : World α × Result := despawnList w.names w

/-- entity_manager.cpp 328-360 `resetBehaviorPlugin`. `status` is a reference into the entity that
`despawnEntity` destroys (entity_base.hpp 108: `*status_`, a member of the entity); it is read when the
new entity is made (`status.getMapPose()`), so the reset of a vehicle or pedestrian has undefined
behaviour. The registry itself is not touched by the environment simulator. -/
def resetBehaviorPlugin (n : α) (w : World α) : World α × Result :=
  match w.entities.find? (fun e => e.1 = n) with
  | none => (w, .throws)
  | some (_, .ego) => (w, .throws)
  | some (_, .misc) => (w, .throws)
  | some _ => ((w.despawnEntity n).1, .undefined)

/-- api.cpp 126-154 `API::updateFrame`, the parts that depend on the registry: `updateEntitiesStatusInSim`
(85-114, not guarded by `standalone_mode`) and `updateTimeInSim` (76-83). Simplification: sources and
sinks, executed in between, are separate operations here. -/
def updateFrame (w : World α) : World α × Result :=
  if w.standalone ∧ w.anyEgo then (w, .throws)
  else match ask (fun s => (s, s.updateStatus w.names)) w with
    | (_, .refused) => (w, .no)
    | (_, .dead) => (w, .hangs)
    | (_, .ok) =>
      if w.standalone then (w, .ok)
      else match ask (fun s => (s, s.updateFrame)) w with
        | (_, .refused) => (w, .no)
        | (_, .dead) => (w, .hangs)
        | (_, .ok) => (w, .ok)

/-- api.hpp 60-93: the constructor of the API sends an `InitializeRequest`. -/
def init (standalone : Bool) : World α := { entities := [], sim := Sim.empty, closed := false, standalone }

end World

/-- The requests to the API. -/
inductive Op (α : Type) where
  | spawn (name : α) (kind : Kind) (ctor : Bool)
  | despawn (name : α)
  | despawnEntities
  | updateFrame
  | reset (name : α)
  | close
deriving DecidableEq, Repr

def exec (H : Hash α) (w : World α) : Op α → World α × Result
  | .spawn n k c => w.spawn H n k c
  | .despawn n => w.despawn n
  | .despawnEntities => w.despawnEntities
  | .updateFrame => w.updateFrame
  | .reset n => w.resetBehaviorPlugin n
  | .close => ({ w with closed := true }, .ok)

/-- A history: the world after it and the results of its requests. A request that hangs or has undefined
behaviour ends it. -/
def run (H : Hash α) : World α → List (Op α) → World α × List Result
  | w, [] => (w, [])
  | w, o :: os =>
    let r := exec H w o
    if r.2 = .hangs ∨ r.2 = .undefined then (r.1, [r.2])
    else let r' := run H r.1 os; (r'.1, r.2 :: r'.2)

section distances
variable {ν P D : Type} [LinearOrder ν]

/-- `std::minmax` of two names. -/
def minmax (a b : ν) : ν × ν := if b < a then (b, a) else (a, b)

/-- The inner loop of entity_manager.cpp 367-380 `calculateEuclideanDistances`. -/
def distancesFrom (dist : P → P → D) (from_ : ν × P) : List (ν × P) → List ((ν × ν) × D) → List ((ν × ν) × D)
  | [], m => m
  | to_ :: es, m =>
    let pair := minmax from_.1 to_.1
    if m.lookup pair = none ∧ from_.1 ≠ to_.1 then
      distancesFrom dist from_ es (m ++ [(pair, dist from_.2 to_.2)])
    else distancesFrom dist from_ es m

/-- entity_manager.cpp 367-380 `calculateEuclideanDistances`: names and poses in iteration order. -/
def distances (dist : P → P → D) (es : List (ν × P)) : List ((ν × ν) × D) :=
  es.foldl (fun m e => distancesFrom dist e es m) []

end distances

end Verif.Registry
