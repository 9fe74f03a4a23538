/-
The request handlers of the sensor simulator: /repo/simulation/simple_sensor_simulator/src/simple_sensor_simulator.cpp, called SSS below.

A thrown exception is `none`: nothing catches it on the thread of the server
(/repo/simulation/simulation_interface/src/zmq_multi_server.cpp, lines 24-106), so the process ends.
-/
namespace Verif.Server

/-- The members of `EgoEntitySimulation` the handlers use, kept abstract: making one from a pose, `overwrite`, `update` and `getStatus`. `P` is
a pose, `S` a status (`simulation_api_schema::EntityStatus`), `E` the state of the simulation of the ego; `none` is an exception. -/
structure EgoApi (P S E : Type) where
  make : P → Option E
  overwrite : E → S → Bool → Option E
  update : E → Bool → Option E
  getStatus : E → S

/-- `ControlModeReport::mode` (autoware message, not in /repo), the two values that are ever stored. -/
inductive Mode where
  | autonomous | manual
  deriving DecidableEq

/-- The lists of entities of `ScenarioSimulator`. -/
inductive Kind where
  | ego | vehicle | pedestrian | misc
  deriving DecidableEq

/-- `ScenarioSimulator`, /repo/simulation/simple_sensor_simulator/include/simple_sensor_simulator/simple_sensor_simulator.hpp, lines 142-156:
the names in `ego_vehicles_`, `vehicles_`, `pedestrians_` and `misc_objects_`, `entity_status_`, `ego_entity_simulation_` and the
`current_control_mode` of its Autoware, and `initialized_`. Of the parameters of an entity only the name is kept; statuses are kept by name, the
order of the map is left out. -/
structure Server (S E : Type) where
  egos : List String := []
  vehicles : List String := []
  pedestrians : List String := []
  miscs : List String := []
  status : String → Option S := fun _ => none
  ego : Option E := none
  mode : Mode := .autonomous
  initialized : Bool := false

variable {P S E : Type}

/-- `initialize`, SSS, lines 60-85: everything is forgotten but the simulation of the ego. -/
def reset (s : Server S E) : Server S E :=
  { s with egos := [], vehicles := [], pedestrians := [], miscs := [], status := fun _ => none, initialized := true }

/-- `insertEntitySpawnedStatus`, SSS, lines 177-191: `insert` does not replace an entry. -/
def insertStatus (s : Server S E) (name : String) (st : S) : Server S E :=
  if (s.status name).isSome then s else { s with status := fun n => if n = name then some st else s.status n }

/-- `spawnVehicleEntity`, `spawnPedestrianEntity` and `spawnMiscObjectEntity`, SSS, lines 193-251. `init` is the status made from the request.
A new ego comes with a new `AutowareUniverse`, whose control mode is AUTONOMOUS,
/repo/external/concealer/include/concealer/autoware_universe.hpp, line 87. -/
def spawn (api : EgoApi P S E) (s : Server S E) (sort : Kind) (name : String) (pose : P) (init : S) : Option (Server S E) :=
  match sort with
  | .ego =>
    if s.egos.length ≠ 0 then none
    else do
      let e ← api.make pose
      return insertStatus { s with egos := s.egos ++ [name], ego := some e, mode := .autonomous } name init
  | .vehicle => some (insertStatus { s with vehicles := s.vehicles ++ [name] } name init)
  | .pedestrian => some (insertStatus { s with pedestrians := s.pedestrians ++ [name] } name init)
  | .misc => some (insertStatus { s with miscs := s.miscs ++ [name] } name init)

/-- `remove_despawn_requested_entity_from`, SSS, lines 256-264. -/
def removeFrom (l : List String) (name : String) : List String := l.filter fun n => n != name

/-- `despawnEntity`, SSS, lines 253-281: the new state and whether the response says success. The `or` stops at the first list that something
was removed from. -/
def despawn (s : Server S E) (name : String) : Server S E × Bool :=
  let egoRemoved := s.egos.length ≠ (removeFrom s.egos name).length
  let s := { s with egos := removeFrom s.egos name }
  let s := if egoRemoved then { s with ego := none } else s
  let (s, any) :=
    if egoRemoved then (s, true)
    else if s.vehicles.length ≠ (removeFrom s.vehicles name).length then ({ s with vehicles := removeFrom s.vehicles name }, true)
    else if s.pedestrians.length ≠ (removeFrom s.pedestrians name).length then ({ s with pedestrians := removeFrom s.pedestrians name }, true)
    else if s.miscs.length ≠ (removeFrom s.miscs name).length then ({ s with miscs := removeFrom s.miscs name }, true)
    else (s, false)
  if any then ({ s with status := fun n => if n = name then none else s.status n }, true) else (s, false)

/-- The body of the loop of `updateEntityStatus`, SSS, lines 142-171, for one status: the new state and the status in the response. The state
with an ego but without its simulation is undefined behaviour (an assertion in debug builds). `at` of an unknown name throws. -/
def updateOne (api : EgoApi P S E) (overwrite started : Bool) (s : Server S E) (name : String) (st : S) : Option (Server S E × S) :=
  if name ∈ s.egos then
    match s.ego with
    | none => none
    | some e => do
      let manual := overwrite || s.mode == .manual
      let e ← (if manual then api.overwrite e st started else api.update e started : Option E)
      let s := if manual then { s with mode := .manual } else s
      if (s.status name).isSome then
        return ({ s with ego := some e, status := fun n => if n = name then some (api.getStatus e) else s.status n }, api.getStatus e)
      else none
  else if (s.status name).isSome then some ({ s with status := fun n => if n = name then some st else s.status n }, st)
  else none

/-- `updateEntityStatus`, SSS, lines 129-175: the statuses of the request in turn. -/
def updateAll (api : EgoApi P S E) (overwrite started : Bool) (s : Server S E) : List (String × S) → Option (Server S E × List (String × S))
  | [] => some (s, [])
  | (name, st) :: l => do
    let (s, r) ← updateOne api overwrite started s name st
    let (s, rs) ← updateAll api overwrite started s l
    return (s, (name, r) :: rs)

/-- `getBoundingBox`, SSS, lines 341-365: the list in which the entity is found; `none` is the exception. -/
def getBoundingBox (s : Server S E) (name : String) : Option Kind :=
  if name ∈ s.egos then some .ego
  else if name ∈ s.vehicles then some .vehicle
  else if name ∈ s.pedestrians then some .pedestrian
  else if name ∈ s.miscs then some .misc
  else none

open Classical in
/-- `updateFrame`, SSS, lines 87-118: whether the response says success; `none` is an exception. The sensors, which get the statuses with their
bounding boxes, are left out. -/
noncomputable def updateFrame (s : Server S E) : Option Bool :=
  if s.initialized = false then some false
  else if ∃ name, (s.status name).isSome ∧ getBoundingBox s name = none then none
  else some true

/-- `control_mode_request_server`, /repo/external/concealer/src/autoware_universe.cpp, lines 51-73: the new state and whether the response says
success. Without an ego there is no server. -/
def requestMode (s : Server S E) (mode : Mode) : Server S E × Bool :=
  match s.ego, mode with
  | some _, .autonomous => ({ s with mode := .autonomous }, true)
  | _, _ => (s, false)

/-- A request to the sensor simulator, or to the control mode server of the ego. The latter runs in a thread of its own; here it comes between
two requests. -/
inductive Request (P S : Type) where
  | reset
  | spawn (sort : Kind) (name : String) (pose : P) (init : S)
  | despawn (name : String)
  | update (overwrite started : Bool) (statuses : List (String × S))
  | mode (m : Mode)

/-- One request: SSS, lines 31-52, where the handlers are given to the server. -/
def handle (api : EgoApi P S E) (s : Server S E) : Request P S → Option (Server S E)
  | .reset => some (reset s)
  | .spawn sort name pose init => spawn api s sort name pose init
  | .despawn name => some (despawn s name).1
  | .update o st l => (updateAll api o st s l).map (·.1)
  | .mode m => some (requestMode s m).1

/-- A sequence of requests. -/
def run (api : EgoApi P S E) (s : Server S E) : List (Request P S) → Option (Server S E)
  | [] => some s
  | r :: l => do
    let s ← handle api s r
    run api s l

end Verif.Server
