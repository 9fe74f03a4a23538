import Verif.Scope.Model
import Verif.Literal.Model

/-
The actions that send entities somewhere, from the scenario to the entities. Of
/repo/openscenario/openscenario_interpreter: AP = src/syntax/acquire_position_action.cpp,
AR = src/syntax/assign_route_action.cpp, RO = src/syntax/route.cpp, WP = src/syntax/waypoint.cpp,
PR = include/openscenario_interpreter/syntax/properties.hpp, CO = src/syntax/controller.cpp,
OC = src/syntax/object_controller.cpp, SH = include/openscenario_interpreter/scope.hpp.
Of /repo/simulation/traffic_simulator: VE = src/entity/vehicle_entity.cpp, PE = src/entity/pedestrian_entity.cpp.

Positions are values of a type of their own. What the entity driven by Autoware does with a request is in
`Operator`, what the others do with waypoints in `Route`.
-/
namespace Verif.Routing

open Verif.Literal (Value attributeBoolean)

/-- CO 25-31: a controller with its properties in the order of the document. -/
structure Controller where
  name : String
  properties : List (String × String)

/-- PR 68-86, `get<Boolean>(name)`: the first property of that name; an empty text, or none, is the default,
false. None is an exception. -/
def Controller.getBoolean (c : Controller) (name : String) : Option Bool :=
  match c.properties.lookup name with
  | some t => if t ≠ "" then attributeBoolean t.toList else some false
  | none => some false

/-- CO 33-36. -/
def Controller.isAutoware (c : Controller) : Option Bool :=
  (c.getBoolean "isEgo").map fun b => b || c.name == "Autoware"

/-- A ScenarioObject: its name and its controller, if it has one. -/
structure Object where
  name : String
  controller : Option Controller

/-- AP 56-69, AR 59-72, OC 40-43. The outer none is an exception. -/
def fromProperty (o : Object) (name : String) : Option (Option Bool) :=
  match o.controller with
  | none => some none
  | some c =>
    match c.isAutoware with
    | none => none
    | some false => some none
    | some true =>
      if (c.properties.lookup name).isSome then (c.getBoolean name).map some else some none

/-- `is_also<Boolean>` of SH 88. -/
def isBoolean {R : Type} : Value R → Bool
  | .boolean _ => true
  | _ => false

/-- AP 71-78, AR 74-81, with SH 72-108: an error of the lookup, whatever it is, gives the default. -/
def fromParameter {R : Type} (s : Scope.Store (Value R)) (frame : Nat) (name : String) (default : Bool) : Bool :=
  match Scope.find s isBoolean name frame with
  | .found (.boolean b) => b
  | _ => default

/-- route_option.hpp 24-28. -/
structure Options where
  allow_goal_modification : Bool
  use_lane_ids_for_routing : Bool
deriving DecidableEq

/-- AP 80-93, AR 83-96. -/
def options {R : Type} (s : Scope.Store (Value R)) (frame : Nat) (o : Object) : Option Options :=
  (fromProperty o "allowGoalModification").map fun p =>
    { allow_goal_modification := p.getD (fromParameter s frame "RoutingAction__allow_goal_modification" false)
      use_lane_ids_for_routing := fromParameter s frame "RoutingAction__use_lane_ids_for_routing" false }

/-- A request that an entity gets. -/
structure Request (P : Type) where
  entity : String
  destination : P
  options : Options
deriving DecidableEq

/-- AP 84-97, AR 87-101, for the objects of all actors in turn: the requests made, and whether an exception
ended it. A request itself is taken to succeed. -/
def start {R P : Type} (s : Scope.Store (Value R)) (frame : Nat) (destination : P) :
    List Object → List (Request P) × Bool
  | [] => ([], false)
  | o :: os =>
    match options s frame o with
    | none => ([], true)
    | some opt =>
      let r := start s frame destination os
      (⟨o.name, destination, opt⟩ :: r.1, r.2)

/-- `ObjectType`. -/
inductive Kind where
  | misc | pedestrian | vehicle | external
deriving DecidableEq

/-- AR 41-48: an actor is given by the types of its objects; `objectTypes` is a set. -/
def assignable (actors : List (List Kind)) : Bool :=
  actors.all fun ks => !ks.isEmpty && (ks.all (· == .vehicle) || ks.all (· == .pedestrian))

/-- WP 23-27. -/
structure Waypoint (P : Type) where
  strategy : String
  position : P

/-- RO 23-30. -/
structure Route (P : Type) where
  closed : Bool
  waypoints : List (Waypoint P)

/-- RO 23-30: `traverse<2, unbounded>`. -/
def Route.read {P : Type} (closed : Bool) (waypoints : List (Waypoint P)) : Option (Route P) :=
  if waypoints.length < 2 then none else some ⟨closed, waypoints⟩

/-- RO 32-41, WP 29. -/
def Route.poses {P : Type} (r : Route P) : List P := r.waypoints.map Waypoint.position

/-! ### Vehicles and pedestrians that are not driven by Autoware -/

/-- The order in force. -/
inductive Order where
  | followLane
  | other (n : Nat)
deriving DecidableEq

/-- What is kept of an entity: whether it is on a lane, its order, the waypoints of its route planner and the
goals of its behaviour. L are positions on lanes, P positions on the map. -/
structure Npc (L P : Type) where
  onLane : Bool
  order : Order
  waypoints : List L
  goals : List P
deriving DecidableEq

variable {L P : Type}

/-- VE 178-186, PE 174-182. -/
def Npc.acquireLane (toMap : L → P) (e : Npc L P) (l : L) : Npc L P :=
  let e := { e with order := .followLane }
  let e := if e.onLane then { e with waypoints := [l] } else e
  { e with goals := [toMap l] }

/-- VE 188-200, PE 184-196: the entity after it, and whether there is an error. -/
def Npc.acquireMap (toMap : L → P) (toLane : P → Option L) (e : Npc L P) (p : P) : Npc L P × Bool :=
  let e := { e with order := .followLane }
  match toLane p with
  | some l => (e.acquireLane toMap l, false)
  | none => (e, true)

/-- VE 202-215, PE 52-65. -/
def Npc.assignLane (toMap : L → P) (e : Npc L P) (ls : List L) : Npc L P :=
  if !e.onLane then e else { e with order := .followLane, waypoints := ls, goals := ls.map toMap }

/-- VE 217-232, PE 67-81. -/
def Npc.assignMap (toMap : L → P) (toLane : P → Option L) (e : Npc L P) (ps : List P) : Npc L P × Bool :=
  match ps.mapM toLane with
  | some ls => (e.assignLane toMap ls, false)
  | none => (e, true)

end Verif.Routing
