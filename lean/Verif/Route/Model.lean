import Verif.Lanelet.Model
/-
Model of the route planner of an entity.

F = simulation/traffic_simulator/src/behavior/route_planner.cpp.

Shortest routes on a routing graph are given by a function; a pair without a route gives the empty list, as
simulation/traffic_simulator/include/traffic_simulator/lanelet_wrapper/lanelet_wrapper.hpp 74-100 does.
-/
namespace Verif.Route
open Verif.Lanelet

/-- simulation/traffic_simulator/include/traffic_simulator/data_type/routing_graph_type.hpp -/
inductive Graph | vehicle | pedestrian | vehicleWithRoadShoulder
  deriving DecidableEq

/-- `routeFromGraph` -/
abbrev Routes := Graph → Id → Id → List Id

/-- The members of `RoutePlanner`. -/
structure Planner where
  graph : Graph
  route : Option (List Id)
  queue : List Pose
  whole : List Id
  deriving DecidableEq

/-- F 20-23 -/
def create (g : Graph) : Planner := ⟨g, none, [], []⟩

/-- F 30-38: the list of lanelets without repetitions. -/
def wholeOf : List Pose → List Id → List Id
  | [], acc => acc
  | w :: l, acc => wholeOf l (if acc.getLast? = some w.id then acc else acc ++ [w.id])

/-- F 25-39 `setWaypoints` -/
def setWaypoints (p : Planner) (ws : List Pose) : Planner := { p with queue := ws, whole := wholeOf ws [] }

/-- F 66-70 -/
def cancelRoute (p : Planner) : Planner := { p with queue := [], route := none }

/-- F 72-86: the queue after its loop. -/
def dropHere (e : Pose) : List Pose → List Pose
  | [] => []
  | w :: l => if w.id = e.id then dropHere e l else w :: l

/-- F 72-86 `cancelWaypoint` -/
def cancelWaypoint (p : Planner) (e : Pose) : Planner :=
  match dropHere e p.queue with
  | [] => cancelRoute p
  | q => { p with queue := q }

/-- simulation/traffic_simulator/include/traffic_simulator/data_type/lanelet_pose.hpp 66-77 `<=` -/
def reached (w e : Pose) : Bool := decide (w.id = e.id ∧ w.s ≤ e.s)

/-- F 106-136 `updateRoute` with its `static` configuration, which the first call of all planners of the process fixes. -/
def updateRoute (routes : Routes) (config : Option Graph) (p : Planner) (e : Pose) : Option Graph × Planner :=
  match p.queue with
  | [] => (config, p)
  | w :: _ =>
    let p := if reached w e then cancelWaypoint p e else p
    match p.queue with
    | [] => (config, cancelRoute p)
    | w :: _ =>
      let g := config.getD p.graph
      match p.route with
      | none => (some g, { p with route := some (routes g e.id w.id) })
      | some r => if e.id ∈ r then (some g, p) else (some g, { p with route := some (routes g e.id w.id) })

/-- F 40-64 `getRouteLanelets`. The result is the route that is followed from the lanelet of the entity, or `none` for the
road ahead without a route; Verif.Lanelet `followingRoute` and `following` yield the lanelets. -/
def getRouteLanelets (routes : Routes) (config : Option Graph) (p : Planner) (e : Pose) : Option Graph × Planner × Option (List Id) :=
  let (config, p) := updateRoute routes config p e
  match p.route with
  | none => (config, p, none)
  | some r => if e.id ∈ r then (config, p, some r) else (config, cancelWaypoint p e, none)

/-- The calls an entity makes. -/
inductive Op
  | setWaypoints (ws : List Pose)
  | getRouteLanelets (e : Pose)
  | cancelRoute
  deriving DecidableEq

def apply (routes : Routes) (x : Option Graph × Planner) : Op → Option Graph × Planner
  | .setWaypoints ws => (x.1, setWaypoints x.2 ws)
  | .getRouteLanelets e => let y := getRouteLanelets routes x.1 x.2 e; (y.1, y.2.1)
  | .cancelRoute => (x.1, cancelRoute x.2)

/-- A history of calls of one planner. -/
def run (routes : Routes) (x : Option Graph × Planner) : List Op → Option Graph × Planner
  | [] => x
  | o :: l => run routes (apply routes x o) l

/-- simulation/traffic_simulator/src/data_type/lanelet_pose.cpp 69-88
`getAlternativeLaneletPoseBaseOnShortestRouteFrom`: of the alternatives the first with the fewest lanelets on the way. -/
def shortestAlternative (size : Id → Nat) : List Pose → Option Pose
  | [] => none
  | p :: l => some ((p :: l).foldl (fun best q => if size q.id < size best.id then q else best) p)

end Verif.Route
