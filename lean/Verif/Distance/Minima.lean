import Verif.Distance.Model
/-
The nearest stop line, entity or point: TS = /repo/simulation/traffic_simulator/src, BT = /repo/simulation/behavior_tree_plugin/src, with D = TS/utils/distance.cpp,
L = TS/lanelet_wrapper/distance.cpp, R = TS/utils/route.cpp, N = BT/action_node.cpp.

The geometry of polygons and splines is an input: where a line crosses the spline, how far a point is from it, and which angle an entity is at.
-/
namespace Verif.Distance

variable {K : Type} [Field K] [LinearOrder K]

/-- `try_min_distance`, D 391-395 and 447-451, and L 150-152, 224-226. -/
def tryMin (best : Option K) (d : K) : Option K := match best with
  | some b => if d < b then some d else best
  | none => some d

/-- A loop that tries the distances there are. -/
def least (l : List (Option K)) (best : Option K) : Option K :=
  l.foldl (fun best d => match d with | some d => tryMin best d | none => best) best

/-- `distanceToStopLine` with the lanelets of a route, L 139-157: `lines` are the distances along the spline to its stop lines, `none` where it does not cross one. -/
def distanceToStopLine (length : K) (lines : List (Option K)) : Option K := if length ≤ 0 then none else least lines none

/-- `distanceToTrafficLightStopLine` of one traffic light, L 183-197. -/
def distanceToLight (length : K) (lines : List (Option K)) : Option K := if length ≤ 0 then none else lines.findSome? id

/-- `distanceToTrafficLightStopLine` with the lanelets of a route, L 210-231: the stop lines of each of the traffic lights. -/
def distanceToLights (length : K) (lights : List (List (Option K))) : Option K :=
  if lights.isEmpty then none else least (lights.map (distanceToLight length)) none

/-- `isNeedToRightOfWay`, R 57-84. `prior` is `rightOfWayLaneletIds` and `others` are the lanelets the other entities are on. -/
def needRightOfWay (prior : Nat → List Nat) (following others : List Nat) : Bool :=
  others.any fun o => following.any fun a => (prior a).any fun b => decide (o = b) && !(prior b).contains a

/-- One round of the outer loop of `distanceToYieldStop`, D 397-414. -/
def yieldAt (m : Map K) (prior : Nat → List Nat) (p : Pose K) (others : List Nat) (a : Nat) : Option K :=
  least ((prior a).map fun b =>
    if others.contains b then
      match ahead m false p ⟨a, 0, 0⟩ with
      | some d => some d
      | none => match ahead m false ⟨a, 0, 0⟩ p with
        | some d => some (-d)
        | none => none
    else none) none

/-- `distanceToYieldStop`, D 376-420. -/
def yieldStop (m : Map K) (prior : Nat → List Nat) (p : Pose K) (following others : List Nat) : Option K :=
  following.findSome? (yieldAt m prior p others)

/-- `distanceToNearestConflictingPose`, D 422-478. `crosswalk a` is `distanceToCrosswalk`. Each other entity has the lanelet it is on, if any, and its distance along the spline. -/
def nearestConflict (onLane : Bool) (crosswalks lanes : List Nat) (crosswalk : Nat → Option K) (others : List (Option Nat × Option K)) : Option K :=
  if !onLane then none
  else
    let conflicting (ids : List Nat) := others.filter fun o => match o.1 with | some a => ids.contains a | none => false
    least ((conflicting lanes).map (·.2))
      (least ((conflicting crosswalks).map fun o => match o.1 with | some a => crosswalk a | none => none) none)

/-- What `splineDistanceToBoundingBox`, D 208-281, finds out about the target. -/
structure Target (K : Type) where
  box : Box K
  /-- the altitude is that of the spline, D 216-220 -/
  level : Bool
  /-- there is a routable pose, D 231-234, and then the longitudinal distance, D 240-243 -/
  longitudinal : Option K
  /-- `distanceToSpline`, D 256-258 -/
  aside : K
  /-- `getCollisionPointIn2D` between two places of the spline, D 268-275 -/
  crossed : K → K → Bool
  diagonal : K

/-- `splineDistanceToBoundingBox`, D 208-281. A negative `limit` stands for half of the width. -/
def splineDistance (own : Box K) (limit : K) (t : Target K) : Option K :=
  if !t.level then none
  else match boxLongitudinal own t.box t.longitudinal with
  | none => none
  | some d =>
    if d < 0 then none
    else
      let result := d + own.dx / 2
      let threshold := if limit < 0 then own.dy / 2 else limit
      if t.aside ≤ threshold then some result
      else if t.crossed d (result + t.diagonal) then some result
      else none

/-- Another entity, as `getFrontEntityName` sees it. -/
structure Other (K : Type) where
  name : String
  /-- the entry of `euclidean_distances_map_` -/
  rough : K
  /-- it is on a lane, and no more than a right angle from the heading of the entity, N 234-244 -/
  facing : Bool
  target : Target K

/-- `std::map<double, std::string>::emplace`: the entries are sorted, and nothing is changed if the key is there. -/
def emplace (x : Other K) : List (Other K) → List (Other K)
  | [] => [x]
  | y :: l => if x.rough < y.rough then x :: y :: l else if x.rough = y.rough then y :: l else y :: emplace x l

/-- N 208-222: `others` is in the order of `euclidean_distances_map_`. -/
def nearby (horizon : K) (others : List (Other K)) : List (Other K) :=
  others.foldl (fun l x => if x.rough < horizon then emplace x l else l) []

/-- N 231-259. -/
def chooseFront (own : Box K) : List (Other K) → Option (Other K × K) → Option (Other K × K)
  | [], best => best
  | x :: l, best => chooseFront own l <|
    if x.facing then match splineDistance own (-1) x.target with
      | some d => match best with
        | some (_, b) => if d < b then some (x, d) else best
        | none => some (x, d)
      | none => best
    else best

/-- `getFrontEntityName`, N 195-262. -/
def frontEntity (onLane : Bool) (own : Box K) (length stop : K) (others : List (Other K)) : Option (Other K) :=
  if !onLane then none
  else (chooseFront own (nearby (if stop < length then length else stop) others) none).map (·.1)

/-- `getDistanceToFrontEntity`, N 174-193: with the lateral collision threshold of the entity. -/
def frontDistance (onLane : Bool) (own : Box K) (limit : Option K) (length stop : K) (others : List (Other K)) : Option K :=
  match frontEntity onLane own length stop others with
  | some x => splineDistance own (limit.getD (-1)) x.target
  | none => none

/-- `detectEntityCollisions`, N 354-388: the others in the order of the hash table, with the start of the first part of the trajectory that each intersects, N 341-352. -/
def detectCollision (parts : List K) (own : String) (others : List (String × Option K)) : Option (String × K) :=
  if parts.isEmpty then none
  else others.foldl (fun best o => if own = o.1 then best else match o.2 with
    | some s => match best with
      | some (_, b) => if s < b then some (o.1, s) else best
      | none => some (o.1, s)
    | none => best) none

/-- N 341-352, `intersectsTrajectory`: the parts of the trajectory as their start and whether the entity intersects them. -/
def firstPart (parts : List (K × Bool)) : Option K := (parts.find? (·.2)).map (·.1)

/-- The loop D 506-516, with D 517: `f` is the squared distance of a point from the spline. -/
def bisect (f : K → K) (s e fs fe : K) : Option K :=
  if 1 / 20 < |s - e| then
    let mid := s + (e - s) / 2
    if fe < fs then bisect f mid e (f mid) fe else bisect f s mid fs (f mid)
  else some (min fs fe)
partial_fixpoint

/-- `distanceToSpline`, D 480-520, squared: `points` has the squared distance of each corner of the bounding box from the spline. -/
def toSpline (points : List (K → K)) (reference diagonal : K) : Option K :=
  let s := reference - diagonal / 2
  let e := reference + diagonal / 2
  match points.mapM fun f => bisect f s e (f s) (f e) with
  | some l => least (l.map some) none
  | none => none

end Verif.Distance
