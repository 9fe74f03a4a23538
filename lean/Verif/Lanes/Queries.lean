import Mathlib.Algebra.Order.Field.Basic
import Mathlib.Data.List.Sort
import Verif.Lanes.Change
/-!
Questions to the map: lanelets nearby, the direction of a lane, speed limits, center lines of several lanelets, traffic lights.

LM = simulation/traffic_simulator/src/lanelet_wrapper/lanelet_map.cpp, R = simulation/traffic_simulator/src/lanelet_wrapper/route.cpp,
TL = simulation/traffic_simulator/src/lanelet_wrapper/traffic_lights.cpp.
-/

namespace Verif.Lanes

/-! ### Lanelets nearby -/

/-- A lanelet, as seen from the point asked about: how far away it is, its id and its attribute `subtype`. -/
structure Near (K : Type) where
  distance : K
  id : Id
  subtype : Option String
  deriving DecidableEq

section
variable {K : Type} [LinearOrder K]

/-- `lanelet::geometry::findNearest`: the nearest ones, from near to far. The order of lanelets that are equally near is a choice of the model. -/
def findNearest (layer : List (Near K)) (n : Nat) : List (Near K) := (layer.insertionSort fun a b => a.distance ≤ b.distance).take n

/-- `isEmptyOrBeyondThreshold`, LM 124-126 -/
def beyond (threshold : K) : List (Near K) → Bool
  | [] => true
  | e :: _ => decide (threshold < e.distance)

/-- `excludeSubtypeLanelets`, LM 128-142 -/
def exclude (subtype : String) (l : List (Near K)) : List (Near K) :=
  l.filter fun e => match e.subtype with | some s => s ≠ subtype | none => false

/-- `nearbyLaneletIds`, LM 120-167; `search_count` becomes an `unsigned`, LM 144-146. -/
def nearby (layer : List (Near K)) (threshold : K) (crosswalks : Bool) (count : Nat) : List Id :=
  let l := findNearest layer (count % 4294967296)
  if beyond threshold l then []
  else
    let l := if crosswalks then l else exclude "crosswalk" l
    if beyond threshold l then [] else (l.filter fun e => e.distance ≤ threshold).map (·.id)

/-! ### The direction of a lane -/

/-- `std::min_element`: the index of the first of the least, LM 58-64. -/
def nearestIndex : List K → Option (Nat × K)
  | [] => none
  | a :: l => match nearestIndex l with
    | none => some (0, a)
    | some (i, b) => if b < a then some (i + 1, b) else some (0, a)

/-- `laneletYaw`, LM 50-71: the two center points that the direction is taken from. `d` is the distance of a point from the one
asked about. -/
def yawPoints {P : Type} (d : P → K) (points : List P) : Except Fault (P × P) :=
  match nearestIndex (points.map d) with
  | none => .error .thrown
  | some (i, _) => match points[i]?, points[i + 1]? with
    | some p, some q => .ok (p, q)
    | _, _ => .error .range
end

/-! ### Speed limits -/

section
variable {K : Type} [Field K] [LinearOrder K]

/-- `speedLimit`, R 35-50. The limits of the lanelets are in kilometres per hour. -/
def speedLimit : List K → Except Fault K
  | [] => .error .thrown
  | a :: l => .ok ((l.map (· / (36 / 10))).foldl min (a / (36 / 10)))
end

/-! ### Several lanelets -/

/-- `std::unique`: of neighbours that are equal, the first. -/
def unique {P : Type} [DecidableEq P] : List P → List P
  | a :: b :: l => if a = b then unique (a :: l) else a :: unique (b :: l)
  | l => l
termination_by l => l.length

/-- `centerPoints` of several lanelets, LM 170-185. -/
def joined {P : Type} [DecidableEq P] (points : Id → List P) (ids : List Id) : List P :=
  if ids = [] then [] else unique (ids.flatMap points)

/-- `std::set::insert` -/
def insertId (x : Id) : List Id → List Id
  | [] => [x]
  | a :: l => if x < a then x :: a :: l else if x = a then a :: l else a :: insertId x l

/-- `nextLaneletIds` and `previousLaneletIds` of several lanelets, LM 212-220, 257-266, with `turn_direction` 236-246, 283-293. -/
def unionIds (f : Id → List Id) (ids : List Id) : List Id := ids.foldl (fun s id => (f id).foldl (fun s x => insertId x s) s) []

/-! ### Traffic lights -/

/-- A bulb: its attribute `color`, whether it has an attribute `arrow`, and where it is. -/
structure Bulb (K : Type) where
  color : Option String
  arrow : Bool
  x : K
  y : K
  z : K
  deriving DecidableEq

/-- One of `lightBulbs()` of a traffic light: the attribute `traffic_light_id` as an id, if there is one, and its bulbs. -/
structure Bulbs (K : Type) where
  light : Option Id
  bulbs : List (Bulb K)
  deriving DecidableEq

/-- One of `trafficLights()`: its attribute `height`, if there is one, and the ends of its line, if it is one. -/
structure Base (K : Type) where
  id : Id
  height : Option K
  line : Option ((K × K × K) × (K × K × K))
  deriving DecidableEq

/-- A regulatory element `AutowareTrafficLight`. -/
structure Light (K : Type) where
  groups : List (Bulbs K)
  bases : List (Base K)
  stopLine : Option (Id × List (K × K × K))
  deriving DecidableEq

section
variable {K : Type} [Field K]

/-- TL 104-109 and, the same, 73-78. -/
def assigned (id : Id) (g : Bulbs K) : Bool := g.light == some id

/-- TL 111-114 -/
def ofColor (color : String) (b : Bulb K) : Bool := b.color == some color && !b.arrow

/-- TL 116-129: the first bulb. -/
def findBulb (lights : List (Light K)) (id : Id) (color : String) : Option (Bulb K) :=
  (((lights.flatMap (·.groups)).filter (assigned id)).flatMap (·.bulbs)).find? (ofColor color)

/-- TL 137: `position_scale` -/
def scale (color : String) : K := if color = "red" then 1 / 4 else if color = "yellow" then 1 / 2 else 3 / 4

/-- TL 140-158: the position inferred from a base. -/
def inferred (id : Id) (color : String) (b : Base K) : Option (K × K × K) :=
  if b.id ≠ id then none
  else match b.line, b.height with
    | some (p, q), some h => some (p.1 * scale color + q.1 * (1 - scale color), p.2.1 * scale color + q.2.1 * (1 - scale color), p.2.2 + h / 2)
    | _, _ => none

/-- `trafficLightBulbPosition`, TL 100-163. -/
def bulbPosition (lights : List (Light K)) (id : Id) (color : String) (infer : Bool) : Option (K × K × K) :=
  match findBulb lights id color with
  | some b => some (b.x, b.y, b.z)
  | none => if infer then (lights.flatMap (·.bases)).findSome? (inferred id color) else none

/-- `toAutowareTrafficLights`, TL 70-98. -/
def lightsOf (lights : List (Light K)) (id : Id) : Except Fault (List (Light K)) :=
  let l := lights.filter fun t => t.groups.any (assigned id)
  if l = [] then .error .thrown else .ok l

/-- `trafficLightStopLineIds`, TL 165-174. -/
def stopLineIds (lights : List (Light K)) (id : Id) : Except Fault (List Id) := do
  .ok ((← lightsOf lights id).filterMap fun t => t.stopLine.map (·.1))

/-- `trafficLightStopLinesPoints`, TL 176-193. -/
def stopLinePoints (lights : List (Light K)) (id : Id) : Except Fault (List (List (K × K × K))) := do
  .ok ((← lightsOf lights id).map fun t => match t.stopLine with | some l => l.2 | none => [])

/-- `trafficLightIds`, TL 50-65, and `trafficLightIdsOnPath`, TL 235-250: the ids of the lights with bulbs among the given elements. -/
def lightIds (lights : List (Light K)) : List Id := (lights.flatMap (·.groups)).filterMap (·.light)
end
end Verif.Lanes
