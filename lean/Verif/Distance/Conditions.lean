import Verif.Distance.Model
import Verif.Parameter.Model
import Mathlib.Algebra.Order.Ring.Rat
import Verif.Condition.Watch
/-
Conditions on distances: OS = /repo/openscenario/openscenario_interpreter/src/syntax, OH = /repo/openscenario/openscenario_interpreter/include/openscenario_interpreter, with
DC = OS/distance_condition.cpp, RD = OS/relative_distance_condition.cpp, RC = OS/relative_clearance_condition.cpp, RL = OS/relative_lane_range.cpp,
TC = OH/syntax/time_to_collision_condition.hpp and SC = OH/simulator_core.hpp.

Entities are single objects; selections of entities are in `Verif.Parameter`. The sign of zero is not modelled.
-/
namespace Verif.Distance

open Verif.Parameter (Dbl Rule)
open Verif.Condition (EntitiesRule)

/-- OH/syntax/coordinate_system.hpp -/
inductive Coordinate | entity | lane | road | trajectory
  deriving DecidableEq

/-- OH/syntax/relative_distance_type.hpp -/
inductive Kind | longitudinal | lateral | euclidean
  deriving DecidableEq

/-- OH/syntax/routing_algorithm.hpp -/
inductive Routing | assignedRoute | fastest | leastIntersections | shortest | undefined
  deriving DecidableEq

/-- What is measured between an entity and an entity or a position, SC 109-265: the relative position (`none` is not a number), that of the bounding boxes, and
the relative lanelet poses, without or with lane changes. -/
structure Sight where
  world : Option (ℚ × ℚ × ℚ)
  boxWorld : Option (ℚ × ℚ × ℚ)
  lane : Bool → Relative ℚ
  boxLane : Bool → Relative ℚ

/-- A number or not a number. -/
def num : Option ℚ → Dbl
  | some x => .fin x
  | none => .nan

/-- `std::abs` -/
def absolute (x : Option ℚ) : Dbl := num (x.map (|·|))

/-- `math::geometry::hypot` of a position. -/
def norm (hypot : ℚ → ℚ → ℚ → ℚ) (x : Option (ℚ × ℚ × ℚ)) : Dbl := num (x.map fun p => hypot p.1 p.2.1 p.2.2)

/-- SC 182-187 and 229-234: lane changes are allowed for `shortest`. -/
def Sight.relative (s : Sight) (free change : Bool) : Relative ℚ := if free then s.boxLane change else s.lane change
/-- SC 109-147 and 237-265. -/
def Sight.position (s : Sight) (free : Bool) : Option (ℚ × ℚ × ℚ) := if free then s.boxWorld else s.world

/-- `RelativeDistanceCondition::distance`, RD 67-258; `none` is the exception of the primary template, OH/syntax/relative_distance_condition.hpp. -/
def relativeDistance (hypot : ℚ → ℚ → ℚ → ℚ) (s : Sight) (c : Coordinate) (k : Kind) (r : Routing) (free : Bool) : Option Dbl := match c, k, r with
  | .entity, .longitudinal, .undefined => some (absolute ((s.position free).map (·.1)))
  | .entity, .lateral, .undefined => some (absolute ((s.position free).map (·.2.1)))
  | .entity, .euclidean, .undefined => some (norm hypot (s.position free))
  | .lane, .lateral, .undefined => some (num (s.relative free false).offset)
  | .lane, .longitudinal, .undefined => some (num (s.relative free false).s)
  | .lane, .lateral, .shortest => some (absolute (s.relative free true).offset)
  | .lane, .longitudinal, .shortest => some (absolute (s.relative free true).s)
  | _, _, _ => none

/-- `DistanceCondition::distance`, DC 144-610. -/
def distance (hypot : ℚ → ℚ → ℚ → ℚ) (s : Sight) (c : Coordinate) (k : Kind) (r : Routing) (free : Bool) : Option Dbl := match c, k, r with
  | .entity, .euclidean, .undefined => some (norm hypot (s.position free))
  | .entity, .lateral, .undefined => some (num ((s.position free).map (·.2.1)))
  | .entity, .longitudinal, .undefined => some (num ((s.position free).map (·.1)))
  | .lane, .lateral, .undefined => some (num (s.relative free false).offset)
  | .lane, .longitudinal, .undefined => some (num (s.relative free false).s)
  | .lane, .lateral, .shortest => some (absolute (s.relative free true).offset)
  | .lane, .longitudinal, .shortest => some (absolute (s.relative free true).s)
  | _, _, _ => none

/-- DC 51-56 and RD 45-50: what can be constructed. -/
def constructible (r : Routing) : Bool := r = .shortest ∨ r = .undefined

/-- `RelativeDistanceCondition::evaluate`, RD 319-330, and `DistanceCondition::evaluate`, DC 131-142: `added` says whether the triggering entity, and the reference entity if
there is one, are in the simulation. -/
def measure (added : Bool) (d : Option Dbl) : Option Dbl := if added then d else some .nan

/-- RD 332-344 and DC 612-624 for triggering entities that are single objects: `d` is the measurement of each. If one throws, so does the evaluation; the entities after the
one that decides are not measured. -/
def conditionMet {α : Type} (rule : EntitiesRule) (d : α → Option Dbl) (cmp : Rule) (value : Dbl) (l : List α) : Option Bool :=
  let r := rule.apply (fun x => match d x with
    | some y => cmp.measured y value
    | none => match rule with
      | .all => false
      | _ => true) l
  if r.2.all fun x => (d x).isSome then some r.1 else none

/-- `RelativeLaneRange`, RL 22-31. -/
structure LaneRange where
  from? : Option Int
  to? : Option Int

def LaneRange.evaluate (r : LaneRange) (x : Int) : Bool :=
  (match r.from? with | some a => decide (a ≤ x) | none => true) && (match r.to? with | some b => decide (x ≤ b) | none => true)

/-- `RelativeClearanceCondition`, RC 29-40. `oppositeLanes` is not used. -/
structure Clearance where
  backward : ℚ
  forward : ℚ
  free : Bool
  ranges : List LaneRange

/-- What one entity sees of another: `lanes` is the number of lanes to the left, `none` if there is no route, SC 267-290. -/
structure Neighbour where
  lanes : Option Int
  sight : Sight

/-- RC 85-141: the entity is in the range. `back` says whether the triggering entity faces against its lane. -/
def Clearance.inRange (c : Clearance) (back : Bool) (n : Neighbour) : Bool :=
  let lat := if c.ranges.isEmpty then true
    else match n.lanes with
      | some x => c.ranges.any fun r => r.evaluate (if back then -x else x)
      | none => false
  let lon := match (n.sight.relative c.free true).s with
    | some x =>
      let x := if back then -x else x
      if x < 0 then decide (|x| ≤ c.backward) else decide (x ≤ c.forward)
    | none => false
  lat && lon

/-- The entities of a scenario: the names of the objects and whether they are in the simulation, in the order of the map of entities. -/
structure Scene where
  objects : List (String × Bool)
  back : String → Bool
  see : String → String → Neighbour

/-- RC 143-203. `refs` are the objects of the entity references. Without references, an object is left out if it is one of the triggering entities that
`triggering_entities.apply`, RC 182-189, comes to with a predicate that is always true. -/
def Clearance.evaluate (c : Clearance) (w : Scene) (rule : EntitiesRule) (triggering refs : List String) : Bool :=
  (rule.apply (fun t =>
    if !refs.isEmpty then refs.all fun n => !c.inRange (w.back t) (w.see t n)
    else w.objects.all fun o =>
      if !o.2 then true
      else if (rule.apply (fun _ => true) triggering).2.contains o.1 then true
      else !c.inRange (w.back t) (w.see t o.1)) triggering).1

/-- `std::max(x, 0.0)`, TC 166. -/
def max0 : Dbl → Dbl
  | .fin x => .fin (if x < 0 then 0 else x)
  | .inf p => if p then .inf true else .fin 0
  | .nan => .nan

/-- Division, with a zero without sign. -/
def div : Dbl → Dbl → Dbl
  | .fin x, .fin y => if y = 0 then (if x = 0 then .nan else .inf (decide (0 < x))) else .fin (x / y)
  | .fin _, .inf _ => .fin 0
  | .inf p, .fin y => if y = 0 then .inf p else .inf (p == decide (0 < y))
  | _, _ => .nan

/-- The component of a velocity, TC 145-163, OS/relative_speed_condition.cpp 78-95, OS/speed_condition.cpp 59-83 with `Compatibility::standard`. -/
def component (hypot : ℚ → ℚ → ℚ → ℚ) (v : Option (ℚ × ℚ × ℚ)) : Kind → Dbl
  | .longitudinal => num (v.map (·.1))
  | .lateral => num (v.map (·.2.1))
  | .euclidean => norm hypot v

/-- `TimeToCollisionCondition::evaluate` to an entity, TC 126-167: `v` is the velocity of the triggering entity minus that of the reference entity, in the frame of
the reference entity, SC 578-598. -/
def timeToEntity (hypot : ℚ → ℚ → ℚ → ℚ) (added : Bool) (s : Sight) (v : Option (ℚ × ℚ × ℚ)) (c : Coordinate) (k : Kind) (r : Routing) (free : Bool) : Option Dbl :=
  (measure added (relativeDistance hypot s c k r free)).map fun d => div d (max0 (if added then component hypot v k else .nan))

/-- The same to a position: `v` is the velocity of the triggering entity in its own frame, SC 610-622. -/
def timeToPosition (hypot : ℚ → ℚ → ℚ → ℚ) (added : Bool) (s : Sight) (v : ℚ × ℚ × ℚ) (c : Coordinate) (k : Kind) (r : Routing) (free : Bool) : Option Dbl :=
  (measure added (distance hypot s c k r free)).map fun d => div d (max0 (if added then component hypot (some v) k else .nan))

end Verif.Distance
