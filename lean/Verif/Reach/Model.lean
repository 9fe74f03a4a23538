import Verif.Lanelet.Model
import Verif.Distance.Model
import Verif.Lanes.Change
/-
Where entities are: the frames of coordinates that are published, being in a lanelet with a tolerance, the end of the road and the
place a lane change is measured from.

TS = simulation/traffic_simulator, with M = TS/src/entity/entity_manager.cpp, P = TS/src/utils/pose.cpp, E = TS/src/entity/entity_base.cpp,
V = TS/src/entity/vehicle_entity.cpp, R = TS/src/utils/route.cpp.

Numbers are elements of an ordered field or rational: rounding and NaN are not modelled.
-/
namespace Verif.Reach

/-! ### Frames of coordinates -/

/-- An entity as `broadcastEntityTransform` sees it: its name, whether it is an Ego, and its pose on the map. -/
structure Body (K Q : Type) where
  name : String
  ego : Bool
  position : K × K × K
  orientation : Q
  deriving DecidableEq

/-- A pose on the map. -/
structure Pose (K Q : Type) where
  position : K × K × K
  orientation : Q
  deriving DecidableEq

variable {K Q : Type}

/-- M 244-252 `getFirstEgoName` and M 171: the pose of the first Ego in the order of the table. -/
def firstEgo (l : List (Body K Q)) : Option (Pose K Q) := (l.find? (·.ego)).map fun b => ⟨b.position, b.orientation⟩

section
variable [Field K]

/-- M 189-195: the sum of the positions, each times one over the number of entities. -/
def mean (l : List (Body K Q)) : K × K × K :=
  l.foldl (fun p b => (p.1 + b.position.1 * (1 / l.length), p.2.1 + b.position.2.1 * (1 / l.length), p.2.2 + b.position.2.2 * (1 / l.length))) (0, 0, 0)

/-- M 154-227 `broadcastEntityTransform` with `broadcastTransform`: the names of the frames that are sent, with their poses in the frame "map", and the
pose that is kept. `kept` are the two `static` variables `is_send` and `pose`, which are shared by all simulations of the process; `level` is the
default orientation. Not modelled: the time stamp. -/
def broadcast (level : Q) (kept : Option (Pose K Q)) (l : List (Body K Q)) : Option (Pose K Q) × List (String × Pose K Q) :=
  let (kept, ego) := match firstEgo l with
    | some e => let p := kept.getD e; (some p, [("ego", p)])
    | none => (kept, [])
  if l.isEmpty then (kept, ego)
  else let p := kept.getD ⟨mean l, level⟩; (some p, ego ++ [("entities", p)])

/-- Frame after frame: what is sent in each. -/
def broadcasts (level : Q) : Option (Pose K Q) → List (List (Body K Q)) → List (List (String × Pose K Q))
  | _, [] => []
  | kept, l :: ls => let r := broadcast level kept l; r.2 :: broadcasts level r.1 ls

end

/-! ### Being in a lanelet -/

section
variable [Field K] [LinearOrder K]
open Verif.Distance

/-- P 354, 362, 364-369: a distance that is found and within the tolerance. -/
def within (tolerance : K) : Option K → Bool
  | some d => decide (|d| ≤ tolerance)
  | none => false

/-- P 340-371 `isInLanelet` with a tolerance. The start and the end of the lanelet have one name each (TS/src/lanelet_wrapper/pose.cpp 255-258). Not modelled:
the exceptions for lanelets that are not in the map. -/
def inLanelet (m : Map K) (p : Place K) (id : Nat) (tolerance : K) : Bool :=
  if p.pose.id = id then true
  else
    let start : Distance.Pose K := ⟨id, 0, 0⟩
    let finish : Distance.Pose K := ⟨id, m.length id, 0⟩
    if within tolerance (longitudinal m false ⟨start, [start]⟩ p) then true
    else within tolerance (longitudinal m false p ⟨finish, [finish]⟩)

/-- E 108-122 `isInLanelet`: an entity that is on no lane is in no lanelet; if no tolerance is given it is half the width of the entity and a metre. -/
def entityInLanelet (m : Map K) (place : Option (Place K)) (width : K) (id : Nat) (tolerance : Option K) : Bool :=
  match place with
  | some p => inLanelet m p id (tolerance.getD (width * (1 / 2) + 1))
  | none => false
end

/-! ### The end of the road -/

section
open Verif.Lanelet

/-- P 378-383 `isAtEndOfLanelets`; `none` if the search for lanelets ahead does not end. -/
def atEnd (r : Road) (p : Lanelet.Pose) : Option Bool :=
  (following r p.id 100 true).map fun l => decide (l.length = 1) && decide (r.length p.id ≤ p.s)

/-- `twist.linear.x`, `accel.linear.x` and `linear_jerk` of an entity. -/
structure Motion where
  speed : Rat
  acceleration : Rat
  jerk : Rat
  deriving DecidableEq

/-- V 143-176 and TS/src/entity/pedestrian_entity.cpp 295-312 `onUpdate`: the behaviour moves the entity by `d` along the route and gives it a motion
(simulation/behavior_tree_plugin/src/action_node.cpp 425-442); at the end of the lanelets the entity is stopped (E 729-734). Not modelled: jobs. -/
def frame (r : Road) (p : Lanelet.Pose) (route : List Id) (d : Rat) (m : Motion) : Option (Lanelet.Pose × Motion) := do
  let q ← alongRoute r route p d
  let e ← atEnd r q
  return (q, if e then ⟨0, 0, 0⟩ else m)

/-- Frame after frame. -/
def frames (r : Road) : Lanelet.Pose → List (List Id × Rat × Motion) → Option (List (Lanelet.Pose × Motion))
  | _, [] => some []
  | p, (route, d, m) :: l => do
    let x ← frame r p route d m
    let xs ← frames r x.1 l
    return x :: xs

/-! ### Where a lane change is measured -/

/-- R 116-136 `laneChangeAlongLaneletPose`. The constant is TS/include/traffic_simulator/data_type/lane_change.hpp 86. -/
def changeAlong (r : Road) (p : Lanelet.Pose) (type : Lanes.Constraint) (value : Rat) : Option Along :=
  match type with
  | .none => along r p 20
  | .lateralVelocity => along r p 20
  | .longitudinalDistance => along r p value
  | .time => along r p value
end

end Verif.Reach
