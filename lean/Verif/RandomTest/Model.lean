import Mathlib.Algebra.Order.Field.Basic
/-
How the random test runner makes up its tests.

  TR = test_runner/random_test_runner/src/test_randomizer.cpp
  LU = test_runner/random_test_runner/src/lanelet_utils.cpp
  RT = test_runner/random_test_runner/src/random_test_runner.cpp
  RZ = test_runner/random_test_runner/include/random_test_runner/randomizers.hpp
  DT = test_runner/random_test_runner/include/random_test_runner/data_types.hpp
  YA = test_runner/random_test_runner/include/random_test_runner/file_interactions/yaml_test_params_saver.hpp
-/
namespace Verif.RandomTest

/-- The errors thrown on the way; `running` is a search that is not over yet, `outOfRange` and
`noTests` are undefined behaviour. -/
inductive Fault where
  | noLanelets | noRoute | tooTight | noParts | minMax | noLanelet | badGoal | badFile
  | running | outOfRange | noTests
  deriving DecidableEq, Repr

/-- A pose on a lanelet, as `constructLaneletPose(lanelet_id, s)` makes it: offset and angles are
zero (TR 157, 168). -/
structure Pose (K : Type) where
  id : Int
  s : K
  deriving DecidableEq, Repr

/-- A part of a lanelet (`LaneletPart`, include/random_test_runner/lanelet_utils.hpp). -/
structure Part (K : Type) where
  id : Int
  start : K
  stop : K
  deriving DecidableEq, Repr

/-- A point of the map. -/
structure Point (K : Type) where
  x : K
  y : K
  z : K
  deriving DecidableEq, Repr

/-- What is asked of the map (LU 50-92): ids and lengths of the lanelets, the routing graph
of vehicles, routes, the place of a pose, the pose on the opposite lane.  The geometry behind the
opposite lane (LU 91-144) is not modelled: its result is taken as it is. -/
structure Map (K : Type) where
  ids : List Int
  length : Int → K
  following : Int → List Int
  previous : Int → List Int
  besides : Int → List Int
  opposite : Pose K → Option (Pose K)
  route : Int → Int → List Int
  place : Pose K → Point K
  sqrt : K → K

/-- The random engine (RZ 24-58, `std::mt19937`): a state, an index below `n` and a number of
`[0, 1)`, and the state of an engine that has just been given a seed. -/
structure Engine (K σ : Type) where
  seeded : Int → σ
  index : σ → Nat → Nat × σ
  unit : σ → K × σ

/-- The parameters of a test suite (`TestSuiteParameters`, DT 66-81). -/
structure Suite (K : Type) where
  name : String
  map : String
  goalId : Int
  goalS : K
  partialGoal : Bool
  partialDistance : K
  npcs : Int
  minSpeed : K
  maxSpeed : K
  minDistance : K
  maxDistance : K
  deriving DecidableEq, Repr

/-- A vehicle besides the ego (`NPCDescription`, DT 29-34). -/
structure Npc (K : Type) where
  start : Pose K
  speed : K
  name : String
  deriving DecidableEq, Repr

/-- A test (`TestDescription`, DT 36-43). -/
structure Test (K : Type) where
  goal : Pose K
  goalPlace : Point K
  start : Pose K
  npcs : List (Npc K)
  deriving DecidableEq, Repr

/-! ### Lanelets within a distance -/

/-- `SearchDirection` (LU 146). -/
inductive Direction where
  | forward | backward
  deriving DecidableEq, Repr

/-- A lanelet that is still to be looked at (`LaneletPartForRouting`, LU 148-175). -/
structure Item (K : Type) where
  id : Int
  lo : K
  hi : K
  direction : Direction
  s : K
  deriving DecidableEq, Repr

section
variable {K : Type} [Field K] [LinearOrder K]

/-- The part of a lanelet that an item stands for, if there is one (LU 223-226, 245-247, 251-254,
273-275). -/
def Item.part (m : Map K) (i : Item K) : Option (Part K) :=
  match i.direction with
  | .forward =>
    let stop := if i.s + i.hi > m.length i.id then m.length i.id else i.s + i.hi
    if i.s + i.lo < m.length i.id then some ⟨i.id, i.s + i.lo, stop⟩ else none
  | .backward =>
    let start := if i.s - i.hi < 0 then 0 else i.s - i.hi
    if i.s - i.lo > 0 then some ⟨i.id, start, i.s - i.lo⟩ else none

/-- The lanelets to look at after this one (LU 226-243, 254-271). -/
def Item.next (m : Map K) (i : Item K) : List (Item K) :=
  match i.direction with
  | .forward =>
    if i.s + i.hi > m.length i.id then
      let rest := m.length i.id - i.s
      (m.following i.id).map (fun j => ⟨j, max 0 (i.lo - rest), max 0 (i.hi - rest), .forward, 0⟩)
    else []
  | .backward =>
    if i.s - i.hi < 0 then
      (m.previous i.id).map
        (fun j => ⟨j, max 0 (i.lo - i.s), max 0 (i.hi - i.s), .backward, m.length j⟩)
    else []

/-- `std::multimap::emplace`: behind those with the same key (LU 246, 274). -/
def insert (p : Part K) : List (Part K) → List (Part K)
  | [] => [p]
  | q :: l => if p.id < q.id then p :: q :: l else q :: insert p l

/-- The loop over the queue of lanelets (LU 218-282), for at most `fuel` rounds. -/
def search (m : Map K) : Nat → List (Item K) → List (Part K) → Except Fault (List (Part K))
  | _, [], found => .ok found
  | 0, _ :: _, _ => .error .running
  | fuel + 1, i :: queue, found =>
    search m fuel (queue ++ i.next m) ((i.part m).elim found (fun p => insert p found))

/-- Both directions from a pose (LU 190-193, 200-205, 213-215). -/
def both (lo hi : K) (p : Pose K) : List (Item K) :=
  [⟨p.id, lo, hi, .forward, p.s⟩, ⟨p.id, lo, hi, .backward, p.s⟩]

/-- The poses a search starts from: the pose, the one on the opposite lane, and those on the lanes
besides with the same distance from the beginning of the lanelet (LU 189-216). -/
def origins (m : Map K) (p : Pose K) : List (Pose K) :=
  p :: ((m.opposite p).toList ++
    ((m.besides p.id).filter (fun j => decide (j ≠ p.id))).map (fun j => ⟨j, p.s⟩))

/-- `LaneletUtils::getLanesWithinDistance` (LU 177-291). -/
def lanesWithin (m : Map K) (fuel : Nat) (p : Pose K) (lo hi : K) : Except Fault (List (Part K)) :=
  if hi < lo then .error .minMax
  else if p.id ∈ m.ids then search m fuel ((origins m p).flatMap (both lo hi)) []
  else .error .noLanelet

/-! ### Random poses -/

variable {σ : Type}

/-- `UniformRandomizer::generate` with bounds (RZ 41-47). -/
def uniform (e : Engine K σ) (lo hi : K) (g : σ) : K × σ :=
  ((e.unit g).1 * (hi - lo) + lo, (e.unit g).2)

/-- `TestRandomizer::generateRandomPosition` (TR 139-147, 154-158). -/
def randomPosition (m : Map K) (e : Engine K σ) (g : σ) : Except Fault (Pose K × σ) :=
  match m.ids[(e.index g m.ids.length).1]? with
  | none => .error .outOfRange
  | some id =>
    let u := uniform e 0 1 (e.index g m.ids.length).2
    .ok (⟨id, m.length id * u.1⟩, u.2)

/-- `TestRandomizer::generatePoseFromLanelets` (TR 149-152, 160-170). -/
def poseFrom (e : Engine K σ) (parts : List (Part K)) (g : σ) : Except Fault (Pose K × σ) :=
  if parts.isEmpty then .error .noParts
  else
    match parts[(e.index g parts.length).1]? with
    | none => .error .outOfRange
    | some part =>
      let u := uniform e 0 1 (e.index g parts.length).2
      .ok (⟨part.id, part.start + (part.stop - part.start) * u.1⟩, u.2)

/-- `TestRandomizer::isFeasibleRoute` (TR 125-137). -/
def feasible (m : Map K) (start goal : Pose K) : Bool :=
  (start.id = goal.id ∧ start.s < goal.s) || !(m.route start.id goal.id).isEmpty ||
    (m.opposite goal).any (fun o => !(m.route start.id o.id).isEmpty)

/-- The goal of one attempt (TR 77-90). -/
def goalPose (m : Map K) (e : Engine K σ) (fuel : Nat) (p : Suite K) (g : σ) : Except Fault (Pose K × σ) :=
  if p.goalId < 0 then randomPosition m e g
  else if p.partialGoal then do
    let parts ← lanesWithin m fuel ⟨p.goalId, p.goalS⟩ 0 p.partialDistance
    poseFrom e parts g
  else .ok (⟨p.goalId, p.goalS⟩, g)

/-- `TestRandomizer::generateEgoRoute` with so many attempts left (TR 69-100): start and goal. -/
def egoRoute (m : Map K) (e : Engine K σ) (fuel : Nat) (p : Suite K) :
    Nat → σ → Except Fault ((Pose K × Pose K) × σ)
  | 0, _ => .error .noRoute
  | n + 1, g => do
    let goal ← goalPose m e fuel p g
    let start ← randomPosition m e goal.2
    if feasible m start.1 goal.1 then .ok ((start.1, goal.1), start.2)
    else egoRoute m e fuel p n start.2

/-- `LaneletUtils::computeDistance` (LU 73-84). -/
def distance (sqrt : K → K) (p q : Point K) : K :=
  sqrt ((p.x - q.x) * (p.x - q.x) + (p.y - q.y) * (p.y - q.y) + (p.z - q.z) * (p.z - q.z))

/-- The smallest distance from poses (TR 111-115); none stands for the largest number there is. -/
def nearest (m : Map K) (poses : List (Pose K)) (q : Pose K) : Option K :=
  poses.foldl (fun acc p =>
    let d := distance m.sqrt (m.place p) (m.place q)
    some (acc.elim d (min d))) none

/-- `TestRandomizer::generateRandomPoseWithinMinDistanceFromPosesFromLanelets` with so many attempts
left (TR 101-123). -/
def poseApart (m : Map K) (e : Engine K σ) (poses : List (Pose K)) (apart : K) (parts : List (Part K)) :
    Nat → σ → Except Fault (Pose K × σ)
  | 0, _ => .error .tooTight
  | n + 1, g => do
    let q ← poseFrom e parts g
    if poses.isEmpty then .ok q
    else if (nearest m poses q.1).all (fun d => decide (d > apart)) then .ok q
    else poseApart m e poses apart parts n q.2

/-- `max_randomization_attempts`, `min_npc_distance` (TR 24-25). -/
def attempts : Nat := 100
def npcDistance : K := 5

/-- `TestRandomizer::generateNpcFromLaneletsWithMinDistanceFromPoses` (TR 172-181). -/
def npc (m : Map K) (e : Engine K σ) (p : Suite K) (poses : List (Pose K)) (parts : List (Part K)) (n : Nat)
    (g : σ) : Except Fault (Npc K × σ) := do
  let q ← poseApart m e poses npcDistance parts attempts g
  let v := uniform e p.minSpeed p.maxSpeed q.2
  .ok (⟨q.1, v.1, "npc" ++ toString n⟩, v.2)

/-- The loop over the vehicles (TR 61-65): `n` more of them. -/
def npcLoop (m : Map K) (e : Engine K σ) (p : Suite K) (parts : List (Part K)) :
    Nat → List (Npc K) → σ → Except Fault (List (Npc K))
  | 0, done, _ => .ok done
  | n + 1, done, g => do
    let v ← npc m e p (done.map (·.start)) parts done.length g
    npcLoop m e p parts n (done ++ [v.1]) v.2

/-- `TestRandomizer::generate` with an engine that has been given this seed (TR 27-67). -/
def generate (m : Map K) (e : Engine K σ) (fuel : Nat) (p : Suite K) (seed : Int) : Except Fault (Test K) := do
  if m.ids.isEmpty then .error .noLanelets
  let r ← egoRoute m e fuel p attempts (e.seeded seed)
  let parts ← lanesWithin m fuel r.1.1 p.minDistance p.maxDistance
  let npcs ← npcLoop m e p parts p.npcs.toNat [] r.2
  .ok ⟨r.1.2, m.place r.1.2, r.1.1, npcs⟩

/-! ### The file of parameters -/

/-- A scalar of the file: its text is read as what it was written from. -/
inductive Scalar (K : Type) where
  | text : String → Scalar K
  | real : K → Scalar K
  | int : Int → Scalar K
  | bool : Bool → Scalar K
  deriving DecidableEq, Repr

/-- A test suite in the file: scalars by key, and the test cases. -/
structure Node (K : Type) where
  scalars : List (String × Scalar K)
  cases : List (List (String × Scalar K))
  deriving DecidableEq, Repr

/-- The file: suites by key. -/
abbrev File (K : Type) := List (String × Node K)

/-- `convert<TestSuiteParameters>::encode` (YA 34-49). -/
def encode (p : Suite K) : List (String × Scalar K) :=
  [("test_name", .text p.name), ("map_name", .text p.map), ("ego_goal_s", .real p.goalS),
   ("ego_goal_lanelet_id", .int p.goalId), ("ego_goal_partial_randomization", .bool p.partialGoal),
   ("ego_goal_partial_randomization_distance", .real p.partialDistance), ("npc_count", .int p.npcs),
   ("npc_min_speed", .real p.minSpeed), ("npc_max_speed", .real p.maxSpeed),
   ("npc_min_spawn_distance_from_ego", .real p.minDistance),
   ("npc_max_spawn_distance_from_ego", .real p.maxDistance)]

/-- `node[key].as<T>()`: throws without such a key or with a value of another kind. -/
def text (l : List (String × Scalar K)) (key : String) : Except Fault String :=
  match l.lookup key with | some (.text x) => .ok x | _ => .error .badFile
def real (l : List (String × Scalar K)) (key : String) : Except Fault K :=
  match l.lookup key with | some (.real x) => .ok x | _ => .error .badFile
def int (l : List (String × Scalar K)) (key : String) : Except Fault Int :=
  match l.lookup key with | some (.int x) => .ok x | _ => .error .badFile
def bool (l : List (String × Scalar K)) (key : String) : Except Fault Bool :=
  match l.lookup key with | some (.bool x) => .ok x | _ => .error .badFile

/-- `convert<TestSuiteParameters>::decode` (YA 51-71). -/
def decode (l : List (String × Scalar K)) : Except Fault (Suite K) := do
  let name ← text l "test_name"
  let map ← text l "map_name"
  let goalS ← real l "ego_goal_s"
  let goalId ← int l "ego_goal_lanelet_id"
  let partialGoal ← bool l "ego_goal_partial_randomization"
  let partialDistance ← real l "ego_goal_partial_randomization_distance"
  let npcs ← int l "npc_count"
  let minSpeed ← real l "npc_min_speed"
  let maxSpeed ← real l "npc_max_speed"
  let minDistance ← real l "npc_min_spawn_distance_from_ego"
  let maxDistance ← real l "npc_max_spawn_distance_from_ego"
  .ok { name, map, goalId, goalS, partialGoal, partialDistance, npcs, minSpeed, maxSpeed, minDistance,
        maxDistance }

/-- The file that is written (YA 103-120; RT 92-112): one suite, and the seeds of its tests in
order. -/
def save (p : Suite K) (seeds : List Int) : File K :=
  [(p.name, ⟨encode p, seeds.map (fun n => [("seed", .int n)])⟩)]

/-- `YamlTestParamsIO::read` (YA 122-143). -/
def load (f : File K) : Except Fault (Suite K × List Int) :=
  match f with
  | [(_, n)] => do
    let p ← decode n.scalars
    let seeds ← n.cases.mapM (fun l => int l "seed")
    .ok (p, seeds)
  | _ => .error .badFile

/-! ### The runner makes its tests -/

/-- The seeds of a random run (RT 49-60): the given one for each test, or, if it is negative, one of
the random device for each. -/
def seeds (count : Int) (seed : Int) (device : Nat → Nat) : List Int :=
  (List.range count.toNat).map (fun i => if seed < 0 then (device i : Int) else seed)

/-- `RandomTestRunner::validateParameters` (RT 174-197). -/
def validate (m : Map K) (p : Suite K) : Except Fault (Suite K) :=
  if p.goalId = -1 then .ok p
  else if p.goalId ∈ m.ids then
    if 0 ≤ p.goalS ∧ p.goalS ≤ m.length p.goalId then .ok p else .error .badGoal
  else .error .badGoal

/-- What a runner has when its first test starts: the tests, and the file it has written. -/
structure Prepared (K : Type) where
  tests : List (Test K)
  file : File K
  deriving DecidableEq, Repr

/-- The constructor of the runner (RT 33-115): all tests are made before the first one runs, and the
file is written; an error of one of them ends the runner.  Without any test it goes on with an
executor that does not exist. -/
def prepare (maps : String → Map K) (e : Engine K σ) (fuel : Nat) (p : Suite K) (seeds : List Int) :
    Except Fault (Prepared K) := do
  let q ← validate (maps p.map) p
  let tests ← seeds.mapM (generate (maps p.map) e fuel q)
  if tests.isEmpty then .error .noTests
  else .ok ⟨tests, save q seeds⟩

/-- A run with parameters (RT 48-60). -/
def randomRun (maps : String → Map K) (e : Engine K σ) (fuel : Nat) (p : Suite K) (count seed : Int)
    (device : Nat → Nat) : Except Fault (Prepared K) :=
  prepare maps e fuel p (seeds count seed device)

/-- A run with a file that has been written before (RT 61-64). -/
def replay (maps : String → Map K) (e : Engine K σ) (fuel : Nat) (f : File K) : Except Fault (Prepared K) := do
  let r ← load f
  prepare maps e fuel r.1 r.2

end
end Verif.RandomTest
