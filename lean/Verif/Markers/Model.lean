import Mathlib.Algebra.Field.Basic
/-
The markers by which entities are shown to the user.
traffic_simulator/src/visualization/visualization_component.cpp,
traffic_simulator/src/entity/entity_manager.cpp.

σ is what a status says beside the name, π a pose, ω a waypoint, ο an obstacle.
Times are nanoseconds.  Simplified: colours, scales and texts are not kept, and
what is drawn is told by what it is drawn from.
-/
namespace Verif.Markers

variable {σ π ω ο : Type}

/-- EntityStatus, the name and all the rest. -/
structure Status (σ : Type) where
  name : String
  rest : σ

/-- EntityStatusWithTrajectory, one item of the message `entity/status`. -/
structure Item (σ π ω ο : Type) where
  name : String
  status : Status σ
  goals : List π
  waypoints : List ω
  obstacle : ο
  found : Bool

/-- What a marker draws; `blank` is a marker of which nothing but namespace and id is set (lines 192-195). -/
inductive Content (σ π ω ο : Type)
  | body (s : Status σ)
  | label (s : Status σ)
  | heading (s : Status σ)
  | action (s : Status σ)
  | path (s : Status σ) (w : List ω)
  | obstacle (s : Status σ) (w : List ω) (o : ο)
  | goal (s : Status σ) (p : π)
  | goalLabel (s : Status σ) (p : π) (number : Int)
  | blank

/-- Action of a marker; for ADD its content and its lifetime, none for one that has no end. -/
inductive Act (κ : Type)
  | add (c : κ) (life : Option Nat)
  | delete

/-- visualization_msgs/Marker. -/
structure Mark (κ : Type) where
  ns : String
  id : Int
  act : Act κ

/-- `rclcpp::Duration::from_seconds(0.1)`. -/
def life : Nat := 100000000

/-- visualization_component.cpp lines 147-198: the loop over the goals; `mx` is `goal_pose_max_size`
after line 148.  The ids of lines 189 and 194 are unsigned differences turned into int, which
is the difference itself as long as numbers of goals are below 2^31. -/
def goalMarks (mx : Nat) (s : Status σ) (goals : List π) : List (Mark (Content σ π ω ο)) :=
  (List.range mx).flatMap fun i =>
    match goals[i]? with
    | some p =>
      [⟨s.name, 10 + ((mx - goals.length + i : Nat) : Int), .add (.goal s p) (some life)⟩,
       ⟨s.name, 100 + ((mx - goals.length + i : Nat) : Int), .add (.goalLabel s p ((mx - goals.length + i : Nat) : Int)) (some life)⟩]
    | none =>
      [⟨s.name, 10 + ((i : Int) - ((mx : Int) - goals.length)), .delete⟩,
       ⟨s.name, 100 + ((i : Int) - ((mx : Int) - goals.length)), .add .blank none⟩]

/-- visualization_component.cpp lines 199-210: no goals. -/
def noGoalMarks (mx : Nat) (s : Status σ) : List (Mark (Content σ π ω ο)) :=
  [⟨s.name, 10 + ((mx : Int) - 1), .delete⟩, ⟨s.name, 100 + ((mx : Int) - 1), .delete⟩]

/-- visualization_component.cpp lines 212-400: body, name, arrow and action. -/
def bodyMarks (s : Status σ) : List (Mark (Content σ π ω ο)) :=
  [⟨s.name, 0, .add (.body s) (some life)⟩, ⟨s.name, 1, .add (.label s) (some life)⟩,
   ⟨s.name, 2, .add (.heading s) (some life)⟩, ⟨s.name, 3, .add (.action s) (some life)⟩]

/-- visualization_component.cpp lines 402-470: path and obstacle. -/
def pathMarks (s : Status σ) (w : List ω) (o : ο) (found : Bool) : List (Mark (Content σ π ω ο)) :=
  if w.length > 2 then
    ⟨s.name, 4, .add (.path s w) none⟩ ::
      (if found then [⟨s.name, 5, .add (.obstacle s w o) none⟩] else [⟨s.name, 5, .delete⟩])
  else [⟨s.name, 4, .delete⟩, ⟨s.name, 5, .delete⟩]

/-- `goal_pose_max_size` after an item, lines 147-148; at first it is 0 (visualization_component.hpp line 106). -/
def nextMax (mx : Nat) (x : Item σ π ω ο) : Nat :=
  if x.goals.length ≠ 0 then max mx x.goals.length else mx

/-- VisualizationComponent::generateMarker, visualization_component.cpp lines 123-470; `mx` is `goal_pose_max_size` before. -/
def generate (mx : Nat) (x : Item σ π ω ο) : List (Mark (Content σ π ω ο)) :=
  (if x.goals.length ≠ 0 then goalMarks (nextMax mx x) x.status x.goals else noGoalMarks mx x.status) ++
    bodyMarks x.status ++ pathMarks x.status x.waypoints x.obstacle x.found

/-- VisualizationComponent::generateDeleteMarker, visualization_component.cpp lines 106-121. -/
def deletions (ms : List (Mark (Content σ π ω ο))) : List (Mark (Content σ π ω ο)) :=
  ms.map fun m => ⟨m.ns, m.id, .delete⟩

/-- Members of the component: `markers_` and `goal_pose_max_size`. -/
structure Node (σ π ω ο : Type) where
  marks : List (String × List (Mark (Content σ π ω ο)))
  mx : Nat

/-- A component that has just been made. -/
def Node.new : Node σ π ω ο := ⟨[], 0⟩

/-- `markers_[name] = …`. -/
def put (marks : List (String × List (Mark (Content σ π ω ο)))) (k : String) (ms : List (Mark (Content σ π ω ο))) :
    List (String × List (Mark (Content σ π ω ο))) :=
  (k, ms) :: marks.filter (fun e => e.1 ≠ k)

/-- visualization_component.cpp lines 95-102: the loop over the message. -/
def items (n : Node σ π ω ο) : List (Item σ π ω ο) → Node σ π ω ο × List (Mark (Content σ π ω ο))
  | [] => (n, [])
  | x :: xs =>
    let ms := generate n.mx x
    let r := items ⟨put n.marks x.name ms, nextMax n.mx x⟩ xs
    (r.1, ms ++ r.2)

/-- VisualizationComponent::entityStatusCallback, visualization_component.cpp lines 73-104: the component
afterwards and the message it publishes. -/
def callback (n : Node σ π ω ο) (msg : List (Item σ π ω ο)) : Node σ π ω ο × List (Mark (Content σ π ω ο)) :=
  let names := msg.map (·.status.name)
  let gone := n.marks.filter (fun e => e.1 ∉ names)
  let r := items ⟨n.marks.filter (fun e => e.1 ∈ names), n.mx⟩ msg
  (r.1, gone.flatMap (fun e => deletions e.2) ++ r.2)

/-- What an entity knows of itself when the message is made. -/
structure Ent (σ π ω ο : Type) where
  rest : σ
  goals : List π
  waypoints : List ω
  obstacle : Option ο

/-- EntityManager::update, entity_manager.cpp lines 94-117: the message about all entities, by name.
`none` is an obstacle by default.  Simplified: a status has the name under which its entity is kept. -/
def publish (started : Bool) (none : ο) (ents : List (String × Ent σ π ω ο)) : List (Item σ π ω ο) :=
  ents.map fun (n, e) =>
    let ob := if started then e.obstacle else Option.none
    { name := n, status := ⟨n, e.rest⟩, goals := e.goals,
      waypoints := if started then e.waypoints else [],
      obstacle := ob.getD none, found := ob.isSome }

/-- A box: centre and dimensions. -/
structure Box (K : Type) where
  cx : K
  cy : K
  cz : K
  dx : K
  dy : K
  dz : K

/-- A coordinate of a corner, such as `center.x + dimensions.x * 0.5`; `true` is `+`. -/
def side {K : Type} [Field K] (c d : K) (plus : Bool) : K := if plus then c + d * (1 / 2) else c - d * (1 / 2)

/-- The corners of a box, visualization_component.cpp lines 222-260; `place` is `transformPoint(status.pose, …)`. -/
def corner {K P : Type} [Field K] (place : K → K → K → P) (b : Box K) (x y z : Bool) : P :=
  place (side b.cx b.dx x) (side b.cy b.dy y) (side b.cz b.dz z)

/-- The lines by which a box is drawn, visualization_component.cpp lines 262-308. -/
def outline {P : Type} (p : Bool → Bool → Bool → P) : List (P × P) :=
  let p0 := p true true true
  let p1 := p true true false
  let p2 := p true false true
  let p3 := p false true true
  let p4 := p true false false
  let p5 := p false true false
  let p6 := p false false true
  let p7 := p false false false
  [(p0, p3), (p3, p6), (p6, p2), (p2, p0), (p0, p1), (p3, p5), (p6, p7), (p2, p4), (p1, p5), (p5, p7), (p7, p4), (p4, p1)]

end Verif.Markers
