/-
Behaviour trees of entities: /repo/simulation/behavior_tree_plugin, below P, with P/src/vehicle/behavior_tree.cpp called VB, P/src/pedestrian/behavior_tree.cpp called PB,
P/config/vehicle_entity_behavior.xml called VX and P/config/pedestrian_entity_behavior.xml called PX.

The nodes themselves are those of the library BehaviorTree.CPP, version 3, which is not in /repo: its `Fallback` ticks its children from the one that was running last.
-/
namespace Verif.Behavior

/-- `BT::NodeStatus` -/
inductive Status where
  | idle
  | running
  | success
  | failure
  deriving DecidableEq

/-- `traffic_simulator::behavior::Request`, /repo/simulation/traffic_simulator/include/traffic_simulator/data_type/behavior.hpp, lines 26-32. -/
inductive Request where
  | none
  | laneChange
  | followLane
  | followTrajectory
  | walkStraight
  deriving DecidableEq

/-- The nodes of both trees, VX and PX. -/
inductive Node where
  | root
  | laneChange
  | trajectorySequence
  | followTrajectory
  | laneSequence
  | followLane
  | selector
  | front
  | light
  | stopLine
  | crossing
  | yield
  | backward
  | walkStraight
  deriving DecidableEq

/-- An action may throw or have undefined behaviour. -/
inductive Fault where
  | thrown
  | undefined
  deriving DecidableEq

/-- `getRequestString`, /repo/simulation/traffic_simulator/src/data_type/behavior.cpp, lines 38-55, as the node of that name; the name `none` is that of no node. -/
def Request.node : Request → Option Node
  | .none => .none
  | .laneChange => some .laneChange
  | .followLane => some .followLane
  | .followTrajectory => some .followTrajectory
  | .walkStraight => some .walkStraight

/-- Assignment to the variable of one node. -/
def set {α : Type} (f : Node → α) (n : Node) (a : α) : Node → α := fun k => if k = n then a else f k

/-- The blackboard as far as it is written by the tree, and the state of the nodes: the entity, the request, `current_action_` (its initial value `"none"` is no node), the
status of each node, and `current_child_idx_` of each `Fallback`. -/
structure World (E : Type) where
  entity : E
  request : Request
  current : Option Node
  status : Node → Status
  index : Node → Nat

/-- The state after `configure`, VB 36-63. -/
def World.init {E : Type} (e : E) : World E := ⟨e, .none, .none, fun _ => .idle, fun _ => 0⟩

/-- The callbacks of `LoggingEvent` and `ResetRequestEvent`, P/src/transition_events/transition_event.cpp, lines 41-46, and reset_request_event.cpp, lines 31-41.
Both keep the name of the current action in the same way. -/
def World.event {E : Type} (n : Node) (s : Status) (w : World E) : World E :=
  let w := if s ≠ .success then { w with current := some n } else w
  if (s = .success ∨ s = .failure) ∧ w.request.node = w.current then { w with request := .none } else w

/-- `TreeNode::setStatus` (BehaviorTree.CPP): a change is announced, and the subscriber ignores changes to `IDLE`, transition_event.cpp, lines 21-39. -/
def World.setStatus {E : Type} (n : Node) (s : Status) (w : World E) : World E :=
  let w' := { w with status := set w.status n s }
  if w.status n ≠ s ∧ s ≠ .idle then w'.event n s else w'

abbrev Tick (E : Type) : Type := World E → Except Fault (Status × World E)

/-- What an action does with the entity, given the request. -/
abbrev Act (E : Type) : Type := Request → E → Except Fault (Status × E)

/-- `executeTick` of an action, P/src/action_node.cpp, lines 55-64. -/
def leaf {E : Type} (n : Node) (act : Act E) : Tick E := fun w =>
  match act w.request w.entity with
  | .error f => .error f
  | .ok (s, e) => .ok (s, { w with entity := e }.setStatus n s)

/-- `haltChildren` and `current_child_idx_ = 0` (BehaviorTree.CPP). -/
def World.halt {E : Type} (n : Node) (kids : List Node) (w : World E) : World E :=
  { w with index := set w.index n 0, status := fun k => if k ∈ kids then .idle else w.status k }

/-- The loop of `FallbackNode::tick` (BehaviorTree.CPP) over the children that are left. -/
def tryKids {E : Type} (n : Node) (names : List Node) : List (Tick E) → Tick E
  | [], w => .ok (.failure, w.halt n names)
  | k :: ks, w => match k w with
    | .error f => .error f
    | .ok (.running, w) => .ok (.running, w)
    | .ok (.success, w) => .ok (.success, w.halt n names)
    | .ok (.failure, w) => tryKids n names ks { w with index := set w.index n (w.index n + 1) }
    | .ok (.idle, _) => .error .thrown

/-- `executeTick` of a `Fallback` (BehaviorTree.CPP). -/
def fallback {E : Type} (n : Node) (kids : List (Node × Tick E)) : Tick E := fun w =>
  let w := w.setStatus n .running
  match tryKids n (kids.map (·.1)) ((kids.map (·.2)).drop (w.index n)) w with
  | .error f => .error f
  | .ok (s, w) => .ok (s, w.setStatus n s)

/-- The tree of vehicles, VX. -/
def vehicleTree {E : Type} (act : Node → Act E) : Tick E :=
  fallback .root [
    (.laneChange, leaf .laneChange (act .laneChange)),
    (.trajectorySequence, fallback .trajectorySequence [(.followTrajectory, leaf .followTrajectory (act .followTrajectory))]),
    (.laneSequence, fallback .laneSequence [
      (.followLane, leaf .followLane (act .followLane)),
      (.selector, fallback .selector [
        (.front, leaf .front (act .front)),
        (.light, leaf .light (act .light)),
        (.stopLine, leaf .stopLine (act .stopLine)),
        (.crossing, leaf .crossing (act .crossing)),
        (.yield, leaf .yield (act .yield)),
        (.backward, leaf .backward (act .backward))])])]

/-- The tree of pedestrians, PX. -/
def pedestrianTree {E : Type} (act : Node → Act E) : Tick E :=
  fallback .root [
    (.followLane, leaf .followLane (act .followLane)),
    (.walkStraight, leaf .walkStraight (act .walkStraight)),
    (.trajectorySequence, fallback .trajectorySequence [(.followTrajectory, leaf .followTrajectory (act .followTrajectory))])]

/-- The loop in `update`, VB 148-150 and PB 89-91; the outer `none` means that it does not end. -/
def again {E : Type} (tree : Tick E) (w : World E) : Option (Except Fault (World E)) :=
  if w.current = some .root then
    match tree w with
    | .error f => some (.error f)
    | .ok (_, w) => again tree w
  else some (.ok w)
partial_fixpoint

/-- `update`, VB 145-151 and PB 86-92: one frame. -/
def update {E : Type} (tree : Tick E) (w : World E) : Option (Except Fault (World E)) :=
  match tree w with
  | .error f => some (.error f)
  | .ok (_, w) => again tree w

end Verif.Behavior
