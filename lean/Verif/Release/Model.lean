/-
What depends on the release of Autoware that the parameter `architecture_type` names: the messages for traffic lights, the sensors, the
message for the planned path, and the arguments Autoware is launched with.

TL = simulation/traffic_simulator/include/traffic_simulator/traffic_lights/traffic_lights.hpp,
SS = simulation/simple_sensor_simulator/include/simple_sensor_simulator/sensor_simulation, with SD = SS/traffic_lights/traffic_lights_detector.hpp
and SH = SS/sensor_simulation.hpp, PL = external/concealer/src/path_with_lane_id.cpp, SU = external/concealer/include/concealer/subscriber.hpp,
EE = simulation/traffic_simulator/src/entity/ego_entity.cpp, LH = external/concealer/include/concealer/launch.hpp.

A text is a list of characters; `std::string` compares bytes, which for UTF-8 is the order of the code points.
-/
namespace Verif.Release

abbrev Text := List Char

/-- `operator<` of `std::string`, used by PL 43 (and, with the sides exchanged, by the other comparisons): the first character that
differs decides; a text comes before those it begins. -/
def before : Text → Text → Bool
  | _, [] => false
  | [], _ :: _ => true
  | a :: s, b :: t => if a.toNat < b.toNat then true else if b.toNat < a.toNat then false else before s t

/-- `operator<=` and `operator>=` of `std::string` (TL 168, 174, SD 81, PL 29, EE 67): `a <= b` is `a.compare(b) <= 0`. -/
def upTo (s t : Text) : Bool := !before t s

/-- `std::string::find(word) != npos` (SH 51, 69, 90, PL 28, 42, EE 45). -/
def has (word : Text) : Text → Bool
  | [] => word.isPrefixOf []
  | a :: t => word.isPrefixOf (a :: t) || has word t

/-- "awf/universe" -/
def awf : Text := ['a', 'w', 'f', '/', 'u', 'n', 'i', 'v', 'e', 'r', 's', 'e']
/-- "awf/universe/20230906" -/
def v20230906 : Text := awf ++ ['/', '2', '0', '2', '3', '0', '9', '0', '6']
/-- "awf/universe/20240605" -/
def v20240605 : Text := awf ++ ['/', '2', '0', '2', '4', '0', '6', '0', '5']
/-- "awf/universe/20250130" -/
def v20250130 : Text := awf ++ ['/', '2', '0', '2', '5', '0', '1', '3', '0']

/-! ### Traffic lights and sensors -/

/-- The messages that tell the state of traffic lights: `TrafficSignalArray` and `TrafficLightGroupArray`. -/
inductive Message | signals | groups
  deriving DecidableEq

/-- The headers that were there when the simulator was built (`__has_include`, TL 167, 173, SD 74, 80). -/
structure Headers where
  signals : Bool
  groups : Bool
  deriving DecidableEq

/-- TL 151-185: `V2ITrafficLights::makePublisher`; `none` is the error. -/
def v2i (h : Headers) (t : Text) : Option Message :=
  if t = awf then none
  else if h.signals && upTo t v20230906 then some .signals
  else if h.groups && upTo v20240605 t then some .groups
  else none

/-- SD 58-92: `TrafficLightsDetector::makePublisher`; `none` is the error. -/
def detector (h : Headers) (t : Text) : Option Message :=
  if t = awf then none
  else if h.signals && decide (t = v20230906) then some .signals
  else if h.groups && upTo v20240605 t then some .groups
  else none

/-- SH 46-101: `attachLidarSensor`, `attachDetectionSensor` and `attachOccupancyGridSensor` attach the sensor (true) or throw (false). -/
def sensor (t : Text) : Bool := has awf t

/-! ### The planned path -/

/-- PL 24-34: `available<autoware_internal_planning_msgs::msg::PathWithLaneId>`. -/
def availableNew (t : Text) : Bool := if has awf t then upTo v20250130 t else false

/-- PL 38-48: `available<tier4_planning_msgs::msg::PathWithLaneId>`. -/
def availableOld (t : Text) : Bool := if has awf t then before t v20250130 else false

/-- A path as the older and the newer message hold it: header, points with their lanes, the bounds. -/
structure OldPath (H P B : Type) where
  header : H
  points : List (P × List Nat)
  left : B
  right : B
  deriving DecidableEq
structure NewPath (H P B : Type) where
  header : H
  points : List (P × List Nat)
  left : B
  right : B
  deriving DecidableEq

/-- PL 53-68: `convert`, which adds the points one after another. -/
def convert {H P B : Type} (f : OldPath H P B) : NewPath H P B :=
  { header := f.header
    points := f.points.foldl (fun l p => l ++ [(p.1, p.2)]) []
    left := f.left
    right := f.right }

/-- `Subscriber<New, Old>` (SU 27-114): for each of the two messages whether there is a subscription, and the value kept. The older one
starts with a value initialised message (SU 32), the newer one with none (SU 71). -/
structure Paths (H P B : Type) where
  new : Bool
  old : Bool
  newValue : Option (NewPath H P B)
  oldValue : OldPath H P B

/-- SU 83-98, 133-144: the constructor subscribes to those messages that are available; without any it throws (`none`). -/
def subscribe {H P B : Type} (blank : OldPath H P B) (t : Text) : Option (Paths H P B) :=
  if availableNew t || availableOld t then some ⟨availableNew t, availableOld t, none, blank⟩ else none

/-- What Autoware sends on the topic of the path. -/
inductive Sent (H P B : Type)
  | new (p : NewPath H P B)
  | old (p : OldPath H P B)

/-- SU 87-96, 41-46: a message is kept by the subscription to its type, if there is one. -/
def receive {H P B : Type} (s : Paths H P B) : Sent H P B → Paths H P B
  | .new p => if s.new then { s with newValue := some p } else s
  | .old p => if s.old then { s with oldValue := p } else s

/-- SU 75-82: `operator()`. -/
def path {H P B : Type} (s : Paths H P B) : NewPath H P B :=
  match s.newValue with
  | some p => p
  | none => convert s.oldValue

/-! ### Launching Autoware -/

/-- An argument `name:=value`. -/
structure Argument where
  name : String
  value : Text
  deriving DecidableEq

/-- The parameters that `EgoEntity` reads (EE 43-71), with the texts of the configuration. `vehicleId` is the text, the number having
been turned into one (EE 50-54), and empty if the parameter is not set. -/
structure Settings where
  architecture : Text
  given : List Argument
  vehicleId : Text
  mapPath : Text
  laneletFile : Text
  pointcloudFile : Text
  sensorModel : Text
  vehicleModel : Text
  rviz : Text
  simTime : Bool
  localization : Bool
  launch : Bool
  package : Text
  file : Text

def yes : Text := ['t', 'r', 'u', 'e']
def no : Text := ['f', 'a', 'l', 's', 'e']
def api : Text := ['a', 'p', 'i']
def estimator : Text := ['p', 'o', 's', 'e', '_', 't', 'w', 'i', 's', 't', '_', 'e', 's', 't', 'i', 'm', 'a', 't', 'o', 'r']
/-- "default" -/
def usual : Text := ['d', 'e', 'f', 'a', 'u', 'l', 't']

/-- EE 46-70: the arguments, those of the parameter `autoware.` first. -/
def arguments (c : Settings) : List Argument :=
  let l := c.given
  let l := if c.vehicleId ≠ usual ∧ c.vehicleId ≠ [] then l ++ [⟨"vehicle_id", c.vehicleId⟩] else l
  l ++ [⟨"map_path", c.mapPath⟩, ⟨"lanelet2_map_file", c.laneletFile⟩, ⟨"pointcloud_map_file", c.pointcloudFile⟩,
    ⟨"sensor_model", c.sensorModel⟩, ⟨"vehicle_model", c.vehicleModel⟩, ⟨"rviz_config", c.rviz⟩,
    ⟨"scenario_simulation", yes⟩, ⟨"use_foa", no⟩,
    ⟨"perception/enable_traffic_light", if upTo v20230906 c.architecture then yes else no⟩,
    ⟨"use_sim_time", if c.simTime then yes else no⟩,
    ⟨"localization_sim_mode", if c.localization then api else estimator⟩]

/-- EE 42-82 and LH 30-60: what making an Ego does about Autoware: an error, nothing, or launching a file of a package with arguments. -/
inductive Outcome
  | refused
  | nothing
  | launched (package file : Text) (arguments : List Argument)
  deriving DecidableEq

def launch (c : Settings) : Outcome :=
  if has awf c.architecture then
    if c.launch then .launched c.package c.file (arguments c) else .nothing
  else .refused

end Verif.Release
