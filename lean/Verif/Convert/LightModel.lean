import Verif.Light.Model
/-
What is sent and published about traffic lights:
/repo/simulation/traffic_simulator/include/traffic_simulator/traffic_lights/traffic_light.hpp, called TL below;
/repo/simulation/traffic_simulator/include/traffic_simulator/traffic_lights/traffic_lights.hpp, called TLS;
/repo/simulation/traffic_simulator/src/traffic_lights/traffic_lights.cpp, called TLC;
/repo/simulation/traffic_simulator/src/traffic_lights/traffic_lights_base.cpp, called TB;
/repo/simulation/traffic_simulator/src/traffic_lights/traffic_light_publisher.cpp, called TP;
/repo/simulation/simulation_interface/include/simulation_interface/conversions.hpp, called CH.

The enumerations of the protocol and of the messages are their numbers (/repo/simulation/simulation_interface/proto/simulation_api_schema.proto
286-326, /repo/simulation/traffic_simulator_msgs/msg/TrafficLightBulbV1.msg). The messages of Autoware are not in /repo; their numbers are taken to be those of
`TrafficLightBulbV1`. `D` is `double`, `F` is `float`, `narrow` the conversion between them. Times are in nanoseconds. Stamps of messages are left out.
-/
namespace Verif.Convert.Lights
open Verif.Light (Color Status Shape Bulb)

variable {D F : Type}

/-- `simulation_api_schema.TrafficLight`: a bulb in the protocol. -/
structure ProtoBulb (F : Type) where
  color : Nat
  shape : Nat
  status : Nat
  confidence : F
deriving DecidableEq, Repr

/-- `simulation_api_schema.TrafficSignal`: a traffic light in the protocol. -/
structure ProtoLight (F : Type) where
  id : Int
  bulbs : List (ProtoBulb F)
  relations : List Int
deriving DecidableEq, Repr

/-- A bulb in a published message (`TrafficLightBulbV1`, `TrafficLightElement`). -/
structure Element (F : Type) where
  color : Nat
  shape : Nat
  status : Nat
  confidence : F
deriving DecidableEq, Repr

/-- `TrafficLight`, TL:453-465. -/
structure Light (D : Type) where
  way : Int
  regulatory : List Int
  confidence : D
  bulbs : List Bulb
deriving DecidableEq, Repr

/-- The conversion of `lanelet::Id`, 64 bits, to `int32` in `set_id` and `add_relation_ids`, TL:537-540. -/
def cut (i : Int) : Int := Int.bmod i (2 ^ 32)

/-- TL:266-286 -/
def protoColor : Color → Nat
  | .green => 2
  | .yellow => 1
  | .red => 0
  | .white => 3
  | .unknown => 4

/-- TL:288-305 -/
def protoStatus : Status → Nat
  | .solidOn => 1
  | .solidOff => 0
  | .flashing => 2
  | .unknown => 3

/-- TL:307-345 -/
def protoShape : Shape → Nat
  | .circle => 0
  | .cross => 9
  | .left => 1
  | .down => 6
  | .up => 3
  | .right => 2
  | .lowerLeft => 7
  | .lowerRight => 8
  | .upperLeft => 4
  | .upperRight => 5
  | .unknown => 10

/-- `Bulb::operator simulation_api_schema::TrafficLight`, TL:264-355. -/
def protoBulb (one : F) (b : Bulb) : ProtoBulb F :=
  { color := protoColor b.color, shape := protoShape b.shape, status := protoStatus b.status, confidence := one }

/-- `Bulb::operator TrafficLightBulbV1`, TL:357-451. -/
def directBulb (one : F) (b : Bulb) : Element F :=
  { color := match b.color with | .green => 3 | .yellow => 2 | .red => 1 | .white => 4 | .unknown => 0
    status := match b.status with | .solidOn => 2 | .solidOff => 1 | .flashing => 3 | .unknown => 0
    shape := match b.shape with
      | .circle => 1 | .cross => 10 | .left => 2 | .down => 7 | .up => 4 | .right => 3 | .lowerLeft => 8 | .lowerRight => 9
      | .upperLeft => 5 | .upperRight => 6 | .unknown => 0
    confidence := one }

/-- `convert_color`, CH:195-211. -/
def elementColor : Nat → Nat
  | 0 => 1
  | 1 => 2
  | 2 => 3
  | 3 => 4
  | _ => 0

/-- `convert_shape`, CH:213-242: the cases of the arrows up-left (4) and up-right (5) are commented out. -/
def elementShape : Nat → Nat
  | 0 => 1
  | 1 => 2
  | 2 => 3
  | 3 => 4
  | 6 => 7
  | 7 => 8
  | 8 => 9
  | 9 => 10
  | _ => 0

/-- `convert_status`, CH:244-258. -/
def elementStatus : Nat → Nat
  | 0 => 1
  | 1 => 2
  | 2 => 3
  | _ => 0

/-- `toMsg`, CH:188-264. -/
def element (b : ProtoBulb F) : Element F :=
  { status := elementStatus b.status, shape := elementShape b.shape, color := elementColor b.color, confidence := b.confidence }

/-- `TrafficLight::operator simulation_api_schema::TrafficSignal`, TL:533-547. -/
def protoLight (narrow : D → F) (one : F) (l : Light D) : ProtoLight F :=
  { id := cut l.way
    relations := l.regulatory.map cut
    bulbs := l.bulbs.map fun b => { protoBulb one b with confidence := narrow l.confidence } }

/-- `TrafficLight::operator TrafficLightV1`, TL:549-559: the way and the bulbs. -/
def directLight (narrow : D → F) (one : F) (l : Light D) : Int × List (Element F) :=
  (l.way, l.bulbs.map fun b => { directBulb one b with confidence := narrow l.confidence })

/-- `TrafficLightsBase::generateUpdateTrafficLightsRequest`, TB:114-123: `lights` is the map in the order of its keys. -/
def request (narrow : D → F) (one : F) (lights : List (Light D)) : List (ProtoLight F) := lights.map (protoLight narrow one)

/-- The loop body of `DetectedTrafficLights::apply`, TLS:87-102: the first state with the id gets the bulbs; a new state if there is none. -/
def applyOne (narrow : D → F) (one : F) (d : Light D) : List (ProtoLight F) → List (ProtoLight F)
  | [] => [protoLight narrow one d]
  | s :: rest => if s.id = d.way then { s with bulbs := (protoLight narrow one d).bulbs } :: rest else s :: applyOne narrow one d rest

/-- `DetectedTrafficLights::apply`, TLS:85-103. -/
def apply (narrow : D → F) (one : F) (detected : List (Light D)) (r : List (ProtoLight F)) : List (ProtoLight F) :=
  detected.foldl (fun r d => applyOne narrow one d r) r

/-- What a channel sends, `TrafficLightsChannel::generateUpdateRequest`, TLS:212-217, and `V2ITrafficLights::update`, TLS:135-141. -/
def send (narrow : D → F) (one : F) (lights detected : List (Light D)) : List (ProtoLight F) :=
  apply narrow one detected (request narrow one lights)

/-- A phase of a prediction: `std::pair<rclcpp::Time, std::vector<simulation_api_schema::TrafficLight>>`. -/
abbrev Phase (F : Type) := Int × List (ProtoBulb F)

/-- `TrafficLightStatePredictions`; a light without entry has no phases. -/
abbrev Predictions (F : Type) := Int → List (Phase F)

/-- TLC:92-105: the first phase within 10 ms gets the bulb, or a new phase is added at the end. -/
def addPhase (t : Int) (b : ProtoBulb F) : List (Phase F) → List (Phase F)
  | [] => [(t, [b])]
  | p :: rest => if (p.1 - t).natAbs ≤ 10000000 then (p.1, p.2 ++ [b]) :: rest else p :: addPhase t b rest

/-- `addTrafficLightsStatePrediction` for a traffic light (a way), TLC:82-106; `t` is the predicted time. That the text is parsed is left out. -/
def addPrediction (one : F) (way : Int) (b : Bulb) (t : Int) (p : Predictions F) : Predictions F :=
  fun i => if i = way then addPhase t (protoBulb one b) (p i) else p i

/-- `addTrafficLightsStatePrediction` for a regulatory element, TLC:72-77: all of its ways. -/
def addPredictions (one : F) (ways : List Int) (b : Bulb) (t : Int) (p : Predictions F) : Predictions F :=
  ways.foldl (fun p w => addPrediction one w b t p) p

/-- `autoware_perception_msgs::msg::TrafficLightGroup`: the id, the elements and the predicted phases. -/
structure Group (F : Type) where
  id : Int
  elements : List (Element F)
  predictions : List (Int × List (Element F))
deriving DecidableEq, Repr

/-- The groups of one light, TP:115-152. -/
def groupsOf (p : Predictions F) (s : ProtoLight F) : List (Group F) :=
  s.relations.flatMap fun g =>
    if s.bulbs.isEmpty then []
    else [{ id := g, elements := s.bulbs.map element, predictions := (p s.id).map fun q => (q.1, q.2.map element) }]

/-- `generateMessage` for `TrafficLightGroupArray`, TP:100-157; that for `TrafficSignalArray`, TP:42-72, is the same without predictions. -/
def groupArray (p : Predictions F) (r : List (ProtoLight F)) : List (Group F) := r.flatMap (groupsOf p)

/-- `generateMessage` for `TrafficLightArrayV1`, TP:75-97: ways and bulbs. -/
def lightArray (r : List (ProtoLight F)) : List (Int × List (Element F)) := r.map fun s => (s.id, s.bulbs.map element)

end Verif.Convert.Lights
