/-
Conversions between the messages of ROS 2 and those of the protocol with the sensor simulator:
/repo/simulation/simulation_interface/src/conversions.cpp, called CV below, and the template in
/repo/simulation/simulation_interface/include/simulation_interface/conversions.hpp, called CH below.

The functions write into an object that is given by reference; a member that they do not assign keeps its value. Therefore each function here
takes the old value of the target. `D` is `double`, `F` is `float`; texts are `String` (that protobuf refuses texts that are not UTF-8 is left
out). Messages without repeated members are structures in the namespaces `Msg` (ROS 2, /repo/simulation/traffic_simulator_msgs/msg) and `Proto`
(/repo/simulation/simulation_interface/proto). A thrown exception is `none`.
-/
namespace Verif.Convert
variable {D F : Type}

namespace Msg

/-- geometry_msgs/Point (ROS 2, not in /repo). -/
structure Point (D : Type) where
  x : D
  y : D
  z : D

/-- geometry_msgs/Quaternion (ROS 2, not in /repo). -/
structure Quaternion (D : Type) where
  x : D
  y : D
  z : D
  w : D

/-- geometry_msgs/Pose (ROS 2, not in /repo). -/
structure Pose (D : Type) where
  position : Point D
  orientation : Quaternion D

/-- geometry_msgs/Vector3 (ROS 2, not in /repo). -/
structure Vector3 (D : Type) where
  x : D
  y : D
  z : D

/-- geometry_msgs/Twist (ROS 2, not in /repo). -/
structure Twist (D : Type) where
  linear : Vector3 D
  angular : Vector3 D

/-- geometry_msgs/Accel (ROS 2, not in /repo). -/
structure Accel (D : Type) where
  linear : Vector3 D
  angular : Vector3 D

/-- /repo/simulation/traffic_simulator_msgs/msg/BoundingBox.msg. -/
structure BoundingBox (D : Type) where
  center : Point D
  dimensions : Vector3 D

/-- /repo/simulation/traffic_simulator_msgs/msg/Performance.msg. -/
structure Performance (D : Type) where
  maxAcceleration : D
  maxAccelerationRate : D
  maxDeceleration : D
  maxDecelerationRate : D
  maxSpeed : D

/-- /repo/simulation/traffic_simulator_msgs/msg/Axle.msg. -/
structure Axle (D : Type) where
  positionX : D
  positionZ : D
  trackWidth : D
  wheelDiameter : D
  maxSteering : D

/-- /repo/simulation/traffic_simulator_msgs/msg/Axles.msg. -/
structure Axles (D : Type) where
  frontAxle : Axle D
  rearAxle : Axle D

/-- /repo/simulation/traffic_simulator_msgs/msg/ActionStatus.msg. -/
structure ActionStatus (D : Type) where
  currentAction : String
  twist : Twist D
  accel : Accel D
  linearJerk : D

/-- /repo/simulation/traffic_simulator_msgs/msg/LaneletPose.msg. -/
structure LaneletPose (D : Type) where
  laneletId : Int64
  s : D
  offset : D
  rpy : Vector3 D

/-- builtin_interfaces/Duration (ROS 2, not in /repo). -/
structure Duration where
  sec : Int32
  nanosec : UInt32

/-- builtin_interfaces/Time (ROS 2, not in /repo). -/
structure Time where
  sec : Int32
  nanosec : UInt32

/-- rosgraph_msgs/Clock (ROS 2, not in /repo). -/
structure Clock where
  clock : Time

/-- std_msgs/Header (ROS 2, not in /repo). -/
structure Header where
  frameId : String
  stamp : Time

/-- /repo/simulation/traffic_simulator_msgs/msg/Vertex.msg. -/
structure Vertex (D : Type) where
  time : D
  position : Pose D

end Msg

namespace Proto

/-- proto/geometry_msgs.proto, lines 11-15. -/
structure Point (D : Type) where
  x : D
  y : D
  z : D

/-- proto/geometry_msgs.proto, lines 20-25. -/
structure Quaternion (D : Type) where
  x : D
  y : D
  z : D
  w : D

/-- proto/geometry_msgs.proto, lines 30-33. -/
structure Pose (D : Type) where
  position : Point D
  orientation : Quaternion D

/-- proto/geometry_msgs.proto, lines 38-42. -/
structure Vector3 (D : Type) where
  x : D
  y : D
  z : D

/-- proto/geometry_msgs.proto, lines 47-50. -/
structure Twist (D : Type) where
  linear : Vector3 D
  angular : Vector3 D

/-- proto/geometry_msgs.proto, lines 55-58. -/
structure Accel (D : Type) where
  linear : Vector3 D
  angular : Vector3 D

/-- `BoundingBox`, proto/traffic_simulator_msgs.proto. -/
structure BoundingBox (D : Type) where
  center : Point D
  dimensions : Vector3 D

/-- `Performance`, proto/traffic_simulator_msgs.proto. -/
structure Performance (D : Type) where
  maxAcceleration : D
  maxAccelerationRate : D
  maxDeceleration : D
  maxDecelerationRate : D
  maxSpeed : D

/-- `Axle`, proto/traffic_simulator_msgs.proto. -/
structure Axle (D : Type) where
  positionX : D
  positionZ : D
  trackWidth : D
  wheelDiameter : D
  maxSteering : D

/-- `Axles`, proto/traffic_simulator_msgs.proto. -/
structure Axles (D : Type) where
  frontAxle : Axle D
  rearAxle : Axle D

/-- `ActionStatus`, proto/traffic_simulator_msgs.proto. -/
structure ActionStatus (D : Type) where
  currentAction : String
  twist : Twist D
  accel : Accel D
  linearJerk : D

/-- `LaneletPose`, proto/traffic_simulator_msgs.proto. -/
structure LaneletPose (D : Type) where
  laneletId : Int64
  s : D
  offset : D
  rpy : Vector3 D

/-- proto/builtin_interfaces.proto. -/
structure Duration where
  sec : Int32
  nanosec : UInt32

/-- proto/builtin_interfaces.proto. -/
structure Time where
  sec : Int32
  nanosec : UInt32

/-- proto/rosgraph_msgs.proto. -/
structure Clock where
  clock : Time

/-- proto/std_msgs.proto. -/
structure Header where
  frameId : String
  stamp : Time

/-- `Vertex`, proto/traffic_simulator_msgs.proto. -/
structure Vertex (D : Type) where
  time : D
  position : Pose D

end Proto

/-- `toProto` of a `Point`, CV, lines 22-27. -/
def toProtoPoint (m : Msg.Point D) (old : Proto.Point D) : Proto.Point D :=
  { old with x := m.x, y := m.y, z := m.z }

/-- `toMsg` of a `Point`, CV, lines 29-34. -/
def toMsgPoint (p : Proto.Point D) (old : Msg.Point D) : Msg.Point D :=
  { old with x := p.x, y := p.y, z := p.z }

/-- `toProto` of a `Quaternion`, CV, lines 36-42. -/
def toProtoQuaternion (m : Msg.Quaternion D) (old : Proto.Quaternion D) : Proto.Quaternion D :=
  { old with x := m.x, y := m.y, z := m.z, w := m.w }

/-- `toMsg` of a `Quaternion`, CV, lines 44-50. -/
def toMsgQuaternion (p : Proto.Quaternion D) (old : Msg.Quaternion D) : Msg.Quaternion D :=
  { old with x := p.x, y := p.y, z := p.z, w := p.w }

/-- `toProto` of a `Pose`, CV, lines 52-56. -/
def toProtoPose (m : Msg.Pose D) (old : Proto.Pose D) : Proto.Pose D :=
  { old with position := toProtoPoint m.position old.position, orientation := toProtoQuaternion m.orientation old.orientation }

/-- `toMsg` of a `Pose`, CV, lines 58-62. -/
def toMsgPose (p : Proto.Pose D) (old : Msg.Pose D) : Msg.Pose D :=
  { old with position := toMsgPoint p.position old.position, orientation := toMsgQuaternion p.orientation old.orientation }

/-- `toProto` of a `Vector3`, CV, lines 64-69. -/
def toProtoVector3 (m : Msg.Vector3 D) (old : Proto.Vector3 D) : Proto.Vector3 D :=
  { old with x := m.x, y := m.y, z := m.z }

/-- `toMsg` of a `Vector3`, CV, lines 71-76. -/
def toMsgVector3 (p : Proto.Vector3 D) (old : Msg.Vector3 D) : Msg.Vector3 D :=
  { old with x := p.x, y := p.y, z := p.z }

/-- `toProto` of a `Twist`, CV, lines 78-82. -/
def toProtoTwist (m : Msg.Twist D) (old : Proto.Twist D) : Proto.Twist D :=
  { old with linear := toProtoVector3 m.linear old.linear, angular := toProtoVector3 m.angular old.angular }

/-- `toMsg` of a `Twist`, CV, lines 84-88. -/
def toMsgTwist (p : Proto.Twist D) (old : Msg.Twist D) : Msg.Twist D :=
  { old with linear := toMsgVector3 p.linear old.linear, angular := toMsgVector3 p.angular old.angular }

/-- `toProto` of a `Accel`, CV, lines 90-94. -/
def toProtoAccel (m : Msg.Accel D) (old : Proto.Accel D) : Proto.Accel D :=
  { old with linear := toProtoVector3 m.linear old.linear, angular := toProtoVector3 m.angular old.angular }

/-- `toMsg` of a `Accel`, CV, lines 96-100. -/
def toMsgAccel (p : Proto.Accel D) (old : Msg.Accel D) : Msg.Accel D :=
  { old with linear := toMsgVector3 p.linear old.linear, angular := toMsgVector3 p.angular old.angular }

/-- `toProto` of a `BoundingBox`, CV, lines 102-107. -/
def toProtoBoundingBox (m : Msg.BoundingBox D) (old : Proto.BoundingBox D) : Proto.BoundingBox D :=
  { old with center := toProtoPoint m.center old.center, dimensions := toProtoVector3 m.dimensions old.dimensions }

/-- `toMsg` of a `BoundingBox`, CV, lines 109-114. -/
def toMsgBoundingBox (p : Proto.BoundingBox D) (old : Msg.BoundingBox D) : Msg.BoundingBox D :=
  { old with center := toMsgPoint p.center old.center, dimensions := toMsgVector3 p.dimensions old.dimensions }

/-- `toProto` of a `Performance`, CV, lines 116-125. -/
def toProtoPerformance (m : Msg.Performance D) (old : Proto.Performance D) : Proto.Performance D :=
  { old with maxAcceleration := m.maxAcceleration, maxAccelerationRate := m.maxAccelerationRate, maxDeceleration := m.maxDeceleration, maxDecelerationRate := m.maxDecelerationRate, maxSpeed := m.maxSpeed }

/-- `toMsg` of a `Performance`, CV, lines 127-136. -/
def toMsgPerformance (p : Proto.Performance D) (old : Msg.Performance D) : Msg.Performance D :=
  { old with maxAcceleration := p.maxAcceleration, maxAccelerationRate := p.maxAccelerationRate, maxDeceleration := p.maxDeceleration, maxDecelerationRate := p.maxDecelerationRate, maxSpeed := p.maxSpeed }

/-- `toProto` of a `Axle`, CV, lines 138-145. -/
def toProtoAxle (m : Msg.Axle D) (old : Proto.Axle D) : Proto.Axle D :=
  { old with positionX := m.positionX, positionZ := m.positionZ, trackWidth := m.trackWidth, wheelDiameter := m.wheelDiameter, maxSteering := m.maxSteering }

/-- `toMsg` of a `Axle`, CV, lines 147-154. -/
def toMsgAxle (p : Proto.Axle D) (old : Msg.Axle D) : Msg.Axle D :=
  { old with positionX := p.positionX, positionZ := p.positionZ, trackWidth := p.trackWidth, wheelDiameter := p.wheelDiameter, maxSteering := p.maxSteering }

/-- `toProto` of a `Axles`, CV, lines 156-161. -/
def toProtoAxles (m : Msg.Axles D) (old : Proto.Axles D) : Proto.Axles D :=
  { old with frontAxle := toProtoAxle m.frontAxle old.frontAxle, rearAxle := toProtoAxle m.rearAxle old.rearAxle }

/-- `toMsg` of a `Axles`, CV, lines 163-167. -/
def toMsgAxles (p : Proto.Axles D) (old : Msg.Axles D) : Msg.Axles D :=
  { old with frontAxle := toMsgAxle p.frontAxle old.frontAxle, rearAxle := toMsgAxle p.rearAxle old.rearAxle }

/-- `toProto` of a `ActionStatus`, CV, lines 221-228. -/
def toProtoActionStatus (m : Msg.ActionStatus D) (old : Proto.ActionStatus D) : Proto.ActionStatus D :=
  { old with currentAction := m.currentAction, twist := toProtoTwist m.twist old.twist, accel := toProtoAccel m.accel old.accel, linearJerk := m.linearJerk }

/-- `toMsg` of a `ActionStatus`, CV, lines 230-237. -/
def toMsgActionStatus (p : Proto.ActionStatus D) (old : Msg.ActionStatus D) : Msg.ActionStatus D :=
  { old with currentAction := p.currentAction, twist := toMsgTwist p.twist old.twist, accel := toMsgAccel p.accel old.accel, linearJerk := p.linearJerk }

/-- `toProto` of a `LaneletPose`, CV, lines 239-247. -/
def toProtoLaneletPose (m : Msg.LaneletPose D) (old : Proto.LaneletPose D) : Proto.LaneletPose D :=
  { old with laneletId := m.laneletId, s := m.s, offset := m.offset, rpy := toProtoVector3 m.rpy old.rpy }

/-- `toMsg` of a `LaneletPose`, CV, lines 249-257. -/
def toMsgLaneletPose (p : Proto.LaneletPose D) (old : Msg.LaneletPose D) : Msg.LaneletPose D :=
  { old with laneletId := p.laneletId, s := p.s, offset := p.offset, rpy := toMsgVector3 p.rpy old.rpy }

/-- `toProto` of a `Duration`, CV, lines 445-450. -/
def toProtoDuration (m : Msg.Duration) (old : Proto.Duration) : Proto.Duration :=
  { old with sec := m.sec, nanosec := m.nanosec }

/-- `toMsg` of a `Duration`, CV, lines 452-456. -/
def toMsgDuration (p : Proto.Duration) (old : Msg.Duration) : Msg.Duration :=
  { old with sec := p.sec, nanosec := p.nanosec }

/-- `toProto` of a `Time`, CV, lines 458-462. -/
def toProtoTime (m : Msg.Time) (old : Proto.Time) : Proto.Time :=
  { old with sec := m.sec, nanosec := m.nanosec }

/-- `toMsg` of a `Time`, CV, lines 464-468. -/
def toMsgTime (p : Proto.Time) (old : Msg.Time) : Msg.Time :=
  { old with sec := p.sec, nanosec := p.nanosec }

/-- `toProto` of a `Clock`, CV, lines 470-473. -/
def toProtoClock (m : Msg.Clock) (old : Proto.Clock) : Proto.Clock :=
  { old with clock := toProtoTime m.clock old.clock }

/-- `toMsg` of a `Clock`, CV, lines 475-478. -/
def toMsgClock (p : Proto.Clock) (old : Msg.Clock) : Msg.Clock :=
  { old with clock := toMsgTime p.clock old.clock }

/-- `toProto` of a `Header`, CV, lines 480-484. -/
def toProtoHeader (m : Msg.Header) (old : Proto.Header) : Proto.Header :=
  { old with frameId := m.frameId, stamp := toProtoTime m.stamp old.stamp }

/-- `toMsg` of a `Header`, CV, lines 486-490. -/
def toMsgHeader (p : Proto.Header) (old : Msg.Header) : Msg.Header :=
  { old with frameId := p.frameId, stamp := toMsgTime p.stamp old.stamp }
namespace Msg

/-- /repo/simulation/traffic_simulator_msgs/msg/EntityStatus.msg. The types and subtypes are numbers: EntityType.msg and EntitySubtype.msg. -/
structure EntityStatus (D : Type) where
  type : UInt8
  subtype : UInt8
  time : D
  name : String
  boundingBox : BoundingBox D
  actionStatus : ActionStatus D
  pose : Pose D
  laneletPose : LaneletPose D
  laneletPoseValid : Bool

/-- /repo/simulation/traffic_simulator_msgs/msg/VehicleParameters.msg. -/
structure VehicleParameters (D : Type) where
  name : String
  subtype : UInt8
  boundingBox : BoundingBox D
  performance : Performance D
  axles : Axles D

/-- /repo/simulation/traffic_simulator_msgs/msg/PedestrianParameters.msg and MiscObjectParameters.msg, which have the same members. -/
structure ObjectParameters (D : Type) where
  name : String
  subtype : UInt8
  boundingBox : BoundingBox D

/-- /repo/simulation/traffic_simulator_msgs/msg/PolylineTrajectory.msg, with the vertices of its `shape` (Polyline.msg). -/
structure PolylineTrajectory (D : Type) where
  initialDistanceOffset : D
  dynamicConstraintsIgnorable : Bool
  baseTime : D
  closed : Bool
  vertices : List (Vertex D)

end Msg

namespace Proto

/-- `EntityStatus`, proto/traffic_simulator_msgs.proto, lines 71-81. The types and subtypes are numbers, see lines 41-66. -/
structure EntityStatus (D : Type) where
  type : Int32
  subtype : Int32
  time : D
  name : String
  boundingBox : BoundingBox D
  actionStatus : ActionStatus D
  pose : Pose D
  laneletPose : LaneletPose D
  laneletPoseValid : Bool

/-- `EntityStatus`, proto/simulation_api_schema.proto, lines 12-19: what is sent in updates. -/
structure ApiEntityStatus (D : Type) where
  type : Int32
  subtype : Int32
  time : D
  name : String
  actionStatus : ActionStatus D
  pose : Pose D

/-- `VehicleParameters`, proto/traffic_simulator_msgs.proto, lines 121-127; the empty message `property` is left out. -/
structure VehicleParameters (D : Type) where
  name : String
  performance : Performance D
  boundingBox : BoundingBox D
  axles : Axles D

/-- `PedestrianParameters` and `MiscObjectParameters`, proto/traffic_simulator_msgs.proto, lines 132-140. -/
structure ObjectParameters (D : Type) where
  name : String
  boundingBox : BoundingBox D

/-- `PolylineTrajectory` and its `Polyline`, proto/traffic_simulator_msgs.proto, lines 165-178. -/
structure PolylineTrajectory (D : Type) where
  initialDistanceOffset : D
  dynamicConstraintsIgnorable : Bool
  baseTime : D
  closed : Bool
  vertices : List (Vertex D)

end Proto

/-- `toProto` of an `EntityType`, CV, lines 259-283. -/
def toProtoType : UInt8 → Option Int32
  | 0 => some 0
  | 1 => some 1
  | 2 => some 2
  | 3 => some 3
  | _ => none

/-- `toMsg` of an `EntityType`, CV, lines 285-308. -/
def toMsgType : Int32 → Option UInt8
  | 0 => some 0
  | 1 => some 1
  | 2 => some 2
  | 3 => some 3
  | _ => none

/-- `toProto` of an `EntitySubtype`, CV, lines 310-347. -/
def toProtoSubtype : UInt8 → Option Int32
  | 0 => some 0
  | 1 => some 1
  | 2 => some 2
  | 3 => some 3
  | 4 => some 4
  | 5 => some 5
  | 6 => some 6
  | 7 => some 7
  | _ => none

/-- `toMsg` of an `EntitySubtype`, CV, lines 349-385. -/
def toMsgSubtype : Int32 → Option UInt8
  | 0 => some 0
  | 1 => some 1
  | 2 => some 2
  | 3 => some 3
  | 4 => some 4
  | 5 => some 5
  | 6 => some 6
  | 7 => some 7
  | _ => none

/-- `toProto` of an `EntityStatus`, CV, lines 387-401. -/
def toProtoStatus (m : Msg.EntityStatus D) (old : Proto.EntityStatus D) : Option (Proto.EntityStatus D) := do
  let type ← toProtoType m.type
  let subtype ← toProtoSubtype m.subtype
  return { old with
    type, subtype, time := m.time, name := m.name, boundingBox := toProtoBoundingBox m.boundingBox old.boundingBox
    actionStatus := toProtoActionStatus m.actionStatus old.actionStatus, pose := toProtoPose m.pose old.pose
    laneletPose := toProtoLaneletPose m.laneletPose old.laneletPose, laneletPoseValid := m.laneletPoseValid }

/-- `toMsg` of an `EntityStatus`, CV, lines 403-416. -/
def toMsgStatus (p : Proto.EntityStatus D) (old : Msg.EntityStatus D) : Option (Msg.EntityStatus D) := do
  let type ← toMsgType p.type
  let subtype ← toMsgSubtype p.subtype
  return { old with
    type, subtype, time := p.time, name := p.name, boundingBox := toMsgBoundingBox p.boundingBox old.boundingBox
    actionStatus := toMsgActionStatus p.actionStatus old.actionStatus, pose := toMsgPose p.pose old.pose
    laneletPose := toMsgLaneletPose p.laneletPose old.laneletPose, laneletPoseValid := p.laneletPoseValid }

/-- `toProto` of an `EntityStatus` for an update, CV, lines 418-428. -/
def toApiStatus (m : Msg.EntityStatus D) (old : Proto.ApiEntityStatus D) : Option (Proto.ApiEntityStatus D) := do
  let type ← toProtoType m.type
  let subtype ← toProtoSubtype m.subtype
  return { old with
    type, subtype, time := m.time, name := m.name, actionStatus := toProtoActionStatus m.actionStatus old.actionStatus
    pose := toProtoPose m.pose old.pose }

/-- `toMsg` of the `EntityStatus` of an update, CV, lines 430-443. `box` and `lane` are default messages. -/
def ofApiStatus (box : Msg.BoundingBox D) (lane : Msg.LaneletPose D) (p : Proto.ApiEntityStatus D) (old : Msg.EntityStatus D) :
    Option (Msg.EntityStatus D) := do
  let type ← toMsgType p.type
  let subtype ← toMsgSubtype p.subtype
  return { old with
    type, subtype, time := p.time, name := p.name, actionStatus := toMsgActionStatus p.actionStatus old.actionStatus
    pose := toMsgPose p.pose old.pose, boundingBox := box, laneletPose := lane, laneletPoseValid := false }

/-- `API::updateEntitiesStatusInSim`, /repo/simulation/traffic_simulator/src/api/api.cpp, lines 94-101: what an answer changes in the status of an
entity. -/
def ofAnswer (p : Proto.ApiEntityStatus D) (old : Msg.EntityStatus D) : Msg.EntityStatus D :=
  { old with pose := toMsgPose p.pose old.pose, actionStatus := toMsgActionStatus p.actionStatus old.actionStatus }

/-- `toProto` of `VehicleParameters`, CV, lines 169-177. -/
def toProtoVehicle (m : Msg.VehicleParameters D) (old : Proto.VehicleParameters D) : Proto.VehicleParameters D :=
  { old with
    boundingBox := toProtoBoundingBox m.boundingBox old.boundingBox, axles := toProtoAxles m.axles old.axles
    performance := toProtoPerformance m.performance old.performance, name := m.name }

/-- `toMsg` of `VehicleParameters`, CV, lines 179-187. -/
def toMsgVehicle (p : Proto.VehicleParameters D) (old : Msg.VehicleParameters D) : Msg.VehicleParameters D :=
  { old with
    axles := toMsgAxles p.axles old.axles, boundingBox := toMsgBoundingBox p.boundingBox old.boundingBox
    performance := toMsgPerformance p.performance old.performance, name := p.name }

/-- `toProto` of `PedestrianParameters` and `MiscObjectParameters`, CV, lines 189-195 and 205-211. -/
def toProtoObject (m : Msg.ObjectParameters D) (old : Proto.ObjectParameters D) : Proto.ObjectParameters D :=
  { old with boundingBox := toProtoBoundingBox m.boundingBox old.boundingBox, name := m.name }

/-- `toMsg` of `PedestrianParameters` and `MiscObjectParameters`, CV, lines 197-203 and 213-219. -/
def toMsgObject (p : Proto.ObjectParameters D) (old : Msg.ObjectParameters D) : Msg.ObjectParameters D :=
  { old with name := p.name, boundingBox := toMsgBoundingBox p.boundingBox old.boundingBox }

/-- `toProtobufMessage` of a `Vertex`, CV, lines 601-608. `fresh` is a new message. -/
def protoVertex (fresh : Proto.Vertex D) (m : Msg.Vertex D) : Proto.Vertex D :=
  { fresh with time := m.time, position := toProtoPose m.position fresh.position }

/-- `toROS2Message` of a `Vertex`, CV, lines 610-617. `fresh` is a new message. -/
def msgVertex (fresh : Msg.Vertex D) (p : Proto.Vertex D) : Msg.Vertex D :=
  { fresh with time := p.time, position := toMsgPose p.position fresh.position }

/-- `toProtobufMessage` of a `PolylineTrajectory` and of its `Polyline`, CV, lines 619-627 and 639-649. -/
def protoTrajectory (fresh : Proto.Vertex D) (m : Msg.PolylineTrajectory D) : Proto.PolylineTrajectory D where
  initialDistanceOffset := m.initialDistanceOffset
  dynamicConstraintsIgnorable := m.dynamicConstraintsIgnorable
  baseTime := m.baseTime
  closed := m.closed
  vertices := m.vertices.map (protoVertex fresh)

/-- `toROS2Message` of a `PolylineTrajectory` and of its `Polyline`, CV, lines 629-637 and 651-661. -/
def msgTrajectory (fresh : Msg.Vertex D) (p : Proto.PolylineTrajectory D) : Msg.PolylineTrajectory D where
  initialDistanceOffset := p.initialDistanceOffset
  dynamicConstraintsIgnorable := p.dynamicConstraintsIgnorable
  baseTime := p.baseTime
  closed := p.closed
  vertices := p.vertices.map (msgVertex fresh)

/-- `GearCommand` of ROS 2 (autoware_vehicle_msgs, not in /repo), with the numbers of its commands. -/
structure Msg.GearCommand where
  stamp : Msg.Time
  command : UInt8

/-- `GearCommand`, proto/autoware_vehicle_msgs.proto, lines 7-38. The command is a number. -/
structure Proto.GearCommand where
  stamp : Proto.Time
  command : Int32

/-- `toProto` of a `GearCommand`, CV, lines 544-582: the constants of both messages have the numbers 0 (NONE) to 24 (LOW_2); another number is not
assigned. -/
def toProtoGear (m : Msg.GearCommand) (old : Proto.GearCommand) : Proto.GearCommand :=
  { old with stamp := toProtoTime m.stamp old.stamp, command := if m.command ≤ 24 then m.command.toNat.toInt32 else old.command }

/-- `toMsg` of a `GearCommand`, CV, lines 584-590: the number is cut off to eight bits. -/
def toMsgGear (p : Proto.GearCommand) (old : Msg.GearCommand) : Msg.GearCommand :=
  { old with stamp := toMsgTime p.stamp old.stamp, command := p.command.toUInt32.toUInt8 }

end Verif.Convert
