import Verif.Convert.Model
import Mathlib.Data.List.Forall2
/-
Vocabulary of the statements about conversions: when a message of ROS 2 and a message of the protocol say the same.
-/
namespace Verif.Convert
variable {D F : Type}

/-- Same coordinates. -/
def SamePoint (m : Msg.Point D) (p : Proto.Point D) : Prop := m.x = p.x ∧ m.y = p.y ∧ m.z = p.z

/-- Same coordinates. -/
def SameVector (m : Msg.Vector3 D) (p : Proto.Vector3 D) : Prop := m.x = p.x ∧ m.y = p.y ∧ m.z = p.z

/-- Same position and orientation. -/
def SamePose (m : Msg.Pose D) (p : Proto.Pose D) : Prop :=
  SamePoint m.position p.position ∧
    m.orientation.x = p.orientation.x ∧ m.orientation.y = p.orientation.y ∧ m.orientation.z = p.orientation.z ∧ m.orientation.w = p.orientation.w

/-- Same box. -/
def SameBox (m : Msg.BoundingBox D) (p : Proto.BoundingBox D) : Prop := SamePoint m.center p.center ∧ SameVector m.dimensions p.dimensions

/-- Same name of the action, velocity, acceleration and jerk. -/
def SameAction (m : Msg.ActionStatus D) (p : Proto.ActionStatus D) : Prop :=
  m.currentAction = p.currentAction ∧ SameVector m.twist.linear p.twist.linear ∧ SameVector m.twist.angular p.twist.angular ∧
    SameVector m.accel.linear p.accel.linear ∧ SameVector m.accel.angular p.accel.angular ∧ m.linearJerk = p.linearJerk

/-- Same lane, place and angles. -/
def SameLane (m : Msg.LaneletPose D) (p : Proto.LaneletPose D) : Prop :=
  m.laneletId = p.laneletId ∧ m.s = p.s ∧ m.offset = p.offset ∧ SameVector m.rpy p.rpy

/-- Same limits. -/
def SamePerformance (m : Msg.Performance D) (p : Proto.Performance D) : Prop :=
  m.maxSpeed = p.maxSpeed ∧ m.maxAcceleration = p.maxAcceleration ∧ m.maxAccelerationRate = p.maxAccelerationRate ∧
    m.maxDeceleration = p.maxDeceleration ∧ m.maxDecelerationRate = p.maxDecelerationRate

/-- Same axle. -/
def SameAxle (m : Msg.Axle D) (p : Proto.Axle D) : Prop :=
  m.maxSteering = p.maxSteering ∧ m.wheelDiameter = p.wheelDiameter ∧ m.trackWidth = p.trackWidth ∧ m.positionX = p.positionX ∧
    m.positionZ = p.positionZ

/-- Same time. -/
def SameTime (m : Msg.Time) (p : Proto.Time) : Prop := m.sec = p.sec ∧ m.nanosec = p.nanosec

/-- A type of an entity that both messages know: EGO, VEHICLE, PEDESTRIAN and MISC_OBJECT have the numbers 0 to 3 in both. -/
def SameType (m : UInt8) (p : Int32) : Prop := (m = 0 ∧ p = 0) ∨ (m = 1 ∧ p = 1) ∨ (m = 2 ∧ p = 2) ∨ (m = 3 ∧ p = 3)

/-- A subtype that both messages know: UNKNOWN, CAR, TRUCK, BUS, TRAILER, MOTORCYCLE, BICYCLE and PEDESTRIAN have the numbers 0 to 7 in both. -/
def SameSubtype (m : UInt8) (p : Int32) : Prop :=
  (m = 0 ∧ p = 0) ∨ (m = 1 ∧ p = 1) ∨ (m = 2 ∧ p = 2) ∨ (m = 3 ∧ p = 3) ∨ (m = 4 ∧ p = 4) ∨ (m = 5 ∧ p = 5) ∨ (m = 6 ∧ p = 6) ∨ (m = 7 ∧ p = 7)

/-- Same status, with box and lane. -/
def SameStatus (m : Msg.EntityStatus D) (p : Proto.EntityStatus D) : Prop :=
  SameType m.type p.type ∧ SameSubtype m.subtype p.subtype ∧ m.time = p.time ∧ m.name = p.name ∧ SameBox m.boundingBox p.boundingBox ∧
    SameAction m.actionStatus p.actionStatus ∧ SamePose m.pose p.pose ∧ SameLane m.laneletPose p.laneletPose ∧
    m.laneletPoseValid = p.laneletPoseValid

/-- Same status, as far as updates tell it. -/
def SameApiStatus (m : Msg.EntityStatus D) (p : Proto.ApiEntityStatus D) : Prop :=
  SameType m.type p.type ∧ SameSubtype m.subtype p.subtype ∧ m.time = p.time ∧ m.name = p.name ∧ SameAction m.actionStatus p.actionStatus ∧
    SamePose m.pose p.pose

/-- Same parameters; the protocol has no subtype. -/
def SameVehicle (m : Msg.VehicleParameters D) (p : Proto.VehicleParameters D) : Prop :=
  m.name = p.name ∧ SameBox m.boundingBox p.boundingBox ∧ SamePerformance m.performance p.performance ∧ SameAxle m.axles.frontAxle p.axles.frontAxle ∧
    SameAxle m.axles.rearAxle p.axles.rearAxle

/-- Same parameters; the protocol has no subtype. -/
def SameObject (m : Msg.ObjectParameters D) (p : Proto.ObjectParameters D) : Prop := m.name = p.name ∧ SameBox m.boundingBox p.boundingBox

/-- Same vertex. -/
def SameVertex (m : Msg.Vertex D) (p : Proto.Vertex D) : Prop := m.time = p.time ∧ SamePose m.position p.position

/-- Same trajectory with the same vertices in the same order. -/
def SameTrajectory (m : Msg.PolylineTrajectory D) (p : Proto.PolylineTrajectory D) : Prop :=
  m.initialDistanceOffset = p.initialDistanceOffset ∧ m.dynamicConstraintsIgnorable = p.dynamicConstraintsIgnorable ∧ m.baseTime = p.baseTime ∧
    m.closed = p.closed ∧ List.Forall₂ SameVertex m.vertices p.vertices

end Verif.Convert
