/-
Model of the detection sensor.

DS = simulation/simple_sensor_simulator/src/sensor_simulation/detection_sensor/detection_sensor.cpp,
DH = the header of the same name, NS = .../sensor_simulation/noise_parameter_selector.hpp.
Times and probabilities are rationals. Poses are of an arbitrary type; the geometric predicates are
parameters. How noise changes the pose of an entity is a parameter too; whether an entity is kept is
modelled. Positions, covariances and message fields are not.
-/
namespace Verif.Detection

/-- An entity as the sensor sees it. `attached` is `isEgoEntityStatusToWhichThisSensorIsAttached`, DS 53-58. -/
structure Status (Pose : Type) where
  name : String
  attached : Bool
  pose : Pose

/-- The geometric predicates: `near` DS 44-50 with `<= range()`, `notFarBelow` DS 101, `changed` DS 95-98,
`above` DS 115 for the plane through the given pose. -/
structure Geometry (Pose : Type) where
  near : Pose → Pose → Bool
  notFarBelow : Pose → Pose → Bool
  changed : Pose → Pose → Bool
  above : Pose → Pose → Bool

variable {Pose : Type}

/-- DS 76-118 `isOnOrAboveEgoPlane`; the state is the pose the plane was made from. -/
def onOrAbove (g : Geometry Pose) (plane : Option Pose) (entity ego : Pose) : Bool × Option Pose :=
  if g.notFarBelow entity ego then (true, plane)
  else
    let p := match plane with
      | none => ego
      | some q => if g.changed ego q then ego else q
    (g.above p entity, some p)

/-- DS 296-304 `is_in_range`, with short circuit evaluation. -/
def inRange (g : Geometry Pose) (detectAll : Bool) (lidar : List String) (ego : Pose) (plane : Option Pose)
    (s : Status Pose) : Bool × Option Pose :=
  if s.attached then (false, plane)
  else if !g.near s.pose ego then (false, plane)
  else
    let r := onOrAbove g plane s.pose ego
    (r.1 && (detectAll || lidar.contains s.name), r.2)

/-- DS 731-734 `copy_if`. -/
def select (g : Geometry Pose) (detectAll : Bool) (lidar : List String) (ego : Pose) :
    Option Pose → List (Status Pose) → List (Status Pose) × Option Pose
  | plane, [] => ([], plane)
  | plane, s :: l =>
    let r := inRange g detectAll lidar ego plane s
    let q := select g detectAll lidar ego r.2 l
    (if r.1 then s :: q.1 else q.1, q.2)

/-- DH 96-124 `NoiseOutput`, the members that decide about an entity. -/
structure NoiseOutput where
  truePositive : Bool
  config : String

/-- What the random engine and the parameters give for one entity in one update. -/
structure Draw (Pose : Type) where
  /-- uniformly distributed on [0, 1) -/
  d : Rat
  /-- the autocorrelation coefficient -/
  phi : Rat
  /-- the configured rate of true positives -/
  rate : Rat
  perturb : Pose → Pose

inductive Version | v1 | v2 | v3 | v4
  deriving DecidableEq

/-- DS 374-380 `markov_process_noise`. -/
def markov (previous : Bool) (rate phi d : Rat) : Bool :=
  decide (d < (if previous then 1 else 0) * phi + (1 - phi) * rate)

abbrev Noises := List (String × NoiseOutput)

def Noises.find (n : Noises) (name : String) : Option NoiseOutput := (List.find? (fun e => e.1 = name) n).map (·.2)

def Noises.set (n : Noises) (name : String) (o : NoiseOutput) : Noises :=
  (name, o) :: List.filter (fun e => e.1 ≠ name) n

/-- DS 313-349 `noise_v1` for one entity. -/
def noise1 (missing : Rat) (draw : Draw Pose) (s : Status Pose) : Option (Status Pose) :=
  if draw.d < missing then none else some { s with pose := draw.perturb s.pose }

/-- DS 449-527 `noise_v2` for one entity; DS 558-669, the part of `noise_v4` that applies a configuration, is
the same as far as modelled. -/
def noise2 (n : Noises) (draw : Draw Pose) (s : Status Pose) : Noises × Option (Status Pose) :=
  let o := (n.find s.name).getD { truePositive := true, config := "" }
  let t := markov o.truePositive draw.rate draw.phi draw.d
  (n.set s.name { o with truePositive := t }, if t then some { s with pose := draw.perturb s.pose } else none)

/-- DS 529-552 `noise_v3` and 671-693, the loop of `noise_v4`, for one entity. `config` is
`findMatchingNoiseConfigForEntity`, NS 105-168. -/
def noise3 (config : Status Pose → String) (n : Noises) (draw : Draw Pose) (s : Status Pose) :
    Noises × Option (Status Pose) :=
  match n.find s.name with
  | none => (n.set s.name { truePositive := true, config := config s }, none)
  | some o => if o.config ≠ "" then noise2 n draw s else (n, some s)

/-- The configuration of the sensor. -/
structure Config (Pose : Type) where
  version : Version
  duration : Rat
  delay : Rat
  groundTruthDelay : Rat
  detectAll : Bool
  missing : Rat
  config : Status Pose → String

/-- DS 695-708 `noise` for one entity. -/
def noiseOne (c : Config Pose) (n : Noises) (draw : Draw Pose) (s : Status Pose) : Noises × Option (Status Pose) :=
  match c.version with
  | .v1 => (n, noise1 c.missing draw s)
  | .v2 => noise2 n draw s
  | .v3 => noise3 c.config n draw s
  | .v4 => noise3 c.config n draw s

/-- `noise` for a frame; `draws k` is for the `k`-th entity. -/
def noise (c : Config Pose) (draws : Nat → Draw Pose) : Nat → Noises → List (Status Pose) → Noises × List (Status Pose)
  | _, n, [] => (n, [])
  | k, n, s :: l =>
    let r := noiseOne c n (draws k) s
    let q := noise c draws (k + 1) r.1 l
    (q.1, r.2.toList ++ q.2)

abbrev Frame (Pose : Type) := List (Status Pose) × Rat

/-- DH 35-80, 93-127: the data members. -/
structure Sensor (Pose : Type) where
  previous : Rat
  plane : Option Pose
  unpublished : List (Frame Pose)
  unpublishedTruth : List (Frame Pose)
  noises : Noises

/-- DH 166-205: a new sensor. -/
def Sensor.new (now : Rat) : Sensor Pose :=
  { previous := now, plane := none, unpublished := [], unpublishedTruth := [], noises := [] }

/-- What one call of `update` is given. -/
structure Input (Pose : Type) where
  now : Rat
  statuses : List (Status Pose)
  lidar : List String
  draws : Nat → Draw Pose

/-- What one call of `update` does. -/
inductive Out (Pose : Type)
  /-- it is not yet time -/
  | skipped
  /-- the ego entity is missing: it throws -/
  | noEgo
  /-- the frame recorded, and the messages published -/
  | done (recorded : List (Status Pose)) (objects : Option (List (Status Pose))) (truth : Option (List (Status Pose)))

/-- DS 736-756: put a frame into a queue and take at most one out: the new queue and the frame taken. -/
def pushPop (delay now : Rat) (q : List (Frame Pose)) (f : List (Status Pose)) : List (Frame Pose) × Option (Frame Pose) :=
  match q ++ [(f, now)] with
  | [] => ([], none)
  | h :: r => if now - h.2 ≥ delay then (r, some h) else (h :: r, none)

/-- DS 282-758 `update`. -/
def update (g : Geometry Pose) (c : Config Pose) (s : Sensor Pose) (i : Input Pose) : Sensor Pose × Out Pose :=
  if i.now - s.previous - c.duration ≥ (-1 / 500 : Rat) then
    let s := { s with previous := i.now }
    match i.statuses.find? (·.attached) with
    | none => (s, .noEgo)
    | some ego =>
      let d := select g c.detectAll i.lidar ego.pose s.plane i.statuses
      let a := pushPop c.delay i.now s.unpublished d.1
      let n := match a.2 with
        | none => (s.noises, none)
        | some f => let r := noise c i.draws 0 s.noises f.1; (r.1, some r.2)
      let b := pushPop c.groundTruthDelay i.now s.unpublishedTruth d.1
      ({ s with plane := d.2, unpublished := a.1, unpublishedTruth := b.1, noises := n.1 },
        .done d.1 n.2 (b.2.map (·.1)))
  else (s, .skipped)

/-- All the updates of a sensor, with what they did. -/
def run (g : Geometry Pose) (c : Config Pose) : Sensor Pose → List (Input Pose) → Sensor Pose × List (Rat × Out Pose)
  | s, [] => (s, [])
  | s, i :: l =>
    let r := update g c s i
    let q := run g c r.1 l
    (q.1, (i.now, r.2) :: q.2)

/-- The frames recorded, with their times. -/
def recorded (l : List (Rat × Out Pose)) : List (Frame Pose) :=
  l.filterMap fun e => match e.2 with | .done f _ _ => some (f, e.1) | _ => none

/-- The messages with objects, with the times at which they were published. -/
def objects (l : List (Rat × Out Pose)) : List (Frame Pose) :=
  l.filterMap fun e => match e.2 with | .done _ (some o) _ => some (o, e.1) | _ => none

/-- The messages with the ground truth, with the times at which they were published. -/
def truths (l : List (Rat × Out Pose)) : List (Frame Pose) :=
  l.filterMap fun e => match e.2 with | .done _ _ (some o) => some (o, e.1) | _ => none

/-- The parameters of a node: `none` is not set. Reading one that is not set gives the default zero
(common/get_parameter/include/get_parameter/get_parameter.hpp 43-52). -/
abbrev Parameters := String → Option Rat

/-- DS 388-398 `autocorrelation_coefficient`; `exp` is any function. -/
def coefficient (exp : Rat → Rat) (p : Parameters) (path : String) (interval : Rat) : Rat :=
  let amplitude := (p (path ++ "autocorrelation_coefficient.amplitude")).getD 0
  let decay := (p (path ++ "autocorrelation_coefficient.decay")).getD 0
  let offset := (p (path ++ "autocorrelation_coefficient.offset")).getD 0
  let x := amplitude * exp (-decay * interval) + offset
  if x < 0 then 0 else if 1 < x then 1 else x

/-- The paths passed to it: DS 408, 417, 477, 485, 588, 596, 604 with `base` like "<topic>.noise.v2.". -/
def path (base kind : String) : String := base ++ kind

end Verif.Detection
