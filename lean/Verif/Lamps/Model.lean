import Verif.Light.Model
import Mathlib.Algebra.Field.Basic
/-
Traffic lights as they are asked for, published and shown.

TB  = simulation/traffic_simulator/src/traffic_lights/traffic_lights_base.cpp
TBH = simulation/traffic_simulator/include/traffic_simulator/traffic_lights/traffic_lights_base.hpp
TL  = simulation/traffic_simulator/include/traffic_simulator/traffic_lights/traffic_light.hpp
TLC = simulation/traffic_simulator/src/traffic_lights/traffic_light.cpp
TLS = simulation/traffic_simulator/include/traffic_simulator/traffic_lights/traffic_lights.hpp
TLM = simulation/traffic_simulator/src/traffic_lights/traffic_light_marker_publisher.cpp
CRU = simulation/traffic_simulator/src/traffic_lights/configurable_rate_updater.cpp
TSC = openscenario/openscenario_interpreter/src/syntax/traffic_signal_condition.cpp

Bulbs and texts are those of `Verif.Light`.  K is the type of confidences and rates.
Simplified: the order of an unordered map is that of insertion, ids of lights are not negative.
-/
namespace Verif.Lamps
open Verif.Light

/-! ### The lights of one `TrafficLightsBase` -/

/-- What changes of a `TrafficLight`, TL:458-460. -/
structure Lamp (K : Type) where
  bulbs : List Bulb
  confidence : K

variable {K : Type}

/-- A `TrafficLight` just made, TLC:168-178 and TL:458-460. -/
def Lamp.new [One K] : Lamp K := ⟨[], 1⟩

/-- `traffic_lights_map_`, TBH:117: its keys and what is kept at each of them. -/
structure Reg (K : Type) where
  keys : List Id
  lamp : Id → Lamp K

/-- An empty map. -/
def Reg.empty [One K] : Reg K := ⟨[], fun _ => Lamp.new⟩

/-- `isTrafficLightAdded`, TB:126-129. -/
def added (r : Reg K) (i : Id) : Bool := decide (i ∈ r.keys)

/-- `addTrafficLight`, TB:131-137: `emplace` does nothing if the key is there. -/
def addLight [One K] (r : Reg K) (i : Id) : Reg K :=
  if i ∈ r.keys then r else ⟨r.keys ++ [i], upd r.lamp i Lamp.new⟩

/-- `getTrafficLight`, TB:139-145: the map afterwards; the light is then found at `i`. -/
def getLight [One K] (r : Reg K) (i : Id) : Reg K := if !added r i then addLight r i else r

/-- `getTrafficLights`, TB:162-171, for the ids that `trafficLightsIds` gives. -/
def getLights [One K] (r : Reg K) (ids : List Id) : Reg K := ids.foldl getLight r

/-- A change of one light through a reference to it. -/
def change (r : Reg K) (i : Id) (f : Lamp K → Lamp K) : Reg K := { r with lamp := upd r.lamp i (f (r.lamp i)) }

/-- The loop over lights that are set from a text, TB:89-91; `false` if one of them threw. -/
def setEach (s : Text) : List Id → Reg K → Reg K × Bool
  | [], r => (r, true)
  | i :: ids, r =>
    let x := setLight (r.lamp i).bulbs s
    let r' := change r i fun l => { l with bulbs := x.1 }
    if x.2 then setEach s ids r' else (r', false)

/-- `std::all_of` with `contains(state)`, TB:54-58: a text that is no bulb is a SyntaxError (`none`). -/
def allShow (s : Text) : List (Lamp K) → Option Bool
  | [] => some true
  | l :: ls =>
    match parseBulb s with
    | none => none
    | some b => if contains l.bulbs b then allShow s ls else some false

/-- `compareTrafficLightsState`, TB:45-60, on the lights found. -/
def compareLamps (s : Text) (ls : List (Lamp K)) : Option Bool :=
  if s = [] ∨ s = "none".toList then some (ls.all fun l => l.bulbs.isEmpty) else allShow s ls

/-- `getTrafficLightsComposedState`, TB:103-112, on the lights found. -/
def composeLamps : List (Lamp K) → Text
  | [] => []
  | [l] => printLight l.bulbs
  | l :: ls => printLight l.bulbs ++ ';' :: ' ' :: composeLamps ls

/-- Operations of a `TrafficLightsBase`. -/
inductive Op (K : Type)
  | set (i : Id) (s : Text)
  | clear (i : Id)
  | add (i : Id) (s : Text)
  | color (i : Id) (c : Color)
  | confidence (i : Id) (x : K)
  | compare (i : Id) (s : Text)
  | composed (i : Id)
  | stop (i : Id)

/-- What a caller gets. -/
inductive Res
  | done
  | says (b : Bool)
  | text (t : Text)
  | error
deriving DecidableEq

/-- `clearTrafficLightsState`, TB:78-84, for the lights of the id. Callbacks act on other lights. -/
def clearIds [One K] (r : Reg K) (ids : List Id) : Reg K :=
  ids.foldl (fun r i => change r i fun l => { l with bulbs := [] }) (getLights r ids)

/-- `addTrafficLightsState`, TB:86-93, for the lights of the id. -/
def addIds [One K] (r : Reg K) (ids : List Id) (s : Text) : Reg K × Bool := setEach s ids (getLights r ids)

/-- `isRequiredStopTrafficLightState`, TB:34-43. -/
def needsStop (l : Lamp K) : Bool :=
  contains l.bulbs ⟨.red, .solidOn, .circle⟩ || contains l.bulbs ⟨.yellow, .solidOn, .circle⟩

/-- An operation on the lights whose ids are `ids`. -/
def applyIds [One K] (r : Reg K) (ids : List Id) : Op K → Reg K × Res
  | .set _ s =>  -- TB:70-76
    let x := addIds (clearIds r ids) ids s
    (x.1, if x.2 then .done else .error)
  | .clear _ => (clearIds r ids, .done)
  | .add _ s => let x := addIds r ids s; (x.1, if x.2 then .done else .error)
  | .color _ c =>  -- TB:62-68
    (ids.foldl (fun r i => change r i fun l => { l with bulbs := emplace ⟨c, .solidOn, .circle⟩ l.bulbs })
      (getLights r ids), .done)
  | .confidence _ x =>  -- TB:95-101
    (ids.foldl (fun r i => change r i fun l => { l with confidence := x }) (getLights r ids), .done)
  | .compare _ s =>
    let r' := getLights r ids
    (r', match compareLamps s (ids.map r'.lamp) with | some b => .says b | none => .error)
  | .composed _ => let r' := getLights r ids; (r', .text (composeLamps (ids.map r'.lamp)))
  | .stop i => let r' := getLight r i; (r', .says (needsStop (r'.lamp i)))

/-- The id an operation is given. -/
def Op.id : Op K → Id
  | .set i _ | .clear i | .add i _ | .color i _ | .confidence i _ | .compare i _ | .composed i | .stop i => i

/-- An operation. `trafficLightsIds` throws at an id that is no light and no regulatory element
(utils/traffic_lights.cpp lines 50-71).  `stop` looks for the light of the id as it is; simplified: it is given
ids of lights only, as it is by its caller (TB:173-194). -/
def apply [One K] (m : RoadMap) (r : Reg K) (o : Op K) : Reg K × Res :=
  match o with
  | .stop i => if m.lights i = some [i] then applyIds r [i] o else (r, .error)
  | o => match m.lights o.id with | some ids => applyIds r ids o | none => (r, .error)

/-- `TrafficSignalCondition::evaluate`, TSC:39-47: the state in words, then the comparison. -/
def condition [One K] (m : RoadMap) (r : Reg K) (i : Id) (s : Text) : Reg K × Res :=
  let x := apply m r (.composed i)
  match x.2 with
  | .error => x
  | _ => apply m x.1 (.compare i s)

/-- `TrafficSignal`: the light, its regulatory elements, the bulbs with their confidence. -/
structure Signal (K : Type) where
  id : Id
  relations : List Id
  status : List (Bulb × K)

/-- The conversion of a `TrafficLight` to a `TrafficSignal`, TL:533-547; `rel` is what the map says of
regulatory elements. -/
def signal (rel : Id → List Id) (i : Id) (l : Lamp K) : Signal K :=
  ⟨i, rel i, l.bulbs.map fun b => (b, l.confidence)⟩

/-- `generateUpdateTrafficLightsRequest`, TB:114-123. -/
def request (rel : Id → List Id) (r : Reg K) : List (Signal K) := r.keys.map fun i => signal rel i (r.lamp i)

/-! ### Markers -/

/-- A sphere: where, in what colour, bright (opaque) or faint. -/
structure Sphere (P : Type) where
  place : P
  color : Color
  bright : Bool
deriving DecidableEq

/-- A marker of namespace "bulb". -/
inductive Mark (P : Type)
  | deleteAll
  | add (id : Int) (x : Sphere P)
deriving DecidableEq

variable {P : Type}

/-- `marker.id`, TL:484: `way_id << 2 | color` as a 32-bit number. -/
def markId (w : Id) (c : Color) : Int := (((w <<< 2) ||| c.code : Nat) : Int).bmod (2 ^ 32)

/-- The keys of `positions`, TLC:172-176, in their order. -/
def placed : List Color := [.green, .yellow, .red]

/-- `positions.find(color)` with a position, TL:503-504. -/
def place (pos : Color → Option P) (c : Color) : Option P := if c ∈ placed then pos c else none

/-- `Bulb::is(Shape::Category::circle)`, TL:204-211. -/
def isCircle (b : Bulb) : Bool := b.shape.code &&& 255 = 0

/-- The first loop of `draw`, TL:499-511: the spheres of bulbs of the light. -/
def drawn (pos : Color → Option P) (bulbs : List Bulb) : List (Color × P) :=
  bulbs.filterMap fun b => if isCircle b then (place pos b.color).map fun p => (b.color, p) else none

/-- `TrafficLight::draw`, TL:475-519. -/
def draw (pos : Color → Option P) (w : Id) (bulbs : List Bulb) : List (Mark P) :=
  let on := drawn pos bulbs
  on.map (fun x => .add (markId w x.1) ⟨x.2, x.1, true⟩) ++
    placed.filterMap fun c =>
      match pos c with
      | some p => if c ∉ on.map (·.1) then some (.add (markId w c) ⟨p, c, false⟩) else none
      | none => none

/-- `isAnyTrafficLightChanged`, TB:32. -/
def changed : Bool := true

/-- `update` of conventional and V2I lights as far as markers go, TLS:50-58 and TLS:135-148, with
`deleteMarkers` and `drawMarkers` (TLM:20-37): the messages on the topic of markers, which is the same for
both (traffic_light_marker_publisher.hpp lines 32-33). -/
def markers (pos : Id → Color → Option P) (r : Reg K) : List (List (Mark P)) :=
  (if changed then [[.deleteAll]] else []) ++ [r.keys.flatMap fun w => draw (pos w) w (r.lamp w).bulbs]

/-! ### Rates -/

/-- `timer_`. -/
structure Timer (K : Type) where
  period : K
  canceled : Bool

/-- `ConfigurableRateUpdater`. -/
structure Updater (K : Type) where
  rate : K
  timer : Option (Timer K)

variable [Field K]

/-- An updater just made. -/
def Updater.new : Updater K := ⟨0, none⟩

variable (good : K → Bool)

/-- `startTimer`, CRU:20-28. `good` says which rates have a period of which a timer can be made;
`create_timer` throws if there is none, and so does the call (`false`). -/
def startTimer (u : Updater K) (rate : K) : Updater K × Bool :=
  match u.timer with
  | some _ => (u, true)
  | none => if good rate then (⟨rate, some ⟨1 / rate, false⟩⟩, true) else (⟨rate, none⟩, false)

/-- `resetTimer`, CRU:30-37. -/
def resetTimer (u : Updater K) (rate : K) : Updater K × Bool :=
  startTimer good
    (match u.timer with
      | some t => if !t.canceled then { u with timer := none } else u
      | none => u) rate

/-- The two kinds of traffic lights. -/
inductive Channel | conventional | v2i
deriving DecidableEq

/-- What is there of it in the simulator. -/
structure Sys (K : Type) where
  started : Bool
  conv : Updater K
  v2i : Updater K

/-- At first. -/
def Sys.new : Sys K := ⟨false, .new, .new⟩

/-- What happens: the start of the logic of NPCs (entity_manager.cpp lines 45-52), a frame
(lines 67-75), a request for another rate (`resetUpdate`, TB:26-29), a call of a timer. -/
inductive Event (K : Type)
  | start
  | frame
  | reset (c : Channel) (rate : K)
  | call (c : Channel)

/-- Configured rates, api/configuration.hpp lines 41-43. -/
structure Config (K : Type) where
  conv : K
  v2i : K

/-- `startTrafficLightsUpdate`, traffic_lights.cpp lines 26-32. -/
def startUpdates (cfg : Config K) (s : Sys K) : Sys K × Bool :=
  let a := startTimer good s.conv cfg.conv
  if a.2 then
    let b := startTimer good s.v2i cfg.v2i
    ({ s with conv := a.1, v2i := b.1 }, b.2)
  else ({ s with conv := a.1 }, false)

/-- The updater of a kind. -/
def Sys.at (s : Sys K) : Channel → Updater K
  | .conventional => s.conv
  | .v2i => s.v2i

/-- One event: what is there afterwards, whether there was no exception, whether lights were published.
A timer that is not there or was cancelled is not called. -/
def step (cfg : Config K) (s : Sys K) : Event K → Sys K × Bool × Option Channel
  | .start => ({ s with started := true }, true, none)
  | .frame =>
    if s.started then let x := startUpdates good cfg s; (x.1, x.2, none) else (s, true, none)
  | .reset .conventional rate => let x := resetTimer good s.conv rate; ({ s with conv := x.1 }, x.2, none)
  | .reset .v2i rate => let x := resetTimer good s.v2i rate; ({ s with v2i := x.1 }, x.2, none)
  | .call c =>
    match (s.at c).timer with
    | some t => (s, true, if t.canceled then none else some c)
    | none => (s, true, none)

/-- A history of events. -/
def run (cfg : Config K) (s : Sys K) (h : List (Event K)) : Sys K := h.foldl (fun s e => (step good cfg s e).1) s

end Verif.Lamps
