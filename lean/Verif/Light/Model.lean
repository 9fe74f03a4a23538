/-
Model of one traffic light and of the traffic light registries.

TL  = simulation/traffic_simulator/include/traffic_simulator/traffic_lights/traffic_light.hpp
TLC = simulation/traffic_simulator/src/traffic_lights/traffic_light.cpp
TB  = simulation/traffic_simulator/src/traffic_lights/traffic_lights_base.cpp
TLS = simulation/traffic_simulator/include/traffic_simulator/traffic_lights/traffic_lights.hpp
TU  = simulation/traffic_simulator/src/utils/traffic_lights.cpp

Texts are lists of characters. Not modelled: confidence, marker drawing, publishing, the conversion
to messages, and the map auto-insertion of an empty light when it is only looked up.
-/
namespace Verif.Light

abbrev Text := List Char

/-- `TrafficLight::Color::Value`, TL:44-50. -/
inductive Color | green | yellow | red | white | unknown
deriving DecidableEq, Repr
/-- `TrafficLight::Status::Value`, TL:94-99. -/
inductive Status | solidOn | solidOff | flashing | unknown
deriving DecidableEq, Repr
/-- `TrafficLight::Shape::Value`, TL:158-172. -/
inductive Shape
  | circle | cross | left | down | up | right | lowerLeft | upperLeft | lowerRight | upperRight
  | unknown
deriving DecidableEq, Repr

/-- TL:44-58 -/
def Color.code : Color → Nat | .green => 0 | .yellow => 1 | .red => 2 | .white => 3 | .unknown => 4
/-- TL:94-106 -/
def Status.code : Status → Nat | .solidOn => 0 | .solidOff => 1 | .flashing => 2 | .unknown => 3
/-- TL:141-186: the category in the low byte, the directions of an arrow in the high byte. -/
def Shape.code : Shape → Nat
  | .circle => 0
  | .cross => 1
  | .left => (8 <<< 8) ||| 2
  | .down => (4 <<< 8) ||| 2
  | .up => (2 <<< 8) ||| 2
  | .right => (1 <<< 8) ||| 2
  | .lowerLeft => (12 <<< 8) ||| 2
  | .upperLeft => (10 <<< 8) ||| 2
  | .lowerRight => (5 <<< 8) ||| 2
  | .upperRight => (3 <<< 8) ||| 2
  | .unknown => 3

/-- `TrafficLight::Bulb`, TL:228-254. -/
structure Bulb where
  color : Color
  status : Status
  shape : Shape
deriving DecidableEq, Repr

/-- `Bulb::hash`, TL:261-266 (the value fits in 32 bits, so no wrap-around). -/
def Bulb.hash (b : Bulb) : Nat := (b.color.code <<< 24) ||| (b.status.code <<< 16) ||| b.shape.code

/-! ### The set of bulbs: `std::set<Bulb>` ordered by `hash` (TL:268-271, 478) -/

/-- `std::set::emplace`: nothing happens if an equivalent element is present. -/
def emplace (b : Bulb) : List Bulb → List Bulb
  | [] => [b]
  | x :: l =>
    if b.hash < x.hash then b :: x :: l
    else if x.hash < b.hash then x :: emplace b l
    else x :: l

/-- `TrafficLight::contains`, TL:484: `std::set::find` looks for an equivalent element. -/
def contains (l : List Bulb) (b : Bulb) : Bool := l.any fun x => !(x.hash < b.hash) && !(b.hash < x.hash)

/-! ### Texts -/

/-- `Color::table`, TL:64-76. -/
def colors : List (Text × Color) :=
  [("amber".toList, .yellow), ("green".toList, .green), ("red".toList, .red),
   ("white".toList, .white), ("yellow".toList, .yellow), ("unknown".toList, .unknown),
   ("Green".toList, .green), ("Red".toList, .red), ("Yellow".toList, .yellow)]
/-- `Status::table`, TL:112-121. -/
def statuses : List (Text × Status) :=
  [("solidOn".toList, .solidOn), ("solidOff".toList, .solidOff), ("flashing".toList, .flashing),
   ("unknown".toList, .unknown), ("Blank".toList, .solidOff), ("none".toList, .solidOff)]
/-- `Shape::table`, TL:192-207. -/
def shapes : List (Text × Shape) :=
  [("circle".toList, .circle), ("cross".toList, .cross), ("left".toList, .left),
   ("down".toList, .down), ("up".toList, .up), ("right".toList, .right),
   ("lowerLeft".toList, .lowerLeft), ("upperLeft".toList, .upperLeft),
   ("lowerRight".toList, .lowerRight), ("upperRight".toList, .upperRight),
   ("unknown".toList, .unknown), ("straight".toList, .up)]

/-- `operator<<(Color)`, TLC:38-54. -/
def Color.print : Color → Text
  | .green => "green".toList | .yellow => "yellow".toList | .red => "red".toList
  | .white => "white".toList | .unknown => "unknown".toList
/-- `operator<<(Status)`, TLC:73-86. -/
def Status.print : Status → Text
  | .solidOn => "solidOn".toList | .solidOff => "solidOff".toList
  | .flashing => "flashing".toList | .unknown => "unknown".toList
/-- `operator<<(Shape)`, TLC:105-132. -/
def Shape.print : Shape → Text
  | .circle => "circle".toList | .cross => "cross".toList | .left => "left".toList
  | .down => "down".toList | .up => "up".toList | .right => "right".toList
  | .lowerLeft => "lowerLeft".toList | .upperLeft => "upperLeft".toList
  | .lowerRight => "lowerRight".toList | .upperRight => "upperRight".toList
  | .unknown => "unknown".toList

/-- `operator<<(Bulb)`, TLC:160-165. -/
def Bulb.print (b : Bulb) : Text := b.color.print ++ ' ' :: (b.status.print ++ ' ' :: b.shape.print)

/-- `operator<<(TrafficLight)`, TLC:197-205: the bulbs in set order, separated by `", "`. -/
def printLight : List Bulb → Text
  | [] => []
  | [b] => b.print
  | b :: l => b.print ++ ',' :: ' ' :: printLight l

/-- `\s` of ECMAScript regular expressions in the C locale. -/
def isSpace (c : Char) : Bool :=
  c = ' ' || c = '\t' || c = '\n' || c = '\x0b' || c = '\x0c' || c = '\r'
/-- `\w` -/
def isWord (c : Char) : Bool := c.isAlphanum || c = '_'
/-- what `.` does not match -/
def isLineEnd (c : Char) : Bool := c = '\n' || c = '\r'

/-- The rest of `s` after the prefix `name`. -/
def strip : Text → Text → Option Text
  | [], s => some s
  | _ :: _, [] => none
  | n :: name, c :: s => if n = c then strip name s else none

/-- `(name1|name2|…)?` at the start of `s`: the possible values with the rest of `s`, in the order in
which a backtracking matcher tries them (a match before no match). -/
def optional {α} (table : List (Text × α)) (default : α) (s : Text) : List (α × Text) :=
  table.filterMap (fun p => (strip p.1 s).map (p.2, ·)) ++ [(default, s)]

/-- All ways in which the regular expression of `Bulb::make` (TLC:134-149) matches `s`. -/
def bulbMatches (s : Text) : List Bulb :=
  (optional colors .green s).flatMap fun c =>
    (optional statuses .solidOn (c.2.dropWhile isSpace)).flatMap fun t =>
      (optional shapes .circle (t.2.dropWhile isSpace)).filterMap fun h =>
        if h.2 = [] then some ⟨c.1, t.1, h.1⟩ else none

/-- `Bulb::make`, TLC:134-158: the first match; `none` is the SyntaxError. -/
def parseBulb (s : Text) : Option Bulb := (bulbMatches s).head?

/-- `(,\s*)?` -/
def afterComma : Text → Text
  | [] => []
  | c :: r => if c = ',' then r.dropWhile isSpace else c :: r

/-- `split` in `TrafficLight::set`, TLC:181-188, the regular expression `^(\w[\w\s]+)(,\s*)?(.*)$`.
All repetitions are greedy and giving characters back never helps, so the match is the greedy one. -/
def splitStates : Text → Option (Text × Text)
  | [] => none
  | c :: s =>
    if isWord c then
      let head := s.takeWhile fun c => isWord c || isSpace c
      let rest := s.dropWhile fun c => isWord c || isSpace c
      let tail := afterComma rest
      if head = [] || tail.any isLineEnd then none else some (c :: head, tail)
    else none

theorem length_dropWhile_le' {α} (p : α → Bool) (l : List α) : (l.dropWhile p).length ≤ l.length := by
  induction l with
  | nil => simp
  | cons a l ih => simp only [List.dropWhile_cons]; split <;> simp <;> omega

theorem length_afterComma_le (l : Text) : (afterComma l).length ≤ l.length := by
  cases l with
  | nil => simp [afterComma]
  | cons c r =>
    have := length_dropWhile_le' isSpace r
    simp only [afterComma]; split <;> simp <;> omega

theorem splitStates_length {s h t : Text} (e : splitStates s = some (h, t)) : t.length < s.length := by
  cases s with
  | nil => simp [splitStates] at e
  | cons c s =>
    simp only [splitStates] at e
    split at e
    · split at e
      · cases e
      · simp only [Option.some.injEq, Prod.mk.injEq] at e
        obtain ⟨-, rfl⟩ := e
        have h1 := length_dropWhile_le' (fun c => isWord c || isSpace c) s
        have h2 := length_afterComma_le (s.dropWhile fun c => isWord c || isSpace c)
        simp only [List.length_cons]
        omega
    · cases e

/-- `TrafficLight::set`, TLC:179-195. The second component is `false` if a SyntaxError was thrown;
the first one is what the light shows then. -/
def setLight (l : List Bulb) (s : Text) : List Bulb × Bool :=
  if s = [] then (l, true)
  else
    match _e : splitStates s with
    | none => (l, false)
    | some (h, t) =>
      match parseBulb h with
      | none => (l, false)
      | some b => setLight (emplace b l) t
termination_by s.length
decreasing_by exact splitStates_length _e

/-! ### The registries -/

abbrev Id := Nat

/-- The lanelet map: `trafficLightsIds` (TU:54-75), `none` if the id is neither a traffic light nor
a regulatory element of traffic lights. -/
structure RoadMap where
  lights : Id → Option (List Id)
  /-- `isTrafficLightRegulatoryElement` -/
  isRegulatory : Id → Bool

/-- `TrafficLights`, TLS:228-300: both ground truths, both detected sets, the enabled V2I features. -/
structure Lights where
  conv : Id → List Bulb
  v2i : Id → List Bulb
  convDetected : Id → Option (List Bulb)
  v2iDetected : Id → Option (List Bulb)
  enabled : Id → Bool

def upd {α} (f : Id → α) (i : Id) (v : α) : Id → α := fun j => if j = i then v else f j

/-- `traffic_light.get().clear()` for all lights of an id, TB:85-90 without the notification. -/
def clearAll (ids : List Id) (f : Id → List Bulb) : Id → List Bulb :=
  ids.foldl (fun f i => upd f i []) f

/-- `traffic_light.get().set(state)` for all lights of an id, TB:93-98 without the notification;
`false` if one of them threw. -/
def addAll (s : Text) : List Id → (Id → List Bulb) → (Id → List Bulb) × Bool
  | [], f => (f, true)
  | i :: ids, f =>
    let r := setLight (f i) s
    if r.2 then addAll s ids (upd f i r.1) else (upd f i r.1, false)

variable (m : RoadMap)

/-- `TrafficLightsBase::clearTrafficLightsState` of the V2I lights (no callback registered), TB:85-91. -/
def v2iClear (i : Id) (w : Lights) : Lights × Bool :=
  match m.lights i with
  | none => (w, false)
  | some ids => ({ w with v2i := clearAll ids w.v2i }, true)

/-- `TrafficLightsBase::addTrafficLightsState` of the V2I lights, TB:93-100. -/
def v2iAdd (i : Id) (s : Text) (w : Lights) : Lights × Bool :=
  match m.lights i with
  | none => (w, false)
  | some ids => let r := addAll s ids w.v2i; ({ w with v2i := r.1 }, r.2)

/-- Sequencing of operations that may throw. -/
def andThen (f g : Lights → Lights × Bool) (w : Lights) : Lights × Bool :=
  let r := f w
  if r.2 then g r.1 else r

/-- `TrafficLightsBase::setTrafficLightsState` of the V2I lights, TB:77-83. -/
def v2iSet (i : Id) (s : Text) : Lights → Lights × Bool := andThen (v2iClear m i) (v2iAdd m i s)

/-- The callback registered by the constructor of `TrafficLights`, TLS:236-253. -/
def mirror (i : Id) (f : Lights → Lights × Bool) (w : Lights) : Lights × Bool :=
  if w.enabled i then f w else (w, true)

/-- `clearTrafficLightsState` of the conventional lights with its callback, TB:85-91. -/
def convClear (i : Id) (w : Lights) : Lights × Bool :=
  match m.lights i with
  | none => (w, false)
  | some ids => mirror i (v2iClear m i) { w with conv := clearAll ids w.conv }

/-- `addTrafficLightsState` of the conventional lights with its callback, TB:93-100. -/
def convAdd (i : Id) (s : Text) (w : Lights) : Lights × Bool :=
  match m.lights i with
  | none => (w, false)
  | some ids =>
    let r := addAll s ids w.conv
    if r.2 then mirror i (v2iAdd m i s) { w with conv := r.1 } else ({ w with conv := r.1 }, false)

/-- `setTrafficLightsState` of the conventional lights with its callback, TB:77-83. -/
def convSet (i : Id) (s : Text) : Lights → Lights × Bool :=
  andThen (convClear m i) (andThen (convAdd m i s) (mirror i (v2iSet m i s)))

/-- `DetectedTrafficLights::addState`, TLS:72-76. The constructor of `TrafficLight` throws if the id
is unknown to the map (TU:21-46). -/
def detectedAdd (i : Id) (s : Text) (f : Id → Option (List Bulb)) : (Id → Option (List Bulb)) × Bool :=
  match m.lights i with
  | none => (f, false)
  | some _ => let r := setLight ((f i).getD []) s; (upd f i (some r.1), r.2)

/-- `DetectedTrafficLights::clearState`, TLS:78-81. -/
def detectedClear (i : Id) (f : Id → Option (List Bulb)) : Id → Option (List Bulb) := upd f i none

/-- `TrafficLights::setV2IFeature`, TLS:256-271: a regulatory element stands for its lights. -/
def setFeature (i : Id) (on : Bool) (w : Lights) : Lights :=
  match m.lights i with
  | none => w
  | some ids =>
    if m.isRegulatory i then { w with enabled := ids.foldl (fun f j => upd f j on) w.enabled }
    else { w with enabled := upd w.enabled i on }

end Verif.Light
