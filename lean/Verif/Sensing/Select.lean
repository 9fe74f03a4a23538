import Mathlib.Analysis.SpecialFunctions.Sqrt
import Mathlib.Tactic.Linarith

/-!
Which noise applies to which entity.

SS = `simulation/simple_sensor_simulator`, NP =
`SS/include/simple_sensor_simulator/sensor_simulation/noise_parameter_selector.hpp`.
-/

namespace Verif.Sensing

/-- A `std::string`. -/
abbrev Text := List Char

/-- What `common::getParameter` reads from the parameter node: numbers, lists of numbers and lists of
strings, by the full name.  A parameter that is not declared is absent. -/
structure Parameters where
  number : Text → Option ℝ
  numbers : Text → Option (List ℝ)
  texts : Text → Option (List Text)

/-- `common::getParameter<T>(name)` with no default (SS uses `T{}`): zero for a missing number, and
(NP 36-41, 115-117) the empty list for a missing list. -/
noncomputable def Parameters.numberOf (p : Parameters) (name : Text) : ℝ := (p.number name).getD 0
/-- As `numberOf`, for lists of numbers. -/
def Parameters.numbersOf (p : Parameters) (name : Text) : List ℝ := (p.numbers name).getD []
/-- As `numberOf`, for lists of strings. -/
def Parameters.textsOf (p : Parameters) (name : Text) : List Text := (p.texts name).getD []

/-- The loop of NP 52-57: the value at the first radius greater than the distance, zero if there is
none. -/
noncomputable def pick (distance : ℝ) : List ℝ → List ℝ → ℝ
  | r :: radii, v :: values => if distance < r then v else pick distance radii values
  | _, _ => 0

/-- `createEllipticalParameterSelector` (NP 31-67), applied to the base path, the position relative
to the ego and the name.  `none` is the exception thrown for lists of different sizes.  A normalized
radius of zero makes the distance an infinity or a NaN, which is less than no (finite) radius, so the
loop runs to its end. -/
noncomputable def selected (p : Parameters) (base : Text) (x y : ℝ) (name : Text) : Option ℝ :=
  let radii := p.numbersOf (base ++ "ellipse_y_radii".toList)
  let ratio := p.numberOf (base ++ name ++ ".ellipse_normalized_x_radius".toList)
  let values := p.numbersOf (base ++ name ++ ".values".toList)
  if radii.length = values.length then
    if ratio = 0 then some 0 else some (pick (Real.sqrt ((x / ratio) ^ 2 + y ^ 2)) radii values)
  else none

/-- A position on the map and a heading; entities are upright. -/
structure Pose where
  x : ℝ
  y : ℝ
  yaw : ℝ

/-- The value which the noise of version 2 uses for an entity
(`SS/src/sensor_simulation/detection_sensor/detection_sensor.cpp` 458-461, 468-473): the selector is
given the difference of the positions on the map. -/
noncomputable def valueFor (p : Parameters) (base : Text) (ego entity : Pose) (name : Text) : Option ℝ :=
  selected p base (entity.x - ego.x) (entity.y - ego.y) name

/-- `parseConfigNameFromParameter` (NP 69-78), given what follows the base path: the text before the
next dot, and nothing when there is no dot. -/
def configName (rest : Text) : Text :=
  if '.' ∈ rest then rest.takeWhile (· != '.') else []

/-- `parameter_name.rfind(version_base_path, 0) == 0` (NP 94, 155), with what follows. -/
def after (base name : Text) : Option Text :=
  if base.isPrefixOf name then some (name.drop base.length) else none

/-- A piece of the regular expression that a string with wildcards becomes. -/
inductive Piece where
  /-- the character itself -/
  | one (c : Char)
  /-- `.` -/
  | any
  /-- `.*` -/
  | star
deriving DecidableEq, Repr

/-- The characters other than `.`, `*` and `?` that mean something in an ECMAScript regular
expression. -/
def operators : List Char := ['^', '$', '\\', '+', '(', ')', '[', ']', '{', '}', '|']

/-- `string_with_wildcards_to_regex` (NP 119-126), read as `std::regex` reads its result: `*` and `?`
are replaced and every other character is copied, a dot too, which is then the dot of the regular
expression. `none` when an operator is copied: see `matches'`. -/
def pieces (s : Text) : Option (List Piece) :=
  s.mapM fun c =>
    if c = '*' then some .star
    else if c = '?' then some .any
    else if c = '.' then some .any
    else if c ∈ operators then none
    else some (.one c)

/-- `.` of an ECMAScript regular expression: everything but a line terminator. -/
def dot (c : Char) : Bool := c != '\n' && c != '\r'

/-- `std::regex_match` for these pieces: the whole text has to match. -/
def regex : List Piece → Text → Bool
  | [], [] => true
  | [], _ :: _ => false
  | .one _ :: _, [] => false
  | .one c :: ps, d :: ds => c = d && regex ps ds
  | .any :: _, [] => false
  | .any :: ps, d :: ds => dot d && regex ps ds
  | .star :: ps, [] => regex ps []
  | .star :: ps, d :: ds => regex ps (d :: ds) || (dot d && regex (.star :: ps) ds)
termination_by ps ds => ps.length + ds.length

/-- Does the text match the string with wildcards (NP 132, 138, 143)?  For a string with operators the
answer is that of `other`, an arbitrary function: the rest of the regular expression language is not
modelled, nor the exception for a string that is no regular expression. -/
def matches' (other : Text → Text → Bool) (pattern text : Text) : Bool :=
  match pieces pattern with
  | some ps => regex ps text
  | none => other pattern text

/-- What the selection looks at (NP 130, 136, 142). -/
structure Subject where
  type : Text
  subtype : Text
  name : Text

/-- `matches_noise_application_entities` (NP 110-145). -/
def applies (other : Text → Text → Bool) (p : Parameters) (base : Text) (e : Subject) (config : Text) : Bool :=
  let path := base ++ config ++ ".noise_application_entities.".toList
  (p.textsOf (path ++ "types".toList)).any (fun t => matches' other t e.type) &&
  (p.textsOf (path ++ "subtypes".toList)).any (fun t => matches' other t e.subtype) &&
  (p.textsOf (path ++ "names".toList)).any (fun t => matches' other t e.name)

/-- The predicate of NP 154-162 for one parameter name. -/
def candidate (other : Text → Text → Bool) (p : Parameters) (base : Text) (e : Subject) (parameter : Text) : Bool :=
  match after base parameter with
  | some rest => if configName rest ≠ [] then applies other p base e (configName rest) else false
  | none => false

/-- `findMatchingNoiseConfigForEntity` (NP 105-168); `declared` is what `list_parameters` answers. -/
def configFor (other : Text → Text → Bool) (p : Parameters) (declared : List Text) (base : Text)
    (e : Subject) : Text :=
  match declared.find? (candidate other p base e) with
  | some parameter => configName ((after base parameter).getD [])
  | none => []

/-- `version_base_path` (NP 109). -/
def basePath (topic version : Text) : Text := topic ++ ".noise.".toList ++ version ++ ".".toList

end Verif.Sensing
