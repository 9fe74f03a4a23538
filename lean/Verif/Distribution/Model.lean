import Mathlib.Data.Rat.Floor
import Mathlib.Algebra.Order.Field.Rat

/-
Files that describe distributions of parameters. All of /repo/openscenario/openscenario_interpreter, below
src/syntax if not said otherwise:
  OC = open_scenario_category.cpp, PD = parameter_value_distribution_definition.cpp,
  PV = parameter_value_distribution.cpp, DD = distribution_definition.cpp, ST = stochastic.cpp,
  SD = stochastic_distribution.cpp, SY = stochastic_distribution_type.cpp,
  PS = probability_distribution_set.cpp, PE = probability_distribution_set_element.cpp,
  ND = normal_distribution.cpp, UD = uniform_distribution.cpp, PO = poisson_distribution.cpp,
  HI = histogram.cpp, HB = histogram_bin.cpp, HH = include/openscenario_interpreter/syntax/histogram.hpp,
  US = user_defined_distribution.cpp, RA = range.cpp, FI = file.cpp,
  DE = deterministic.cpp, DP = deterministic_parameter_distribution.cpp,
  DS = deterministic_single_parameter_distribution.cpp, DY = ..._type.cpp, DM = deterministic_multi_parameter_distribution.cpp,
  SE = distribution_set.cpp, SL = distribution_set_element.cpp, DR = distribution_range.cpp,
  VS = value_set_distribution.cpp, PT = parameter_value_set.cpp,
  PA = include/openscenario_interpreter/syntax/parameter_assignment.hpp,
  EH = include/openscenario_interpreter/reader/element.hpp, EC = src/reader/element.cpp,
  PC = /repo/openscenario/openscenario_preprocessor/src/openscenario_preprocessor.cpp.

Left out: what the expressions and references of attributes are (`World` says what an attribute text is read
as), infinite numbers, the scopes, the parts of scenarios and catalogs.
-/
namespace Verif.Distribution

/-- `pugi::xml_node`: an element with its attributes and children. -/
inductive Node where
  | mk (name : String) (attributes : List (String × String)) (children : List Node)

def Node.name : Node → String
  | .mk n _ _ => n

def Node.attributes : Node → List (String × String)
  | .mk _ a _ => a

def Node.children : Node → List Node
  | .mk _ _ c => c

/-- `xml_node::child(name)`: the first child of that name. -/
def Node.child (n : Node) (name : String) : Option Node := n.children.find? (·.name == name)

/-- `xml_node::children(name)`. -/
def Node.named (n : Node) (name : String) : List Node := n.children.filter (·.name == name)

/-- What texts of attributes are read as; none if it is an error. -/
structure World where
  double : String → Option ℚ
  unsigned : String → Option ℕ
  string : String → Option String

/-- reader/attribute.hpp, `readAttribute` without a default: an attribute that is not there is an error. -/
def Node.read {α : Type} (n : Node) (name : String) (cast : String → Option α) : Option α :=
  (n.attributes.lookup name).bind cast

/-- reader/attribute.hpp, `readAttribute` with a default. -/
def Node.readOr {α : Type} (n : Node) (name : String) (cast : String → Option α) (default : α) : Option α :=
  match n.attributes.lookup name with
  | none => some default
  | some t => cast t

/-- EH 85-100 `readElement`; `absent` is what is made by default, none if the type has no default. -/
def readElement {α : Type} (name : String) (parent : Node) (make : Node → Option α) (absent : Option α) :
    Option α :=
  match parent.child name with
  | some c => make c
  | none => absent

/-- EH 133-143 `readElements<T, 1>`. -/
def readElements {α : Type} (name : String) (parent : Node) (make : Node → Option α) : Option (List α) :=
  if parent.named name = [] then none else (parent.named name).mapM make

/-- EC 32-85 `choice`; the keys of the map are different. -/
def choice {α : Type} (node : Node) (callees : List (String × (Node → Option α))) : Option α :=
  match callees.filterMap fun c => (node.child c.1).map fun n => (c.2, n) with
  | [(make, n)] => make n
  | _ => none

/-- EH 145-175 `readGroups<T, 0>`: exceptions are caught. -/
def readGroups {α : Type} (node : Node) (make : Node → Option α) : List α := node.children.filterMap make

/-- A range; none is one made by default, from plus to minus infinity (range.hpp 37-39). -/
abbrev Range := Option (ℚ × ℚ)

/-- RA 22-26. -/
def readRange (w : World) (n : Node) : Option Range :=
  (n.read "lowerLimit" w.double).bind fun l => (n.read "upperLimit" w.double).bind fun u => some (some (l, u))

/-- A distribution as the program has it. Of the normal one: the two arguments of
`std::normal_distribution`. Of the histogram: those of `std::piecewise_constant_distribution`. -/
inductive Dist where
  | set (elements : List (String × ℚ))
  | normal (range : Range) (mean deviation : ℚ)
  | uniform (range : Range)
  | poisson (range : Range) (mean : ℚ)
  | histogram (intervals densities : List ℚ)
  | user (type : String)
deriving DecidableEq

/-- PE 22-27. -/
def readSetElement (w : World) (n : Node) : Option (String × ℚ) :=
  (n.read "value" w.string).bind fun v => (n.read "weight" w.double).bind fun x => some (v, x)

/-- PS 29-38. -/
def readSet (w : World) (n : Node) : Option Dist := (readElements "Element" n (readSetElement w)).map .set

/-- ND 22-31: the element looked for is `range`, and the second argument is the variance. -/
def readNormal (w : World) (n : Node) : Option Dist :=
  (readElement "range" n (readRange w) (some none)).bind fun r =>
    (n.read "expectedValue" w.double).bind fun m => (n.read "variance" w.double).bind fun v => some (.normal r m v)

/-- UD 22-29. -/
def readUniform (w : World) (n : Node) : Option Dist :=
  (readElement "range" n (readRange w) (some none)).map .uniform

/-- PO 22-30. -/
def readPoisson (w : World) (n : Node) : Option Dist :=
  (readElement "range" n (readRange w) (some none)).bind fun r =>
    (n.read "expectedValue" w.double).bind fun m => some (.poisson r m)

/-- HB 22-26. -/
def readBin (w : World) (n : Node) : Option (Range × ℚ) :=
  (readElement "range" n (readRange w) (some none)).bind fun r =>
    (n.read "weight" w.double).bind fun x => some (r, x)

/-- HH 44-56 `BinAdaptor`: the lower limit of the first bin, those of all bins, the upper limit of the last;
the weights. -/
def adapt (bins : List ((ℚ × ℚ) × ℚ)) : Dist :=
  .histogram ((bins.head?.map (·.1.1)).toList ++ bins.map (·.1.1) ++ (bins.getLast?.map (·.1.2)).toList)
    (bins.map (·.2))

/-- HI 22-30. Bins without a range have infinite limits, in the wrong order; this is left out: such a
histogram is the one without any intervals. -/
def readHistogram (w : World) (n : Node) : Option Dist :=
  (readElements "Bin" n (readBin w)).map fun bins =>
    match bins.mapM (fun b => b.1.map fun r => (r, b.2)) with
    | some bins => adapt bins
    | none => .histogram [] (bins.map (·.2))

/-- US 23-26. -/
def readUser (w : World) (n : Node) : Option Dist := (n.read "type" w.string).map .user

/-- SY 22-35. -/
def readType (w : World) (n : Node) : Option Dist :=
  choice n [("ProbabilityDistributionSet", readSet w), ("NormalDistribution", readNormal w),
    ("UniformDistribution", readUniform w), ("PoissonDistribution", readPoisson w),
    ("Histogram", readHistogram w), ("UserDefinedDistribution", readUser w)]

/-- SD 22-26. -/
def readStochasticDistribution (w : World) (n : Node) : Option (String × Dist) :=
  (readType w n).bind fun d => (n.read "parameterName" w.string).bind fun p => some (p, d)

/-- stochastic.hpp 41-50. -/
structure Stochastic where
  runs : ℕ
  seed : ℚ
  distribution : String × Dist
deriving DecidableEq

/-- ST 27-34: the first `StochasticDistribution`. -/
def readStochastic (w : World) (n : Node) : Option Stochastic :=
  (n.read "numberOfTestRuns" w.unsigned).bind fun r => (n.readOr "randomSeed" w.double 0).bind fun s =>
    (readElement "StochasticDistribution" n (readStochasticDistribution w) none).bind fun d => some ⟨r, s, d⟩

/-- Deterministic distributions as the program has them. -/
inductive Single where
  | set (values : List String)
  | range (range : Range)
  | user (type : String)
deriving DecidableEq

inductive Deterministic where
  | single (parameter : String) (d : Single)
  | multi (sets : List (List (String × String)))
deriving DecidableEq

/-- SE 22-25, SL 22-25. -/
def readDistributionSet (w : World) (n : Node) : Option Single :=
  (readElements "Element" n fun e => e.read "value" w.string).map .set

/-- DR 22-25: the range only. -/
def readDistributionRange (w : World) (n : Node) : Option Single :=
  (readElement "Range" n (readRange w) (some none)).map .range

/-- DY 22-33, DS 22-27. -/
def readSingle (w : World) (n : Node) : Option Deterministic :=
  (choice n [("DistributionSet", readDistributionSet w), ("DistributionRange", readDistributionRange w),
    ("UserDefinedDistribution", fun n => (n.read "type" w.string).map .user)]).bind fun d =>
    (n.read "parameterName" w.string).bind fun p => some (.single p d)

/-- PA 41-46. -/
def readAssignment (w : World) (n : Node) : Option (String × String) :=
  (n.read "parameterRef" w.string).bind fun p => (n.read "value" w.string).bind fun v => some (p, v)

/-- DM 22-26 and its type, VS 22-27, PT 22-27. -/
def readMulti (w : World) (n : Node) : Option Deterministic :=
  (readElement "ValueSetDistribution" n
    (fun n => readElements "ParameterValueSet" n fun n => readElements "ParameterAssignment" n (readAssignment w))
    none).map .multi

/-- DP 22-32. -/
def readGroup (w : World) (n : Node) : Option Deterministic :=
  choice n [("DeterministicMultiParameterDistribution", readMulti w),
    ("DeterministicSingleParameterDistribution", readSingle w)]

/-- DE 22-26. -/
def readDeterministic (w : World) (n : Node) : List Deterministic := readGroups n (readGroup w)

/-- The two kinds, DD 22-31. -/
inductive Definition where
  | deterministic (ds : List Deterministic)
  | stochastic (s : Stochastic)
deriving DecidableEq

def readDefinition (w : World) (n : Node) : Option Definition :=
  choice n [("Deterministic", fun n => some (.deterministic (readDeterministic w n))),
    ("Stochastic", fun n => (readStochastic w n).map .stochastic)]

/-- A distribution with the file of the scenario it is for. -/
structure Distributed where
  definition : Definition
  file : String
deriving DecidableEq

/-- PV 22-26, FI 22-29: the file is `./` if it is not given. -/
def readDistributed (w : World) (n : Node) : Option Distributed :=
  (readDefinition w n).bind fun d =>
    (readElement "ScenarioFile" n (fun n => n.read "filepath" w.string) (some "./")).bind fun f => some ⟨d, f⟩

/-- What a file is, OC 24-34. -/
inductive Category where
  | scenario
  | catalog
  | distribution (d : Distributed)
deriving DecidableEq

/-- PD 22-27: in the element that `choice` found, one named `parameterValueDistribution` is looked for. -/
def readDistributionDefinition (w : World) (n : Node) : Option Distributed :=
  readElement "parameterValueDistribution" n (readDistributed w) none

/-- OC 24-34; reading of scenarios and catalogs is taken to succeed. -/
def readCategory (w : World) (n : Node) : Option Category :=
  choice n [("Storyboard", fun _ => some .scenario), ("Catalog", fun _ => some .catalog),
    ("ParameterValueDistribution", fun n => (readDistributionDefinition w n).map .distribution)]

/-- What the preprocessor answers to a request to load a file (PC 25-41), and the files it adds to those
that it hands out. -/
inductive Loaded where
  | failed
  | success (scenarios : List String)
deriving DecidableEq

/-- PC 81-141 `preprocessScenario`, for a file that can be moved and written. The class of the category is
compared with `ParameterValueDistribution`, while the one made is `ParameterValueDistributionDefinition`
(pointer.hpp 96-100: the classes have to be the same), so PC 89-102 is not reached. -/
def loadFile (w : World) (valid : Bool) (path : String) (document : Node) : Loaded :=
  if valid then
    match readCategory w document with
    | none => .failed
    | some _ => .success [path]
  else .failed

/-! ### Drawing -/

/-- What the distributions of the C++ library say: the possible outcomes with their chances. `pieces` are
intervals in which every number is as likely as every other. -/
inductive Law where
  | discrete (chances : List (String × ℚ))
  | pieces (chances : List ((ℚ × ℚ) × ℚ))
  | normal (mean variance : ℚ)
  | poisson (mean : ℚ)
  | undefined
deriving DecidableEq

/-- The intervals between neighbours of a list. -/
def neighbours : List ℚ → List (ℚ × ℚ)
  | a :: b :: l => (a, b) :: neighbours (b :: l)
  | _ => []

/-- `std::piecewise_constant_distribution(b, e, w)`: a weight is taken for every interval, so that with fewer
weights than intervals memory after them is read. The standard asks for ascending limits and for weights that
are not negative and not all zero. -/
def piecewise (limits weights : List ℚ) : Law :=
  let is := neighbours limits
  if is.length ≤ weights.length ∧ (∀ i ∈ is, i.1 < i.2) ∧ (∀ x ∈ weights, 0 ≤ x) ∧
      0 < (weights.take is.length).sum then
    .pieces (is.zip (weights.map fun x => x / (weights.take is.length).sum))
  else .undefined

/-- PS 40-44, ND 33, UD 31, PO 32, HI 32: `evaluate`. The range is not used by the normal and the Poisson
distribution. The standard asks for: weights that are not negative and not all zero; a positive deviation; limits
in order; a positive mean. A user defined one cannot be evaluated. -/
def law : Dist → Law
  | .set es =>
    if (∀ e ∈ es, 0 ≤ e.2) ∧ 0 < (es.map (·.2)).sum then
      .discrete (es.map fun e => (e.1, e.2 / (es.map (·.2)).sum))
    else .undefined
  | .normal _ m d => if 0 < d then .normal m (d * d) else .undefined
  | .uniform (some (a, b)) => if a ≤ b then .pieces [((a, b), 1)] else .undefined
  | .uniform none => .undefined
  | .poisson _ m => if 0 < m then .poisson m else .undefined
  | .histogram is ds => piecewise is ds
  | .user _ => .undefined

/-- ST 29-30 and the constructors: a number is converted to the seed of the engine, an unsigned one of 64 bits
of which the engine keeps 32; none if the conversion is not defined. -/
def engineSeed (seed : ℚ) : Option ℕ :=
  if -1 < seed ∧ seed < 2 ^ 64 then some (seed.floor.toNat % 2 ^ 32) else none

end Verif.Distribution
