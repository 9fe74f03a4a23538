import Verif.Distribution.Model

/-!
Files of distributions as the schema of OpenSCENARIO XML 1.3.1 has them, as the comments of the headers in
/repo/openscenario/openscenario_interpreter/include/openscenario_interpreter/syntax quote it.
-/
namespace Verif.Distribution

/-- How numbers are written in a file. -/
structure Printer where
  number : ℚ → String
  count : ℕ → String

/-- What is written is read as it was meant. -/
structure Faithful (w : World) (p : Printer) : Prop where
  number : ∀ q, w.double (p.number q) = some q
  count : ∀ n, w.unsigned (p.count n) = some n
  text : ∀ s, w.string s = some s

/-- A range: lower and upper limit. -/
abbrev Limits := ℚ × ℚ

/-- A distribution of one parameter at random. -/
inductive Written where
  | set (elements : List (String × ℚ))
  | normal (range : Option Limits) (mean variance : ℚ)
  | logNormal (range : Option Limits) (mean variance : ℚ)
  | uniform (range : Limits)
  | poisson (range : Option Limits) (mean : ℚ)
  | histogram (bins : List (Limits × ℚ))
  | user (type : String)

/-- A distribution that goes through values. -/
inductive WrittenSingle where
  | set (values : List String)
  | range (range : Limits) (step : ℚ)
  | user (type : String)

inductive WrittenDeterministic where
  | single (parameter : String) (d : WrittenSingle)
  | multi (sets : List (List (String × String)))

inductive WrittenDefinition where
  | deterministic (ds : List WrittenDeterministic)
  | stochastic (runs : ℕ) (seed : Option ℚ) (ds : List (String × Written))

def rangeNode (p : Printer) (r : Limits) : Node :=
  .mk "Range" [("lowerLimit", p.number r.1), ("upperLimit", p.number r.2)] []

/-- The element of a distribution. -/
def Written.node (p : Printer) : Written → Node
  | .set es => .mk "ProbabilityDistributionSet" []
      (es.map fun e => .mk "Element" [("value", e.1), ("weight", p.number e.2)] [])
  | .normal r m v => .mk "NormalDistribution" [("expectedValue", p.number m), ("variance", p.number v)]
      (r.map (rangeNode p)).toList
  | .logNormal r m v => .mk "LogNormalDistribution" [("expectedValue", p.number m), ("variance", p.number v)]
      (r.map (rangeNode p)).toList
  | .uniform r => .mk "UniformDistribution" [] [rangeNode p r]
  | .poisson r m => .mk "PoissonDistribution" [("expectedValue", p.number m)] (r.map (rangeNode p)).toList
  | .histogram bs => .mk "Histogram" []
      (bs.map fun b => .mk "Bin" [("weight", p.number b.2)] [rangeNode p b.1])
  | .user t => .mk "UserDefinedDistribution" [("type", t)] []

def distributionNode (p : Printer) (d : String × Written) : Node :=
  .mk "StochasticDistribution" [("parameterName", d.1)] [d.2.node p]

def stochasticNode (p : Printer) (runs : ℕ) (seed : Option ℚ) (ds : List (String × Written)) : Node :=
  .mk "Stochastic" (("numberOfTestRuns", p.count runs) :: (seed.map fun s => ("randomSeed", p.number s)).toList)
    (ds.map (distributionNode p))

def WrittenSingle.node (p : Printer) : WrittenSingle → Node
  | .set vs => .mk "DistributionSet" [] (vs.map fun v => .mk "Element" [("value", v)] [])
  | .range r s => .mk "DistributionRange" [("stepWidth", p.number s)] [rangeNode p r]
  | .user t => .mk "UserDefinedDistribution" [("type", t)] []

def WrittenDeterministic.node (p : Printer) : WrittenDeterministic → Node
  | .single n d => .mk "DeterministicSingleParameterDistribution" [("parameterName", n)] [d.node p]
  | .multi sets => .mk "DeterministicMultiParameterDistribution" [] [.mk "ValueSetDistribution" []
      (sets.map fun s => .mk "ParameterValueSet" []
        (s.map fun a => .mk "ParameterAssignment" [("parameterRef", a.1), ("value", a.2)] []))]

def WrittenDefinition.node (p : Printer) : WrittenDefinition → Node
  | .deterministic ds => .mk "Deterministic" [] (ds.map (WrittenDeterministic.node p))
  | .stochastic r s ds => stochasticNode p r s ds

/-- A whole file: the distribution of the parameters of a scenario. -/
def document (p : Printer) (scenario : String) (d : WrittenDefinition) : Node :=
  .mk "OpenSCENARIO" [] [.mk "FileHeader" [] [],
    .mk "ParameterValueDistribution" [] [.mk "ScenarioFile" [("filepath", scenario)] [], d.node p]]

/-- A number that may come out. -/
def Law.Possible : Law → ℚ → Prop
  | .pieces cs, x => ∃ c ∈ cs, 0 < c.2 ∧ c.1.1 ≤ x ∧ x ≤ c.1.2
  | .normal _ _, _ => True
  | .poisson _, x => ∃ n : ℕ, x = n
  | _, _ => False

/-- Chances are in the ratio of weights: they are not negative, are one in all, and for all pairs of outcomes
each has the chance of the other as often as its weight goes into that of the other. -/
def InRatio (weights chances : List (String × ℚ)) : Prop :=
  chances.map Prod.fst = weights.map Prod.fst ∧ (∀ c ∈ chances, 0 ≤ c.2) ∧ (chances.map Prod.snd).sum = 1 ∧
    ∀ i j : ℕ, ∀ (a b : String × ℚ) (c d : String × ℚ), weights[i]? = some a → weights[j]? = some b →
      chances[i]? = some c → chances[j]? = some d → c.2 * b.2 = d.2 * a.2

/-- Weights a distribution can have: not negative, and not all zero. -/
def Weighted (weights : List (String × ℚ)) : Prop := (∀ e ∈ weights, 0 ≤ e.2) ∧ ∃ e ∈ weights, 0 < e.2

end Verif.Distribution
