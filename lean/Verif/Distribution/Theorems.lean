import Verif.Distribution.Spec
import Mathlib.Tactic.Linarith
import Mathlib.Tactic.FieldSimp
import Mathlib.Tactic.Ring
import Mathlib.Algebra.Order.BigOperators.Group.List
import Mathlib.Algebra.BigOperators.Ring.List
import Mathlib.Algebra.Order.Archimedean.Basic
import Mathlib.Data.Rat.Encodable

namespace Verif.Distribution

/-! ### Reading -/

theorem mapM_map {α β γ : Type} (f : β → Option γ) (g : α → β) (h : α → γ) (hf : ∀ a, f (g a) = some (h a)) :
    ∀ l : List α, (l.map g).mapM f = some (l.map h)
  | [] => rfl
  | a :: l => by
    simp [List.mapM_cons, hf, mapM_map f g h hf l]

theorem named_all {α : Type} (n : String) (f : α → Node) (hf : ∀ a, (f a).name = n) (m : String)
    (as : List (String × String)) (l : List α) : (Node.mk m as (l.map f)).named n = l.map f := by
  unfold Node.named Node.children
  rw [List.filter_eq_self]
  intro x hx
  obtain ⟨a, _, rfl⟩ := List.mem_map.1 hx
  simp [hf]

theorem readElements_map {α β : Type} (n : String) (f : α → Node) (hf : ∀ a, (f a).name = n) (m : String)
    (as : List (String × String)) (make : Node → Option β) (h : α → β) (hm : ∀ a, make (f a) = some (h a))
    {l : List α} (hl : l ≠ []) : readElements n (.mk m as (l.map f)) make = some (l.map h) := by
  unfold readElements
  rw [named_all n f hf, if_neg (by simpa using hl)]
  exact mapM_map make f h hm l

theorem range_absent (w : World) (p : Printer) (m : String) (as : List (String × String)) (r : Option Limits) :
    readElement "range" (.mk m as (r.map (rangeNode p)).toList) (readRange w) (some none) = some none := by
  cases r <;> rfl

theorem range_absent' (w : World) (p : Printer) (m : String) (as : List (String × String)) (r : Limits) :
    readElement "range" (.mk m as [rangeNode p r]) (readRange w) (some none) = some none := rfl

/-- There are ways to write all numbers such that they are read as they were meant. -/
example : ∃ w p, Faithful w p := by
  refine ⟨⟨fun s => Encodable.decode s.length, fun s => some s.length, some⟩,
    ⟨fun q => String.ofList (List.replicate (Encodable.encode q) 'x'), fun n => String.ofList (List.replicate n 'x')⟩,
    ⟨fun q => ?_, fun n => ?_, fun s => rfl⟩⟩
  · simp
  · simp

/-! ### C197: a file that distributes the parameters of a scenario is read -/

/-- **C197, not so.** No file of the schema is read, whatever distributions it has: it is an error. -/
theorem C197_rejected_violated (w : World) (p : Printer) (scenario : String) (d : WrittenDefinition) :
    readCategory w (document p scenario d) = none := by
  cases d <;> rfl

/-- **C197, not so.** So the preprocessor does not load it, although it is valid. -/
theorem C197_load_violated (w : World) (p : Printer) (scenario path : String) (d : WrittenDefinition) :
    loadFile w true path (document p scenario d) = .failed := by
  unfold loadFile
  rw [if_pos rfl, C197_rejected_violated]

/-- **C197** (partial: what is missing is that the element is looked for where it is). Of the element of a
distribution at random the scenario and the distribution are read as they are written. -/
theorem C197_element_partial {w : World} {p : Printer} (hw : Faithful w p) (scenario : String) (runs : ℕ)
    (seed : Option ℚ) (ds : List (String × Written)) :
    readDistributed w (.mk "ParameterValueDistribution" [] [.mk "ScenarioFile" [("filepath", scenario)] [],
        (WrittenDefinition.stochastic runs seed ds).node p]) =
      (readStochastic w (stochasticNode p runs seed ds)).map fun s => ⟨.stochastic s, scenario⟩ := by
  have h : readDefinition w (.mk "ParameterValueDistribution" [] [.mk "ScenarioFile" [("filepath", scenario)] [],
      (WrittenDefinition.stochastic runs seed ds).node p]) =
        (readStochastic w (stochasticNode p runs seed ds)).map .stochastic := rfl
  unfold readDistributed
  rw [h]
  have hf : readElement "ScenarioFile" (.mk "ParameterValueDistribution" [] [.mk "ScenarioFile" [("filepath", scenario)] [],
      (WrittenDefinition.stochastic runs seed ds).node p]) (fun n => n.read "filepath" w.string) (some "./") =
        w.string scenario := rfl
  rw [hf, hw.text]
  cases readStochastic w (stochasticNode p runs seed ds) <;> rfl

/-- **C197.** A scenario that is valid is loaded, and it alone is what is handed out. -/
theorem C197_scenario (w : World) (path : String) (document : Node) (h : (document.child "Storyboard").isSome)
    (hc : document.child "Catalog" = none) (hd : document.child "ParameterValueDistribution" = none) :
    loadFile w true path document = .success [path] ∧ loadFile w false path document = .failed := by
  refine ⟨?_, rfl⟩
  obtain ⟨s, hs⟩ := Option.isSome_iff_exists.1 h
  have : readCategory w document = some .scenario := by
    unfold readCategory choice
    simp [hs, hc, hd]
  unfold loadFile
  rw [if_pos rfl, this]

example : loadFile ⟨fun _ => none, fun _ => none, some⟩ true "a.xosc"
    (.mk "OpenSCENARIO" [] [.mk "FileHeader" [] [], .mk "Storyboard" [] []]) = .success ["a.xosc"] :=
  (C197_scenario _ _ _ rfl rfl rfl).1

/-- **C197.** A file is a scenario, a catalog or a distribution; one that is none of them, or two, is not
read. -/
theorem C197_one (w : World) (document : Node) (c : Category) (h : readCategory w document = some c) :
    ((document.child "Storyboard").isSome ∧ document.child "Catalog" = none ∧
        document.child "ParameterValueDistribution" = none ∧ c = .scenario) ∨
      ((document.child "Catalog").isSome ∧ document.child "Storyboard" = none ∧
        document.child "ParameterValueDistribution" = none ∧ c = .catalog) ∨
      ((document.child "ParameterValueDistribution").isSome ∧ document.child "Storyboard" = none ∧
        document.child "Catalog" = none ∧ ∃ d, c = .distribution d) := by
  unfold readCategory choice at h
  cases h1 : document.child "Storyboard" <;> cases h2 : document.child "Catalog" <;>
    cases h3 : document.child "ParameterValueDistribution" <;> simp [h1, h2, h3] at h
  · obtain ⟨d, _, hd⟩ := h
    exact Or.inr (Or.inr ⟨rfl, rfl, rfl, d, hd.symm⟩)
  · exact Or.inr (Or.inl ⟨rfl, rfl, rfl, h.symm⟩)
  · exact Or.inl ⟨rfl, rfl, rfl, h.symm⟩

/-- **C197, not so.** A file the program does read as a distribution is handed out as if it were a scenario:
no parameter gets a value, and the interpreter refuses it. -/
theorem C197_handed_violated : ∃ (w : World) (document : Node) (d : Distributed),
    readCategory w document = some (.distribution d) ∧
      loadFile w true "distribution.xosc" document = .success ["distribution.xosc"] := by
  refine ⟨⟨fun _ => none, fun _ => none, some⟩, .mk "OpenSCENARIO" [] [.mk "ParameterValueDistribution" []
    [.mk "parameterValueDistribution" [] [.mk "ScenarioFile" [("filepath", "a.xosc")] [],
      .mk "Deterministic" [] []]]], ⟨.deterministic [], "a.xosc"⟩, rfl, rfl⟩

/-! ### C198: what is drawn is what is written -/

theorem read_of {w : World} {p : Printer} (hw : Faithful w p) (parameter : String) (d : Written)
    {x : Option Dist} (h : readType w (distributionNode p (parameter, d)) = x) :
    readStochasticDistribution w (distributionNode p (parameter, d)) = x.map fun d => (parameter, d) := by
  unfold readStochasticDistribution
  rw [h]
  have : (distributionNode p (parameter, d)).read "parameterName" w.string = some parameter := by
    simp [distributionNode, Node.read, Node.attributes, hw.text]
  rw [this]
  cases x <;> rfl

theorem read_set {w : World} {p : Printer} (hw : Faithful w p) (parameter : String) (es : List (String × ℚ)) :
    readStochasticDistribution w (distributionNode p (parameter, .set es)) =
      (readSet w ((Written.set es).node p)).map fun d => (parameter, d) := read_of hw parameter _ rfl

theorem read_normal {w : World} {p : Printer} (hw : Faithful w p) (parameter : String) (r : Option Limits) (m v : ℚ) :
    readStochasticDistribution w (distributionNode p (parameter, .normal r m v)) =
      (readNormal w ((Written.normal r m v).node p)).map fun d => (parameter, d) := read_of hw parameter _ rfl

theorem read_uniform {w : World} {p : Printer} (hw : Faithful w p) (parameter : String) (r : Limits) :
    readStochasticDistribution w (distributionNode p (parameter, .uniform r)) =
      (readUniform w ((Written.uniform r).node p)).map fun d => (parameter, d) := read_of hw parameter _ rfl

theorem read_poisson {w : World} {p : Printer} (hw : Faithful w p) (parameter : String) (r : Option Limits) (m : ℚ) :
    readStochasticDistribution w (distributionNode p (parameter, .poisson r m)) =
      (readPoisson w ((Written.poisson r m).node p)).map fun d => (parameter, d) := read_of hw parameter _ rfl

theorem read_histogram {w : World} {p : Printer} (hw : Faithful w p) (parameter : String) (bins : List (Limits × ℚ)) :
    readStochasticDistribution w (distributionNode p (parameter, .histogram bins)) =
      (readHistogram w ((Written.histogram bins).node p)).map fun d => (parameter, d) := read_of hw parameter _ rfl

/-- **C198.** A distribution defined by the user is read as it is written, for the parameter it is written for. -/
theorem C198_user {w : World} {p : Printer} (hw : Faithful w p) (parameter type : String) :
    readStochasticDistribution w (distributionNode p (parameter, .user type)) = some (parameter, .user type) := by
  rw [read_of hw parameter (.user type) (x := readUser w ((Written.user type).node p)) rfl]
  simp [readUser, Written.node, Node.read, Node.attributes, hw.text]

/-- **C198.** A set of values with weights is drawn from in the ratio of the weights. -/
theorem C198_set {w : World} {p : Printer} (hw : Faithful w p) (parameter : String) {es : List (String × ℚ)}
    (h : Weighted es) : ∃ d chances, readStochasticDistribution w (distributionNode p (parameter, .set es)) = some (parameter, d) ∧
      law d = .discrete chances ∧ InRatio es chances := by
  obtain ⟨h1, e0, he0, hpos⟩ := h
  have hne : es ≠ [] := by rintro rfl; cases he0
  have hr : readSet w ((Written.set es).node p) = some (.set es) := by
    unfold readSet Written.node
    rw [readElements_map "Element" (fun e : String × ℚ => Node.mk "Element" [("value", e.1), ("weight", p.number e.2)] [])
      (fun _ => rfl) _ _ (readSetElement w) id (by
        intro e
        unfold readSetElement Node.read Node.attributes
        simp [List.lookup, hw.text, hw.number]) hne]
    simp
  have hsum : 0 < (es.map (·.2)).sum := by
    have hle : e0.2 ≤ (es.map (·.2)).sum :=
      List.single_le_sum (fun x hx => by
        obtain ⟨e, he, rfl⟩ := List.mem_map.1 hx
        exact h1 e he) _ (List.mem_map_of_mem he0)
    linarith
  refine ⟨.set es, es.map fun e => (e.1, e.2 / (es.map (·.2)).sum), ?_, ?_, ?_, ?_, ?_, ?_⟩
  · unfold readStochasticDistribution
    have : readType w (distributionNode p (parameter, .set es)) = some (.set es) := by
      unfold readType
      have hc : ∀ n, (distributionNode p (parameter, .set es)).child n =
          if n = "ProbabilityDistributionSet" then some ((Written.set es).node p) else none := by
        intro n
        unfold distributionNode Node.child Node.children Written.node
        by_cases hn : n = "ProbabilityDistributionSet"
        · simp [hn, Node.name]
        · simp [hn, Node.name, Ne.symm hn]
      unfold choice
      simp [hc, hr]
    rw [this]
    simp [distributionNode, Node.read, Node.attributes, hw.text]
  · simp only [law]
    rw [if_pos ⟨h1, hsum⟩]
  · simp
  · intro c hc
    obtain ⟨e, he, rfl⟩ := List.mem_map.1 hc
    exact div_nonneg (h1 e he) hsum.le
  · rw [List.map_map]
    have : (es.map (Prod.snd ∘ fun e : String × ℚ => (e.1, e.2 / (es.map (·.2)).sum))) =
        (es.map (·.2)).map (· * ((es.map (·.2)).sum)⁻¹) := by
      rw [List.map_map]
      apply List.map_congr_left
      intro e _
      simp [div_eq_mul_inv]
    rw [this, List.sum_map_mul_right, List.map_id']
    exact mul_inv_cancel₀ hsum.ne'
  · intro i j a b c d ha hb hc hd
    rw [List.getElem?_map, ha] at hc
    rw [List.getElem?_map, hb] at hd
    injection hc with hc
    injection hd with hd
    subst hc hd
    simp only
    ring

example : Weighted [("a", 1), ("b", 3)] := ⟨by simp, _, List.mem_cons_self, by norm_num⟩

/-- **C198, not so.** A normal distribution gets the variance written as its standard deviation: the variance
drawn with is right only if it is one. -/
theorem C198_variance_violated {w : World} {p : Printer} (hw : Faithful w p) (parameter : String)
    (r : Option Limits) (m v : ℚ) (hv : 0 < v) :
    ∃ d, readStochasticDistribution w (distributionNode p (parameter, .normal r m v)) = some (parameter, d) ∧
      law d = .normal m (v * v) ∧ (law d = .normal m v ↔ v = 1) := by
  have h : readNormal w ((Written.normal r m v).node p) = some (.normal none m v) := by
    unfold readNormal Written.node
    rw [range_absent]
    simp [Node.read, Node.attributes, List.lookup, hw.number]
  refine ⟨_, (read_normal hw parameter r m v).trans (by rw [h]; rfl), by simp [law, hv], ?_⟩
  simp only [law, hv, if_true, Law.normal.injEq, true_and]
  constructor
  · intro h
    have : v * (v - 1) = 0 := by linarith
    rcases mul_eq_zero.1 this with h | h
    · exact absurd h hv.ne'
    · linarith
  · rintro rfl
    norm_num

/-- **C198.** A Poisson distribution has the mean written. -/
theorem C198_poisson_partial {w : World} {p : Printer} (hw : Faithful w p) (parameter : String)
    (r : Option Limits) (m : ℚ) (hm : 0 < m) :
    ∃ d, readStochasticDistribution w (distributionNode p (parameter, .poisson r m)) = some (parameter, d) ∧
      law d = .poisson m := by
  refine ⟨.poisson none m, (read_poisson hw parameter r m).trans ?_, by simp [law, hm]⟩
  have : readPoisson w ((Written.poisson r m).node p) = some (.poisson none m) := ?_
  · rw [this]
    rfl
  unfold readPoisson Written.node
  rw [range_absent]
  simp [Node.read, Node.attributes, hw.number]

/-- **C198, not so.** The range written for a normal or a Poisson distribution is not kept: whatever the
range is, numbers outside of it may be drawn. -/
theorem C198_range_violated {w : World} {p : Printer} (hw : Faithful w p) (parameter : String) (r : Limits)
    (m v : ℚ) (hm : 0 < m) (hv : 0 < v) :
    (∃ d x, readStochasticDistribution w (distributionNode p (parameter, .normal (some r) m v)) = some (parameter, d) ∧
      (law d).Possible x ∧ r.2 < x) ∧
      ∃ d x, readStochasticDistribution w (distributionNode p (parameter, .poisson (some r) m)) = some (parameter, d) ∧
        (law d).Possible x ∧ r.2 < x := by
  obtain ⟨d, h1, h2, _⟩ := C198_variance_violated hw parameter (some r) m v hv
  obtain ⟨d', h1', h2'⟩ := C198_poisson_partial hw parameter (some r) m hm
  obtain ⟨n, hn⟩ := exists_nat_gt r.2
  exact ⟨⟨d, r.2 + 1, h1, by rw [h2]; trivial, by linarith⟩, d', n, h1', by rw [h2']; exact ⟨n, rfl⟩, hn⟩

/-- **C198, not so.** A uniform distribution cannot be drawn from: the range written is not found, and the
one that stands in for it goes from plus to minus infinity. -/
theorem C198_uniform_violated {w : World} {p : Printer} (hw : Faithful w p) (parameter : String) (r : Limits) :
    ∃ d, readStochasticDistribution w (distributionNode p (parameter, .uniform r)) = some (parameter, d) ∧
      law d = .undefined := ⟨.uniform none, (read_uniform hw parameter r).trans rfl, rfl⟩

/-- **C198, not so.** Nor can a histogram: the ranges of its bins are not found. -/
theorem C198_histogram_violated {w : World} {p : Printer} (hw : Faithful w p) (parameter : String)
    (bins : List (Limits × ℚ)) (hb : bins ≠ []) :
    ∃ d, readStochasticDistribution w (distributionNode p (parameter, .histogram bins)) = some (parameter, d) ∧
      law d = .undefined := by
  rw [read_histogram hw]
  have h : readElements "Bin" ((Written.histogram bins).node p) (readBin w) = some (bins.map fun b => (none, b.2)) := by
    unfold Written.node
    rw [readElements_map "Bin" (fun b : Limits × ℚ => Node.mk "Bin" [("weight", p.number b.2)] [rangeNode p b.1])
      (fun _ => rfl) _ _ (readBin w) (fun b => ((none : Range), b.2)) (by
        intro b
        unfold readBin
        rw [range_absent']
        simp [Node.read, Node.attributes, hw.number]) hb]
  unfold readHistogram
  rw [h]
  cases bins with
  | nil => exact absurd rfl hb
  | cons b bs =>
    refine ⟨_, rfl, ?_⟩
    have : ((b :: bs).map fun b : Limits × ℚ => ((none : Range), b.2)).mapM
        (fun b : Range × ℚ => b.1.map fun r => (r, b.2)) = none := by
      simp [List.mapM_cons]
    simp only [this]
    simp [law, piecewise, neighbours]

/-- **C198, not so.** And if they were found: the limits have the lower one of the first bin twice, so the
first interval is empty, every weight belongs to the bin before it, and a weight after the last is read. -/
theorem C198_bins_violated (b : (ℚ × ℚ) × ℚ) (bs : List ((ℚ × ℚ) × ℚ)) :
    law (adapt (b :: bs)) = .undefined ∧
      ∀ is ws, adapt (b :: bs) = .histogram is ws → (neighbours is).length = ws.length + 1 := by
  have hl : ∀ (a : ℚ) (l : List ℚ), (neighbours (a :: l)).length = l.length := by
    intro a l
    induction l generalizing a with
    | nil => rfl
    | cons c l ih => simp [neighbours, ih]
  have hlen : ∀ is ws, adapt (b :: bs) = .histogram is ws → (neighbours is).length = ws.length + 1 := by
    intro is ws h
    unfold adapt at h
    injection h with h1 h2
    subst h1 h2
    simp [hl, List.getLast?_eq_some_getLast]
  refine ⟨?_, hlen⟩
  cases hd : adapt (b :: bs) with
  | histogram is ws =>
    have := hlen is ws hd
    simp only [law, piecewise]
    rw [if_neg]
    rintro ⟨h, _⟩
    omega
  | _ => simp [adapt] at hd

/-- **C198, not so.** A logarithmic normal distribution is an error, although the schema has it. -/
theorem C198_logNormal_violated (w : World) (p : Printer) (parameter : String) (r : Option Limits) (m v : ℚ) :
    readStochasticDistribution w (distributionNode p (parameter, .logNormal r m v)) = none := rfl

/-! ### C199: runs, seeds and all parameters -/

/-- **C199** (partial: for one parameter). The number of runs, the seed, zero if there is none, and the
distribution are those written. -/
theorem C199_read_partial {w : World} {p : Printer} (hw : Faithful w p) (runs : ℕ) (seed : Option ℚ)
    (d : String × Written) (s : Stochastic) :
    readStochastic w (stochasticNode p runs seed [d]) = some s ↔
      s.runs = runs ∧ s.seed = seed.getD 0 ∧
        readStochasticDistribution w (distributionNode p d) = some s.distribution := by
  have hc : (stochasticNode p runs seed [d]).child "StochasticDistribution" = some (distributionNode p d) := rfl
  have h1 : (stochasticNode p runs seed [d]).read "numberOfTestRuns" w.unsigned = some runs := by
    simp [stochasticNode, Node.read, Node.attributes, hw.count]
  have h2 : (stochasticNode p runs seed [d]).readOr "randomSeed" w.double 0 = some (seed.getD 0) := by
    cases seed <;> simp [stochasticNode, Node.readOr, Node.attributes, List.lookup, hw.number]
  unfold readStochastic readElement
  rw [h1, h2, hc]
  simp only [Option.bind_some]
  cases readStochasticDistribution w (distributionNode p d) with
  | none => simp
  | some x =>
    obtain ⟨a, b, c⟩ := s
    simp only [Option.bind_some, Option.some.injEq, Stochastic.mk.injEq]
    exact ⟨fun h => ⟨h.1.symm, h.2.1.symm, h.2.2⟩, fun h => ⟨h.1.symm, h.2.1.symm, h.2.2⟩⟩

/-- **C199, not so.** All parameters but the first are passed over without a word. -/
theorem C199_others_violated (w : World) (p : Printer) (runs : ℕ) (seed : Option ℚ) (d : String × Written)
    (ds : List (String × Written)) :
    readStochastic w (stochasticNode p runs seed (d :: ds)) = readStochastic w (stochasticNode p runs seed [d]) := rfl

/-- **C199** (partial: for whole numbers of 32 bits). Different seeds start the engine differently. -/
theorem C199_seed_partial {a b : ℕ} (ha : a < 2 ^ 32) (hb : b < 2 ^ 32) :
    (∃ n, engineSeed a = some n) ∧ (engineSeed a = engineSeed b ↔ a = b) := by
  have h : ∀ a : ℕ, a < 2 ^ 32 → engineSeed a = some a := by
    intro a ha
    unfold engineSeed
    have h1 : (-1 : ℚ) < a := by
      have : (0 : ℚ) ≤ a := Nat.cast_nonneg a
      linarith
    have h2 : (a : ℚ) < 2 ^ 64 := by
      have : (a : ℚ) < 2 ^ 32 := by exact_mod_cast ha
      norm_num at this ⊢
      linarith
    rw [if_pos ⟨h1, h2⟩]
    have hf : (a : ℚ).floor = a := Rat.floor_intCast a
    rw [hf, Int.toNat_natCast, Nat.mod_eq_of_lt ha]
  rw [h a ha, h b hb]
  simp

example : engineSeed 0 ≠ engineSeed 1 := by
  have := (C199_seed_partial (a := 0) (b := 1) (by norm_num) (by norm_num)).2
  simpa using this

/-- **C199, not so.** Seeds that differ after the point, or by 2^32, start it alike; with a seed of minus one
or less what happens is not defined. -/
theorem C199_seed_violated : engineSeed (1 / 4) = engineSeed (3 / 4) ∧ engineSeed 5 = engineSeed (5 + 2 ^ 32) ∧
    ∀ s ≤ (-1 : ℚ), engineSeed s = none := by
  refine ⟨by decide +kernel, by decide +kernel, fun s hs => ?_⟩
  unfold engineSeed
  rw [if_neg]
  rintro ⟨h, _⟩
  linarith

/-! ### C200: distributions that go through values -/

/-- **C200** (partial: for the elements by themselves, but for the step of a range). A set of values, the
limits of a range and sets of assignments are read as they are written, in their order. -/
theorem C200_read_partial {w : World} {p : Printer} (hw : Faithful w p) (parameter : String) :
    (∀ vs, vs ≠ [] → readSingle w ((WrittenDeterministic.single parameter (.set vs)).node p) =
        some (.single parameter (.set vs))) ∧
      (∀ r s, readSingle w ((WrittenDeterministic.single parameter (.range r s)).node p) =
        some (.single parameter (.range (some r)))) ∧
      (∀ t, readSingle w ((WrittenDeterministic.single parameter (.user t)).node p) =
        some (.single parameter (.user t))) ∧
      ∀ sets : List (List (String × String)), sets ≠ [] → (∀ s ∈ sets, s ≠ []) →
        readMulti w ((WrittenDeterministic.multi sets).node p) = some (.multi sets) := by
  have hchild : ∀ (d : WrittenSingle) (n : String),
      (((WrittenDeterministic.single parameter d).node p).child n) =
        if (d.node p).name = n then some (d.node p) else none := by
    intro d n
    unfold WrittenDeterministic.node Node.child Node.children
    by_cases h : (d.node p).name = n <;> simp [h]
  have hname : ∀ d : WrittenSingle, ((WrittenDeterministic.single parameter d).node p).read "parameterName" w.string =
      some parameter := by
    intro d
    simp [WrittenDeterministic.node, Node.read, Node.attributes, hw.text]
  refine ⟨fun vs hvs => ?_, fun r s => ?_, fun t => ?_, fun sets h1 h2 => ?_⟩
  · have : readDistributionSet w ((WrittenSingle.set vs).node p) = some (.set vs) := by
      unfold readDistributionSet WrittenSingle.node
      rw [readElements_map "Element" (fun v : String => Node.mk "Element" [("value", v)] []) (fun _ => rfl) _ _ _ id
        (by intro v; simp [Node.read, Node.attributes, hw.text]) hvs]
      simp
    unfold readSingle choice
    simp only [List.filterMap_cons, List.filterMap_nil, hchild, hname]
    simp [WrittenSingle.node, Node.name] at this ⊢
    simp [this]
  · have : readDistributionRange w ((WrittenSingle.range r s).node p) = some (.range (some r)) := by
      unfold readDistributionRange WrittenSingle.node
      have : readElement "Range" (.mk "DistributionRange" [("stepWidth", p.number s)] [rangeNode p r]) (readRange w)
          (some none) = readRange w (rangeNode p r) := rfl
      rw [this]
      simp [readRange, rangeNode, Node.read, Node.attributes, List.lookup, hw.number]
    unfold readSingle choice
    simp only [List.filterMap_cons, List.filterMap_nil, hchild, hname]
    simp [WrittenSingle.node, Node.name] at this ⊢
    simp [this]
  · unfold readSingle choice
    simp only [List.filterMap_cons, List.filterMap_nil, hchild, hname]
    simp [WrittenSingle.node, Node.name, Node.read, Node.attributes, hw.text]
  · unfold readMulti
    have hc : ∀ make : Node → Option (List (List (String × String))),
        readElement "ValueSetDistribution" ((WrittenDeterministic.multi sets).node p) make none =
          make (.mk "ValueSetDistribution" [] (sets.map fun s => .mk "ParameterValueSet" []
            (s.map fun a => .mk "ParameterAssignment" [("parameterRef", a.1), ("value", a.2)] []))) := fun _ => rfl
    rw [hc]
    have hset : ∀ s ∈ sets, readElements "ParameterAssignment" (.mk "ParameterValueSet" []
        (s.map fun a => .mk "ParameterAssignment" [("parameterRef", a.1), ("value", a.2)] [])) (readAssignment w) =
          some s := by
      intro s hs
      rw [readElements_map "ParameterAssignment"
        (fun a : String × String => Node.mk "ParameterAssignment" [("parameterRef", a.1), ("value", a.2)] [])
        (fun _ => rfl) _ _ (readAssignment w) id (by
          intro a
          simp [readAssignment, Node.read, Node.attributes, List.lookup, hw.text]) (h2 s hs)]
      simp
    have hm : ∀ l : List (List (String × String)), (∀ s ∈ l, s ∈ sets) →
        (l.map fun s => Node.mk "ParameterValueSet" []
          (s.map fun a => .mk "ParameterAssignment" [("parameterRef", a.1), ("value", a.2)] [])).mapM
          (fun n => readElements "ParameterAssignment" n (readAssignment w)) = some l := by
      intro l hl
      induction l with
      | nil => rfl
      | cons s l ih =>
        simp only [List.map_cons, List.mapM_cons]
        rw [hset s (hl s (by simp)), ih fun s hs => hl s (by simp [hs])]
        rfl
    unfold readElements
    rw [named_all "ParameterValueSet" _ (fun _ => rfl), if_neg (by simpa using h1)]
    have := hm sets fun _ h => h
    unfold readElements at this
    rw [this]
    rfl

/-- **C200, not so.** The width of the steps is not read: ranges that differ in it are read alike. -/
theorem C200_step_violated (w : World) (p : Printer) (parameter : String) (r : Limits) (s t : ℚ) :
    readSingle w ((WrittenDeterministic.single parameter (.range r s)).node p) =
      readSingle w ((WrittenDeterministic.single parameter (.range r t)).node p) := rfl

/-- **C200, not so.** In a `Deterministic` element of the schema no distribution is found, whatever is
written; there is no error. -/
theorem C200_found_violated (w : World) (p : Printer) (ds : List WrittenDeterministic) :
    readDefinition w (.mk "ParameterValueDistribution" [] [(WrittenDefinition.deterministic ds).node p]) =
      some (.deterministic []) := by
  have h : readDeterministic w ((WrittenDefinition.deterministic ds).node p) = [] := by
    unfold readDeterministic readGroups
    rw [List.filterMap_eq_nil_iff]
    intro n hn
    obtain ⟨d, _, rfl⟩ := List.mem_map.1 hn
    cases d with
    | multi sets => rfl
    | single q d => cases d <;> rfl
  unfold readDefinition
  have : choice (.mk "ParameterValueDistribution" [] [(WrittenDefinition.deterministic ds).node p])
      [("Deterministic", fun n => some (Definition.deterministic (readDeterministic w n))),
        ("Stochastic", fun n => (readStochastic w n).map .stochastic)] =
      some (.deterministic (readDeterministic w ((WrittenDefinition.deterministic ds).node p))) := rfl
  rw [this, h]

end Verif.Distribution
