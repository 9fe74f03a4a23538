import Verif.Reader.Document
import Mathlib.Data.List.Forall2
/-
C116: elements are read as the schema says.
-/
namespace Verif.Reader

/-- The children of that name, in order: a specification of `xml_node::children` by recursion. -/
def Kids (name : String) : List Node → List Node → Prop
  | [], ks => ks = []
  | n :: ns, ks => (n.name = name ∧ ∃ ks', ks = n :: ks' ∧ Kids name ns ks') ∨ (n.name ≠ name ∧ Kids name ns ks)

theorem kids_filter (name : String) (ns ks : List Node) : Kids name ns ks ↔ ks = ns.filter (·.name == name) := by
  induction ns generalizing ks with
  | nil => simp [Kids]
  | cons n ns ih =>
    simp only [Kids, ih]
    by_cases h : n.name = name
    · simp [h]
    · simp [h]

theorem mapM_forall₂ {α β : Type} (f : α → Option β) (l : List α) (r : List β) : l.mapM f = some r ↔ List.Forall₂ (fun a b => f a = some b) l r := by
  induction l generalizing r with
  | nil =>
    simp only [List.mapM_nil, List.forall₂_nil_left_iff]
    constructor
    · intro h; cases h; rfl
    · rintro rfl; rfl
  | cons a l ih =>
    rw [List.mapM_cons, List.forall₂_cons_left_iff]
    constructor
    · intro h
      cases ha : f a with
      | none => rw [ha] at h; cases h
      | some b =>
        rw [ha] at h
        cases hl : l.mapM f with
        | none => rw [hl] at h; cases h
        | some r' =>
          rw [hl] at h
          cases h
          exact ⟨b, r', rfl, (ih r').mp hl, rfl⟩
    · rintro ⟨b, r', h1, h2, rfl⟩
      rw [h1, (ih r').mpr h2]
      rfl

/-- C116: elements that may occur several times are read one after the other in the order of the document, all of them, exactly if there are not too few or too many and
each can be read. -/
theorem C116_elements {α : Type} (least : Nat) (most : Option Nat) (name : String) (parent : Node) (make : Node → Option α) (r : List α) :
    readElements least most name parent make = some r ↔
      ∃ ks, Kids name parent.children ks ∧ least ≤ ks.length ∧ (∀ m, most = some m → ks.length ≤ m) ∧ List.Forall₂ (fun n x => make n = some x) ks r := by
  simp only [kids_filter, exists_eq_left]
  rw [readElements, Node.named]
  generalize parent.children.filter (·.name == name) = ks
  rw [← mapM_forall₂]
  cases ks with
  | nil =>
    by_cases h : least = 0
    · simp [h]
    · simp only [List.length_nil, ne_eq, not_true_eq_false, if_false, h, not_false_eq_true, if_true]
      constructor
      · intro h; cases h
      · rintro ⟨h', -⟩; omega
  | cons k ks =>
    rw [if_pos (by simp)]
    by_cases h1 : least ≤ (k :: ks).length
    · rw [if_neg (by omega)]
      cases most with
      | none =>
        rw [if_neg (by simp)]
        constructor
        · intro h; exact ⟨h1, fun m' h' => absurd h' (by simp), h⟩
        · rintro ⟨-, -, h⟩; exact h
      | some m =>
        simp only [Option.any_some, decide_eq_true_eq]
        by_cases h2 : m < (k :: ks).length
        · rw [if_pos h2]
          constructor
          · intro h; cases h
          · rintro ⟨-, h, -⟩
            have := h m rfl
            omega
        · rw [if_neg h2]
          constructor
          · intro h; exact ⟨h1, fun m' h' => by cases h'; omega, h⟩
          · rintro ⟨-, -, h⟩; exact h
    · rw [if_pos ⟨by omega, by omega⟩]
      constructor
      · intro h; cases h
      · rintro ⟨h, -⟩; omega

theorem child_iff (n : Node) (name : String) (c : Node) : n.child name = some c ↔ ∃ ks, Kids name n.children (c :: ks) := by
  simp only [kids_filter, Node.child]
  rw [← List.head?_filter]
  constructor
  · intro h
    cases hf : n.children.filter (·.name == name) with
    | nil => rw [hf] at h; cases h
    | cons k ks => rw [hf] at h; cases h; exact ⟨ks, rfl⟩
  · rintro ⟨ks, h⟩
    rw [← h]; rfl

theorem child_none (n : Node) (name : String) : n.child name = none ↔ Kids name n.children [] := by
  simp only [kids_filter, Node.child]
  rw [List.find?_eq_none, eq_comm, List.filter_eq_nil_iff]

/-- C116: an element that occurs is read, its default or an error is used if there is none. -/
theorem C116_element {α : Type} (name : String) (parent : Node) (make : Node → Option α) (absent : Option α) :
    (∀ c, Kids name parent.children [c] → readElement name parent make absent = make c) ∧ (Kids name parent.children [] → readElement name parent make absent = absent) := by
  constructor
  · intro c h
    rw [readElement, (child_iff _ _ _).mpr ⟨[], h⟩]
  · intro h
    rw [readElement, (child_none _ _).mpr h]

/-- C116: of alternatives, exactly one has to be given, and it is the one that is read. -/
theorem C116_choice {α : Type} (node : Node) (callees : List (String × (Node → Option α))) (r : α) :
    choice node callees = some r ↔ ∃ (l l' : List (String × (Node → Option α))) (name : String) (make : Node → Option α) (c : Node) (ks : List Node),
      callees = l ++ (name, make) :: l' ∧ Kids name node.children (c :: ks) ∧ make c = some r ∧ ∀ o ∈ l ++ l', Kids o.1 node.children [] := by
  have hnone : ∀ l : List (String × (Node → Option α)), (l.filterMap fun c => (node.child c.1).map fun n => (c.2, n)) = [] ↔ ∀ o ∈ l, Kids o.1 node.children [] := by
    intro l
    rw [List.filterMap_eq_nil_iff]
    constructor
    · intro h o ho
      have := h o ho
      rw [Option.map_eq_none_iff] at this
      exact (child_none _ _).mp this
    · intro h o ho
      rw [(child_none _ _).mpr (h o ho)]; rfl
  constructor
  · intro h
    rw [choice] at h
    split at h
    · rename_i make n hf
      rw [List.filterMap_eq_cons_iff] at hf
      obtain ⟨l, ⟨name, make'⟩, l', rfl, h1, h2, h3⟩ := hf
      simp only [Option.map_eq_some_iff] at h2
      obtain ⟨c, h2, h4⟩ := h2
      cases h4
      obtain ⟨ks, hk⟩ := (child_iff _ _ _).mp h2
      refine ⟨l, l', name, make, n, ks, rfl, hk, h, ?_⟩
      intro o ho
      rcases List.mem_append.mp ho with ho | ho
      · have := h1 o ho
        rw [Option.map_eq_none_iff] at this
        exact (child_none _ _).mp this
      · exact (hnone l').mp h3 o ho
    · cases h
  · rintro ⟨l, l', name, make, c, ks, rfl, h1, h2, h3⟩
    rw [choice, List.filterMap_append, List.filterMap_cons, (hnone l).mpr (fun o ho => h3 o (by simp [ho])), (hnone l').mpr (fun o ho => h3 o (by simp [ho])),
      (child_iff _ _ _).mpr ⟨ks, h1⟩]
    exact h2

/-- A traffic signal condition with one of its alternatives. -/
example : choice (.mk "EntityCondition" [.mk "SpeedCondition" []]) [("SpeedCondition", fun _ => some 1), ("AccelerationCondition", fun _ => some 2)] = some 1 := by decide

/-- Three of two to four elements. -/
example : readElements 2 (some 4) "Vertex" (.mk "Polyline" [.mk "Vertex" [], .mk "" [], .mk "Vertex" [.mk "Position" []], .mk "Vertex" []]) (fun n => some n.children.length) = some [0, 1, 0] := by
  decide

theorem child_other (m p : String) (u : Node) (pre post : List Node) (h : u.name ≠ p) : (Node.mk m (pre ++ u :: post)).child p = (Node.mk m (pre ++ post)).child p := by
  simp only [Node.child, Node.children, List.find?_append, List.find?_cons]
  rw [show (u.name == p) = false by simpa using h]

/-- C116 is violated by elements that the schema does not have: they are ignored, whatever is in them, so that a misspelt optional element is silently left out. -/
theorem C116_unknown_violated {α : Type} (m : String) (u : Node) (pre post : List Node) :
    (∀ (callees : List (String × (Node → Option α))), (∀ c ∈ callees, u.name ≠ c.1) → choice (.mk m (pre ++ u :: post)) callees = choice (.mk m (pre ++ post)) callees) ∧
      (∀ name (make : Node → Option α) absent, u.name ≠ name → readElement name (.mk m (pre ++ u :: post)) make absent = readElement name (.mk m (pre ++ post)) make absent) ∧
      (∀ name (make : Node → Option α) least most, u.name ≠ name →
        readElements least most name (.mk m (pre ++ u :: post)) make = readElements least most name (.mk m (pre ++ post)) make) := by
  refine ⟨?_, ?_, ?_⟩
  · intro callees h
    rw [choice, choice, List.filterMap_congr]
    intro c hc
    rw [child_other m c.1 u pre post (h c hc)]
  · intro name make absent h
    rw [readElement, readElement, child_other m name u pre post h]
  · intro name make least most h
    have : (Node.mk m (pre ++ u :: post)).named name = (Node.mk m (pre ++ post)).named name := by
      simp only [Node.named, Node.children, List.filter_append, List.filter_cons]
      rw [if_neg (by simpa using h)]
    rw [readElements, readElements, this]

/-- C116 is violated by elements that are allowed once and occur more often: the others are ignored. -/
theorem C116_twice_violated {α : Type} (m name : String) (first : Node) (others : List Node) (make : Node → Option α) (absent : Option α) (h : first.name = name) :
    readElement name (.mk m (first :: others)) make absent = make first ∧ choice (.mk m (first :: others)) [(name, make)] = make first := by
  have : (Node.mk m (first :: others)).child name = some first := by
    simp [Node.child, Node.children, h]
  rw [readElement, choice]
  simp [this]

/-- C116 is violated by distributions in a `Deterministic` element as the standard has them: none is read, and there is no error, whatever they are. -/
theorem C116_deterministic_violated {α : Type} (multi single : Node → Option α) (distributions : List Node)
    (h : ∀ d ∈ distributions, ∀ c ∈ d.children, c.name ≠ "DeterministicMultiParameterDistribution" ∧ c.name ≠ "DeterministicSingleParameterDistribution") :
    deterministic multi single (.mk "Deterministic" distributions) = some [] := by
  have : distributions.filterMap (fun child => choice child [("DeterministicMultiParameterDistribution", multi), ("DeterministicSingleParameterDistribution", single)]) = [] := by
    rw [List.filterMap_eq_nil_iff]
    intro d hd
    have h1 : ∀ name, (∀ c ∈ d.children, c.name ≠ name) → d.child name = none := by
      intro name h
      rw [Node.child, List.find?_eq_none]
      intro c hc
      simpa using h c hc
    simp [choice, h1 _ (fun c hc => (h d hd c hc).1), h1 _ (fun c hc => (h d hd c hc).2)]
  rw [deterministic, readGroups, Node.children, this]
  simp

/-- A distribution of one parameter over a set of two values, as the standard has it. -/
example : deterministic (α := Nat) (fun _ => some 1) (fun _ => some 2)
    (.mk "Deterministic" [.mk "DeterministicSingleParameterDistribution" [.mk "DistributionSet" [.mk "Element" [], .mk "Element" []]]]) = some [] :=
  C116_deterministic_violated _ _ _ (by decide)

end Verif.Reader
