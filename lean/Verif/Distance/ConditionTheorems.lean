import Verif.Distance.Conditions
import Mathlib.Tactic.Linarith
import Mathlib.Tactic.FieldSimp
import Mathlib.Tactic.Ring
import Mathlib.Algebra.Field.Rat
/-
C130: conditions on distances. C131: clearance. C132: time to collision.
-/
namespace Verif.Distance

open Verif.Parameter (Dbl Rule)
open Verif.Condition (EntitiesRule)

/-- What is to be measured: the separation along the entity, to its side, along the lane or across it. -/
inductive Separation (s : Sight) (free : Bool) : Coordinate → Kind → Routing → ℚ → Prop
  | ahead {p : ℚ × ℚ × ℚ} : (free = true ∧ s.boxWorld = some p ∨ free = false ∧ s.world = some p) → Separation s free .entity .longitudinal .undefined p.1
  | aside {p : ℚ × ℚ × ℚ} : (free = true ∧ s.boxWorld = some p ∨ free = false ∧ s.world = some p) → Separation s free .entity .lateral .undefined p.2.1
  | along {x : ℚ} {r : Routing} {change : Bool} : (r = .shortest ∧ change = true ∨ r = .undefined ∧ change = false) →
      (free = true ∧ (s.boxLane change).s = some x ∨ free = false ∧ (s.lane change).s = some x) → Separation s free .lane .longitudinal r x
  | across {x : ℚ} {r : Routing} {change : Bool} : (r = .shortest ∧ change = true ∨ r = .undefined ∧ change = false) →
      (free = true ∧ (s.boxLane change).offset = some x ∨ free = false ∧ (s.lane change).offset = some x) → Separation s free .lane .lateral r x

/-- A relative distance condition measures the magnitude of the separation, unless it is along or across the lane without a routing algorithm. -/
theorem C130_relative_partial (hypot : ℚ → ℚ → ℚ → ℚ) {s : Sight} {free : Bool} {c : Coordinate} {k : Kind} {r : Routing} {x : ℚ} (h : Separation s free c k r x)
    (hr : c = .entity ∨ r = .shortest) : relativeDistance hypot s c k r free = some (.fin |x|) := by
  cases h with
  | ahead h => rcases h with ⟨rfl, h⟩ | ⟨rfl, h⟩ <;> simp [relativeDistance, Sight.position, h, absolute, num]
  | aside h => rcases h with ⟨rfl, h⟩ | ⟨rfl, h⟩ <;> simp [relativeDistance, Sight.position, h, absolute, num]
  | along h1 h => rcases h1 with ⟨rfl, rfl⟩ | ⟨rfl, rfl⟩ <;> rcases h with ⟨rfl, h⟩ | ⟨rfl, h⟩ <;> simp_all [relativeDistance, Sight.relative, absolute, num]
  | across h1 h => rcases h1 with ⟨rfl, rfl⟩ | ⟨rfl, rfl⟩ <;> rcases h with ⟨rfl, h⟩ | ⟨rfl, h⟩ <;> simp_all [relativeDistance, Sight.relative, absolute, num]

/-- A distance condition measures the magnitude of the separation only along or across the lane with the shortest route; otherwise it measures the separation with its
sign. Without a routing algorithm so does a relative distance condition. -/
theorem C130_signed (hypot : ℚ → ℚ → ℚ → ℚ) {s : Sight} {free : Bool} {c : Coordinate} {k : Kind} {r : Routing} {x : ℚ} (h : Separation s free c k r x) :
    (r = .shortest → distance hypot s c k r free = some (.fin |x|)) ∧ (r = .undefined → distance hypot s c k r free = some (.fin x)) ∧
    (c = .lane → r = .undefined → relativeDistance hypot s c k r free = some (.fin x)) := by
  cases h with
  | ahead h => rcases h with ⟨rfl, h⟩ | ⟨rfl, h⟩ <;> simp [distance, Sight.position, h, num]
  | aside h => rcases h with ⟨rfl, h⟩ | ⟨rfl, h⟩ <;> simp [distance, Sight.position, h, num]
  | along h1 h => rcases h1 with ⟨rfl, rfl⟩ | ⟨rfl, rfl⟩ <;> rcases h with ⟨rfl, h⟩ | ⟨rfl, h⟩ <;> simp [relativeDistance, distance, Sight.relative, absolute, num, h]
  | across h1 h => rcases h1 with ⟨rfl, rfl⟩ | ⟨rfl, rfl⟩ <;> rcases h with ⟨rfl, h⟩ | ⟨rfl, h⟩ <;> simp [relativeDistance, distance, Sight.relative, absolute, num, h]

/-- The Euclidean distance is that of the relative position, for both conditions. -/
theorem C130_euclidean (hypot : ℚ → ℚ → ℚ → ℚ) (s : Sight) (free : Bool) (p : ℚ × ℚ × ℚ)
    (h : free = true ∧ s.boxWorld = some p ∨ free = false ∧ s.world = some p) :
    relativeDistance hypot s .entity .euclidean .undefined free = some (.fin (hypot p.1 p.2.1 p.2.2)) ∧
    distance hypot s .entity .euclidean .undefined free = some (.fin (hypot p.1 p.2.1 p.2.2)) := by
  rcases h with ⟨rfl, h⟩ | ⟨rfl, h⟩ <;> simp [relativeDistance, distance, Sight.position, h, norm, num]

/-- Which combinations are measured at all; the others throw. -/
theorem C130_supported (hypot : ℚ → ℚ → ℚ → ℚ) (s : Sight) (c : Coordinate) (k : Kind) (r : Routing) (free : Bool) :
    (relativeDistance hypot s c k r free ≠ none ↔ c = .entity ∧ r = .undefined ∨ c = .lane ∧ k ≠ .euclidean ∧ (r = .undefined ∨ r = .shortest)) ∧
    (distance hypot s c k r free ≠ none ↔ relativeDistance hypot s c k r free ≠ none) := by
  cases c <;> cases k <;> cases r <;> simp [relativeDistance, distance]

/-- A condition can be read exactly if its routing algorithm is measured in some combination. -/
theorem C130_constructible (hypot : ℚ → ℚ → ℚ → ℚ) (s : Sight) (r : Routing) (free : Bool) :
    constructible r = true ↔ ∃ c k, relativeDistance hypot s c k r free ≠ none := by
  simp only [(C130_supported hypot s _ _ r free).1, constructible, decide_eq_true_eq]
  constructor
  · rintro (rfl | rfl)
    · exact ⟨.lane, .lateral, .inr ⟨rfl, by decide, .inr rfl⟩⟩
    · exact ⟨.lane, .lateral, .inr ⟨rfl, by decide, .inl rfl⟩⟩
  · rintro ⟨c, k, ⟨_, h⟩ | ⟨_, _, h | h⟩⟩
    · exact .inr h
    · exact .inr h
    · exact .inl h

/-- Something that is not there has no distance: nothing is less, greater or equal, whatever the value. -/
theorem C130_absent (d : Option Dbl) (v : Dbl) : ∃ x, measure false d = some x ∧ ∀ r : Rule, r ≠ .notEqualTo → r.measured x v = false := by
  refine ⟨.nan, rfl, fun r hr => ?_⟩
  cases r <;> cases v <;> simp_all [Rule.measured, Rule.exact, Dbl.near, Dbl.lt, Dbl.le]

/-- An entity or position without a route, or off the lanes, has no distance along or across the lane. -/
theorem C130_no_route (hypot : ℚ → ℚ → ℚ → ℚ) (s : Sight) (free : Bool)
    (h : ∀ c, (s.lane c).s = none ∧ (s.boxLane c).s = none) (r : Routing) (hr : r = .undefined ∨ r = .shortest) :
    relativeDistance hypot s .lane .longitudinal r free = some .nan ∧ distance hypot s .lane .longitudinal r free = some .nan := by
  rcases hr with rfl | rfl <;> cases free <;> simp [relativeDistance, distance, Sight.relative, h, absolute, num]

/-- The condition as a whole: the measurements of all, of one, or of none of the triggering entities satisfy the rule. -/
theorem C130_entities {α : Type} (d : α → Option Dbl) (cmp : Rule) (v : Dbl) (l : List α) (hd : ∀ x ∈ l, d x ≠ none) :
    ∃ a b c, conditionMet .all d cmp v l = some a ∧ conditionMet .any d cmp v l = some b ∧ conditionMet .none d cmp v l = some c ∧
      (a = true ↔ ∀ x ∈ l, ∃ y, d x = some y ∧ cmp.measured y v = true) ∧ (b = true ↔ ∃ x ∈ l, ∃ y, d x = some y ∧ cmp.measured y v = true) ∧ (c = true ↔ ¬b = true) := by
  have key : ∀ (p : α → Bool) (l : List α), (Verif.Condition.allOf p l).1 = l.all p ∧ (Verif.Condition.anyOf p l).1 = l.any p ∧
      (∀ x ∈ (Verif.Condition.allOf p l).2, x ∈ l) ∧ (∀ x ∈ (Verif.Condition.anyOf p l).2, x ∈ l) := by
    intro p l
    induction l with
    | nil => simp [Verif.Condition.allOf, Verif.Condition.anyOf]
    | cons y l ih =>
      obtain ⟨i1, i2, i3, i4⟩ := ih
      cases hp : p y <;> simp [Verif.Condition.allOf, Verif.Condition.anyOf, hp, i1, i2] <;> intro x hx <;> simp_all
  have hs : ∀ l' : List α, (∀ x ∈ l', x ∈ l) → (l'.all fun x => (d x).isSome) = true := by
    intro l' h
    rw [List.all_eq_true]
    intro x hx
    exact Option.isSome_iff_ne_none.mpr (hd x (h x hx))
  have k1 := key (fun x => match d x with | some y => cmp.measured y v | none => false) l
  have k2 := key (fun x => match d x with | some y => cmp.measured y v | none => true) l
  refine ⟨_, _, _, if_pos (hs _ k1.2.2.1), if_pos (hs _ k2.2.2.2), if_pos (hs _ k2.2.2.2), ?_, ?_, ?_⟩
  · simp only [EntitiesRule.apply]
    refine (iff_of_eq (congrArg (· = true) k1.1)).trans ?_
    rw [List.all_eq_true]
    refine forall_congr' fun x => forall_congr' fun hx => ?_
    cases hdx : d x <;> simp
  · simp only [EntitiesRule.apply]
    refine (iff_of_eq (congrArg (· = true) k2.2.1)).trans ?_
    rw [List.any_eq_true]
    refine exists_congr fun x => and_congr_right fun hx => ?_
    cases hdx : d x <;> simp
    exact hd x hx hdx
  · simp [EntitiesRule.apply]

/-- A position behind or to the right is nearer than any distance, however far it is; for an entity so it is along or across the lane. -/
theorem C130_behind_violated (hypot : ℚ → ℚ → ℚ → ℚ) {s : Sight} {free : Bool} {c : Coordinate} {k : Kind} {x : ℚ} (h : Separation s free c k .undefined x) (hx : x < 0)
    (v : ℚ) (hv : 0 ≤ v) : (∃ y, distance hypot s c k .undefined free = some y ∧ Rule.lessThan.measured y (.fin v) = true) ∧
      (c = .lane → ∃ y, relativeDistance hypot s c k .undefined free = some y ∧ Rule.lessThan.measured y (.fin v) = true) := by
  have h' := C130_signed hypot h
  have hl : Rule.lessThan.measured (.fin x) (.fin v) = true := by simp [Rule.measured, Rule.exact, Dbl.lt]; linarith
  exact ⟨⟨_, h'.2.1 rfl, hl⟩, fun hc => ⟨_, h'.2.2 hc rfl, hl⟩⟩

/- Something 1000 m behind and 1 m to the left. -/
def far : Sight :=
  { world := some (-1000, 1, 0), boxWorld := some (-998, 1/2, 0), lane := fun _ => ⟨some (-1000), some 1⟩, boxLane := fun _ => ⟨some (-998), some 0⟩ }

example : Separation far false .entity .longitudinal .undefined (-1000) := .ahead (p := (-1000, 1, 0)) (.inr ⟨rfl, rfl⟩)
example : Separation far true .lane .longitudinal .shortest (-998) := .along (change := true) (.inl ⟨rfl, rfl⟩) (.inl ⟨rfl, rfl⟩)
example : ∀ x ∈ [1, 2], (fun _ : Nat => relativeDistance (fun _ _ _ => 0) far .lane .longitudinal .shortest true) x ≠ none := by decide +kernel
example (hypot : ℚ → ℚ → ℚ → ℚ) : relativeDistance hypot far .entity .longitudinal .undefined false = some (.fin 1000) ∧
    distance hypot far .entity .longitudinal .undefined false = some (.fin (-1000)) := by
  constructor
  · rw [C130_relative_partial hypot (Separation.ahead (p := (-1000, 1, 0)) (.inr ⟨rfl, rfl⟩)) (.inl rfl)]; norm_num
  · rfl

/-! ### C131 -/

/-- The entity is within the distances, along the heading of the triggering entity, and in one of the lanes. -/
def Within (c : Clearance) (back : Bool) (n : Neighbour) : Prop :=
  (c.ranges = [] ∨ ∃ x, n.lanes = some x ∧ ∃ r ∈ c.ranges, (∀ a, r.from? = some a → a ≤ (if back then -x else x)) ∧ (∀ b, r.to? = some b → (if back then -x else x) ≤ b)) ∧
  ∃ x, (if c.free then (n.sight.boxLane true).s else (n.sight.lane true).s) = some x ∧ -c.backward ≤ (if back then -x else x) ∧ (if back then -x else x) ≤ c.forward

theorem evaluate_iff (r : LaneRange) (x : Int) : r.evaluate x = true ↔ (∀ a, r.from? = some a → a ≤ x) ∧ (∀ b, r.to? = some b → x ≤ b) := by
  obtain ⟨f, t⟩ := r
  cases f <;> cases t <;> simp [LaneRange.evaluate]

theorem inRange_iff (c : Clearance) (hb : 0 ≤ c.backward) (hf : 0 ≤ c.forward) (back : Bool) (n : Neighbour) : c.inRange back n = true ↔ Within c back n := by
  simp only [Clearance.inRange, Within, Bool.and_eq_true]
  refine and_congr ?_ ?_
  · by_cases hr : c.ranges = []
    · simp [hr]
    · rw [if_neg (by simpa using hr)]
      cases hl : n.lanes with
      | none => simp [hr]
      | some x => simp [hr, List.any_eq_true, evaluate_iff]
  · have he : (n.sight.relative c.free true).s = if c.free then (n.sight.boxLane true).s else (n.sight.lane true).s := by
      simp only [Sight.relative]; split <;> rfl
    rw [← he]
    cases hs : (n.sight.relative c.free true).s with
    | none => simp
    | some x =>
      simp only [Option.some.injEq, exists_eq_left']
      generalize (if back = true then -x else x) = y
      by_cases hy : y < 0
      · simp only [hy, if_true, decide_eq_true_eq, abs_of_neg hy]
        constructor <;> intro h
        · constructor <;> linarith
        · linarith [h.1]
      · simp only [hy, if_false, decide_eq_true_eq]
        constructor <;> intro h
        · constructor <;> linarith
        · exact h.2

/-- Clearance of given entities: there is clearance exactly if none of them is within the range. Distances are not negative. -/
theorem C131_references (c : Clearance) (hb : 0 ≤ c.backward) (hf : 0 ≤ c.forward) (w : Scene) (t : String) (refs : List String) (hr : refs ≠ []) :
    (c.evaluate w .all [t] refs = true ↔ ∀ n ∈ refs, ¬Within c (w.back t) (w.see t n)) ∧ c.evaluate w .any [t] refs = c.evaluate w .all [t] refs ∧
    c.evaluate w .none [t] refs = !c.evaluate w .all [t] refs := by
  have hne : refs.isEmpty = false := by simpa using hr
  simp only [Clearance.evaluate, EntitiesRule.apply, Verif.Condition.allOf, Verif.Condition.anyOf, hne, Bool.not_false, if_true]
  generalize hp : (refs.all fun n => !c.inRange (w.back t) (w.see t n)) = p
  refine ⟨?_, ?_, ?_⟩
  · have : p = true ↔ ∀ n ∈ refs, ¬Within c (w.back t) (w.see t n) := by
      rw [← hp, List.all_eq_true]
      refine forall_congr' fun n => forall_congr' fun _ => ?_
      rw [← inRange_iff c hb hf]; simp
    rw [← this]; cases p <;> simp
  · cases p <;> simp
  · cases p <;> simp

/-- Clearance of all entities, for one triggering entity or for all of several: none of the others that are in the simulation is within the range. -/
theorem C131_everyone_partial (c : Clearance) (hb : 0 ≤ c.backward) (hf : 0 ≤ c.forward) (w : Scene) (l : List String) :
    c.evaluate w .all l [] = true ↔ ∀ t ∈ l, ∀ n, (n, true) ∈ w.objects → n ∉ l → ¬Within c (w.back t) (w.see t n) := by
  have k1 : ∀ (p : String → Bool) (l : List String), (Verif.Condition.allOf p l).1 = l.all p := by
    intro p l
    induction l with
    | nil => rfl
    | cons y l ih => cases hp : p y <;> simp [Verif.Condition.allOf, hp, ih]
  have k2 : ∀ l : List String, (Verif.Condition.allOf (fun _ => true) l).2 = l := by
    intro l
    induction l with
    | nil => rfl
    | cons y l ih => simp [Verif.Condition.allOf, ih]
  simp only [Clearance.evaluate, EntitiesRule.apply, k1, k2, List.isEmpty_nil, Bool.not_true, Bool.false_eq_true, if_false, List.all_eq_true]
  refine forall_congr' fun t => forall_congr' fun _ => ?_
  constructor
  · intro h n hn hl hw
    have := h (n, true) hn
    rw [if_neg (by simp), if_neg (by simpa using hl)] at this
    rw [← inRange_iff c hb hf] at hw
    simp [hw] at this
  · rintro h ⟨n, a⟩ hn
    cases a with
    | false => simp
    | true =>
      rw [if_neg (by simp)]
      by_cases hl : n ∈ l
      · rw [if_pos (by simpa using hl)]
      · rw [if_neg (by simpa using hl)]
        have := h n hn hl
        rw [← inRange_iff c hb hf] at this
        simpa using this

/-- With the rule any, only the first of several triggering entities is left out: if each of the others is within its own range, as it is at a distance of zero, then the
condition is not met although there is nobody else. -/
theorem C131_any_violated (c : Clearance) (hb : 0 ≤ c.backward) (hf : 0 ≤ c.forward) (w : Scene) (t u : String) (htu : t ≠ u) (hw : w.objects = [(t, true), (u, true)])
    (h1 : Within c (w.back t) (w.see t u)) (h2 : Within c (w.back u) (w.see u u)) :
    c.evaluate w .any [t, u] [] = false ∧ ∀ n, (n, true) ∈ w.objects → n ∈ [t, u] := by
  rw [← inRange_iff c hb hf] at h1 h2
  have e : ¬u = t := htu.symm
  refine ⟨?_, by simp [hw]⟩
  simp [Clearance.evaluate, EntitiesRule.apply, Verif.Condition.anyOf, hw, h1, h2, e]

/-- Two cars in one lane whose bodies overlap: with free space and only the space ahead of interest, the one behind reports clearance. -/
theorem C131_overlap_violated : ∃ (a b : Box ℚ) (d : ℚ) (n : Neighbour) (w : Scene) (c : Clearance), 0 < d ∧ d < a.front - b.rear ∧
    (n.sight.boxLane true).s = boxLongitudinal a b (some d) ∧ n.lanes = some 0 ∧ w.see "a" "b" = n ∧ w.back "a" = false ∧
    c.free = true ∧ c.forward = 10 ∧ c.backward = 0 ∧ c.ranges = [] ∧ c.evaluate w .all ["a"] ["b"] = true :=
  let a : Box ℚ := ⟨1, 0, 4, 2⟩
  let n : Neighbour := ⟨some 0, ⟨none, none, fun _ => ⟨some 2, some 0⟩, fun _ => ⟨boxLongitudinal a a (some 2), some 0⟩⟩⟩
  ⟨a, a, 2, n, ⟨[("a", true), ("b", true)], fun _ => false, fun _ _ => n⟩, ⟨0, 10, true, []⟩, by decide +kernel, by decide +kernel, rfl, rfl, rfl, rfl, rfl, rfl, rfl, rfl,
    by decide +kernel⟩

/- Cars `a` and `b` in one lane, `b` 20 m ahead of `a`, and `c` one lane to the left and 5 m ahead of `a`. -/
def seenAt (lanes : Int) (x : ℚ) : Neighbour := ⟨some lanes, ⟨none, none, fun _ => ⟨some x, some 0⟩, fun _ => ⟨some x, some 0⟩⟩⟩
def scene : Scene :=
  { objects := [("a", true), ("b", true), ("c", true), ("d", false)]
    back := fun _ => false
    see := fun t n => if t = n then seenAt 0 0 else if n = "b" then seenAt 0 20 else if n = "c" then seenAt 1 5 else seenAt 0 0 }
def same10 : Clearance := ⟨10, 10, false, [⟨some 0, some 0⟩]⟩

example : same10.evaluate scene .all ["a"] [] = true ∧ same10.evaluate scene .all ["a"] ["b", "c"] = true ∧
    Clearance.evaluate ⟨10, 10, false, []⟩ scene .all ["a"] [] = false ∧ 0 ≤ same10.backward ∧ 0 ≤ same10.forward := by decide +kernel
example : Within same10 false (seenAt 0 0) :=
  ⟨.inr ⟨0, rfl, ⟨some 0, some 0⟩, by simp [same10], by simp, by simp⟩, 0, rfl, by simp [same10], by simp [same10]⟩

/-! ### C132 -/

/-- The triggering entity is at `xt` and the reference entity at `xr` on a line, and both face forwards. -/
def line (xt xr : ℚ) : Sight :=
  { world := some (xr - xt, 0, 0), boxWorld := some (xr - xt, 0, 0), lane := fun _ => ⟨some (xr - xt), some 0⟩, boxLane := fun _ => ⟨some (xr - xt), some 0⟩ }

/-- The time after which the two are at the same place, if their speeds do not change. -/
def Collide (xt vt xr vr t : ℚ) : Prop := 0 ≤ t ∧ xt + vt * t = xr + vr * t

/-- If the triggering entity is behind and faster, the time to collision is the time until the two are at the same place. -/
theorem C132_behind_partial (hypot : ℚ → ℚ → ℚ → ℚ) (xt vt xr vr : ℚ) (hx : xt < xr) (hv : vr < vt) (free : Bool) (c : Coordinate) (r : Routing)
    (hcr : c = .entity ∧ r = .undefined ∨ c = .lane ∧ (r = .undefined ∨ r = .shortest)) :
    ∃ t, timeToEntity hypot true (line xt xr) (some (vt - vr, 0, 0)) c .longitudinal r free = some (.fin t) ∧ Collide xt vt xr vr t ∧
      ∀ t', Collide xt vt xr vr t' → t' = t := by
  have hp : 0 < vt - vr := by linarith
  have hd : 0 < xr - xt := by linarith
  refine ⟨(xr - xt) / (vt - vr), ?_, ⟨le_of_lt (div_pos hd hp), ?_⟩, ?_⟩
  · have hm : max0 (component hypot (some (vt - vr, (0 : ℚ), (0 : ℚ))) .longitudinal) = .fin (vt - vr) := by
      simp [max0, component, num, not_lt_of_gt hp]
    have hdv : div (.fin (xr - xt)) (.fin (vt - vr)) = .fin ((xr - xt) / (vt - vr)) := by simp only [div]; rw [if_neg hp.ne']
    have ha : |xr - xt| = xr - xt := abs_of_pos hd
    rcases hcr with ⟨rfl, rfl⟩ | ⟨rfl, rfl | rfl⟩ <;> cases free <;>
      simp [timeToEntity, measure, relativeDistance, Sight.position, Sight.relative, line, absolute, num, ha] <;> rw [hm, hdv]
  · field_simp; ring
  · rintro t' ⟨_, h⟩
    rw [eq_div_iff hp.ne']; linarith

/-- The triggering entity is at `yt` and the reference entity at `yr` across a line, and both face forwards. -/
def beside (yt yr : ℚ) : Sight :=
  { world := some (0, yr - yt, 0), boxWorld := some (0, yr - yt, 0), lane := fun _ => ⟨some 0, some (yr - yt)⟩, boxLane := fun _ => ⟨some 0, some (yr - yt)⟩ }

/-- Likewise sideways: if the triggering entity is to the right and faster to the left. Its speed along the line does not matter. -/
theorem C132_beside_partial (hypot : ℚ → ℚ → ℚ → ℚ) (yt vt yr vr u : ℚ) (hx : yt < yr) (hv : vr < vt) (free : Bool) (c : Coordinate) (r : Routing)
    (hcr : c = .entity ∧ r = .undefined ∨ c = .lane ∧ (r = .undefined ∨ r = .shortest)) :
    ∃ t, timeToEntity hypot true (beside yt yr) (some (u, vt - vr, 0)) c .lateral r free = some (.fin t) ∧ Collide yt vt yr vr t ∧
      ∀ t', Collide yt vt yr vr t' → t' = t := by
  have hp : 0 < vt - vr := by linarith
  have hd : 0 < yr - yt := by linarith
  refine ⟨(yr - yt) / (vt - vr), ?_, ⟨le_of_lt (div_pos hd hp), ?_⟩, ?_⟩
  · have hm : max0 (component hypot (some (u, vt - vr, (0 : ℚ))) .lateral) = .fin (vt - vr) := by
      simp [max0, component, num, not_lt_of_gt hp]
    have hdv : div (.fin (yr - yt)) (.fin (vt - vr)) = .fin ((yr - yt) / (vt - vr)) := by simp only [div]; rw [if_neg hp.ne']
    have ha : |yr - yt| = yr - yt := abs_of_pos hd
    rcases hcr with ⟨rfl, rfl⟩ | ⟨rfl, rfl | rfl⟩ <;> cases free <;>
      simp [timeToEntity, measure, relativeDistance, Sight.position, Sight.relative, beside, absolute, num, ha] <;> rw [hm, hdv]
  · field_simp; ring
  · rintro t' ⟨_, h⟩
    rw [eq_div_iff hp.ne']; linarith

example : ∃ t, timeToEntity (fun x _ _ => x) true (beside 0 3) (some (10, 2 - 1/2, 0)) .lane .lateral .shortest true = some (.fin t) ∧ Collide 0 2 3 (1/2) t :=
  (C132_beside_partial (fun x _ _ => x) 0 2 3 (1/2) 10 (by norm_num) (by norm_num) true .lane .shortest (.inr ⟨rfl, .inr rfl⟩)).imp fun _ h => ⟨h.1, h.2.1⟩

/-- To a position ahead: the time until the entity is there. -/
theorem C132_position_partial (hypot : ℚ → ℚ → ℚ → ℚ) (x v xp : ℚ) (hx : x < xp) (hv : 0 < v) (free : Bool) (c : Coordinate) (r : Routing)
    (hcr : c = .entity ∧ r = .undefined ∨ c = .lane ∧ (r = .undefined ∨ r = .shortest)) :
    ∃ t, timeToPosition hypot true (line x xp) (v, 0, 0) c .longitudinal r free = some (.fin t) ∧ Collide x v xp 0 t := by
  have hd : 0 < xp - x := by linarith
  refine ⟨(xp - x) / v, ?_, le_of_lt (div_pos hd hv), ?_⟩
  · have hm : max0 (component hypot (some (v, (0 : ℚ), (0 : ℚ))) .longitudinal) = .fin v := by
      simp [max0, component, num, not_lt_of_gt hv]
    have hdv : div (.fin (xp - x)) (.fin v) = .fin ((xp - x) / v) := by simp only [div]; rw [if_neg hv.ne']
    have ha : |xp - x| = xp - x := abs_of_pos hd
    rcases hcr with ⟨rfl, rfl⟩ | ⟨rfl, rfl | rfl⟩ <;> cases free <;>
      simp [timeToPosition, measure, distance, Sight.position, Sight.relative, line, absolute, num, ha] <;> rw [hm, hdv]
  · field_simp; ring

/-- The condition throws exactly if the distance cannot be measured, and while one of the two is not in the simulation it is not met by any rule but `notEqualTo`. -/
theorem C132_defined (hypot : ℚ → ℚ → ℚ → ℚ) (s : Sight) (v : Option (ℚ × ℚ × ℚ)) (c : Coordinate) (k : Kind) (r : Routing) (free : Bool) :
    (timeToEntity hypot true s v c k r free = none ↔ ¬(c = .entity ∧ r = .undefined ∨ c = .lane ∧ k ≠ .euclidean ∧ (r = .undefined ∨ r = .shortest))) ∧
    (∃ x, timeToEntity hypot false s v c k r free = some x ∧ ∀ rule : Rule, rule ≠ .notEqualTo → ∀ value, rule.measured x value = false) := by
  refine ⟨?_, .nan, by simp [timeToEntity, measure, div], fun rule hr value => ?_⟩
  · rw [← (C130_supported hypot s c k r free).1]
    simp [timeToEntity, measure]
  · cases rule <;> cases value <;> simp_all [Rule.measured, Rule.exact, Dbl.near, Dbl.lt, Dbl.le]

/-- Entities that move apart, or do not approach, have an infinite time to collision, so the rule `greaterThan` is met for every value. -/
theorem C132_apart_violated (hypot : ℚ → ℚ → ℚ → ℚ) (xt vt xr vr : ℚ) (hx : xt < xr) (hv : vt ≤ vr) (free : Bool) (v : ℚ) :
    (∀ t, ¬Collide xt vt xr vr t) ∧
    ∃ x, timeToEntity hypot true (line xt xr) (some (vt - vr, 0, 0)) .entity .longitudinal .undefined free = some x ∧ Rule.greaterThan.measured x (.fin v) = true := by
  have hd : 0 < xr - xt := by linarith
  refine ⟨?_, .inf true, ?_, by simp [Rule.measured, Rule.exact, Dbl.lt]⟩
  · rintro t ⟨h0, h⟩
    nlinarith [mul_nonneg h0 (sub_nonneg.mpr hv)]
  · have hm : max0 (component hypot (some (vt - vr, (0 : ℚ), (0 : ℚ))) .longitudinal) = .fin 0 := by
      simp only [max0, component, num, Option.map_some]
      split
      · rfl
      · congr 1; linarith
    have hdv : div (.fin (xr - xt)) (.fin 0) = .inf true := by
      simp only [div, if_true]; rw [if_neg hd.ne', decide_eq_true hd]
    have ha : |xr - xt| = xr - xt := abs_of_pos hd
    cases free <;> simp [timeToEntity, measure, relativeDistance, Sight.position, line, absolute, num, ha] <;> rw [hm, hdv]

/-- If the reference entity is behind, it is the other way round: when it catches up, the time to collision is infinite, and when it falls behind, it is finite. -/
theorem C132_ahead_violated (hypot : ℚ → ℚ → ℚ → ℚ) (xt vt xr vr : ℚ) (hx : xr < xt) (free : Bool) :
    (vt < vr → (∃ t, Collide xt vt xr vr t) ∧ timeToEntity hypot true (line xt xr) (some (vt - vr, 0, 0)) .entity .longitudinal .undefined free = some (.inf true)) ∧
    (vr < vt → (∀ t, ¬Collide xt vt xr vr t) ∧
      ∃ t, timeToEntity hypot true (line xt xr) (some (vt - vr, 0, 0)) .entity .longitudinal .undefined free = some (.fin t)) := by
  have hd : 0 < xt - xr := by linarith
  have ha : |xr - xt| = xt - xr := by rw [abs_of_neg] <;> linarith
  constructor
  · intro hv
    have hp : 0 < vr - vt := by linarith
    refine ⟨⟨(xt - xr) / (vr - vt), le_of_lt (div_pos hd hp), by field_simp; ring⟩, ?_⟩
    have hm : max0 (component hypot (some (vt - vr, (0 : ℚ), (0 : ℚ))) .longitudinal) = .fin 0 := by
      simp only [max0, component, num, Option.map_some]
      rw [if_pos (by linarith)]
    have hdv : div (.fin (xt - xr)) (.fin 0) = .inf true := by
      simp only [div, if_true]; rw [if_neg hd.ne', decide_eq_true hd]
    cases free <;> simp [timeToEntity, measure, relativeDistance, Sight.position, line, absolute, num, ha] <;> rw [hm, hdv]
  · intro hv
    have hp : 0 < vt - vr := by linarith
    refine ⟨?_, (xt - xr) / (vt - vr), ?_⟩
    · rintro t ⟨h0, h⟩
      nlinarith [mul_nonneg h0 hp.le]
    · have hm : max0 (component hypot (some (vt - vr, (0 : ℚ), (0 : ℚ))) .longitudinal) = .fin (vt - vr) := by
        simp [max0, component, num, not_lt_of_gt hp]
      have hdv : div (.fin (xt - xr)) (.fin (vt - vr)) = .fin ((xt - xr) / (vt - vr)) := by simp only [div]; rw [if_neg hp.ne']
      cases free <;> simp [timeToEntity, measure, relativeDistance, Sight.position, line, absolute, num, ha] <;> rw [hm, hdv]

/-- Along the lane, without a routing algorithm, something behind is about to collide with an entity that stands: the time is minus infinity, and less than every
value. -/
theorem C132_standing_violated (hypot : ℚ → ℚ → ℚ → ℚ) (xt xr : ℚ) (hx : xr < xt) (free : Bool) (v : ℚ) :
    (∀ t, ¬Collide xt 0 xr 0 t) ∧
    ∃ x, timeToEntity hypot true (line xt xr) (some (0, 0, 0)) .lane .longitudinal .undefined free = some x ∧ Rule.lessThan.measured x (.fin v) = true := by
  refine ⟨?_, .inf false, ?_, by simp [Rule.measured, Rule.exact, Dbl.lt]⟩
  · rintro t ⟨_, h⟩; linarith
  · have h1 : ¬(xr - xt = 0) := by intro h; linarith
    have h2 : ¬(0 < xr - xt) := by intro h; linarith
    cases free <;> simp only [timeToEntity, measure, relativeDistance, Sight.relative, line, num, component, max0, div, Option.map_some, if_true, if_false, Bool.false_eq_true, lt_irrefl, h1, h2, decide_false]

/-- The Euclidean time to collision with a position is the distance divided by the speed, whichever way the entity moves. -/
theorem C132_euclidean_violated (hypot : ℚ → ℚ → ℚ → ℚ) (h : ∀ x, hypot x 0 0 = |x|) (x v xp : ℚ) (hx : x < xp) (hv : v < 0) (free : Bool) :
    (∀ t, ¬Collide x v xp 0 t) ∧
    timeToPosition hypot true (line x xp) (v, 0, 0) .entity .euclidean .undefined free = some (.fin ((xp - x) / -v)) := by
  have hd : 0 < xp - x := by linarith
  refine ⟨?_, ?_⟩
  · rintro t ⟨h0, h⟩
    nlinarith [mul_nonneg h0 (neg_nonneg.mpr hv.le)]
  · have hv' : ¬(-v < 0) := by intro h; linarith
    have hv'' : ¬(-v = 0) := by intro h; linarith
    have e1 : |xp - x| = xp - x := abs_of_pos hd
    have e2 : |v| = -v := abs_of_neg hv
    cases free <;> simp only [timeToPosition, measure, distance, Sight.position, line, norm, num, component, max0, div, Option.map_some, if_true, if_false, h, e1, e2, hv', hv'', Bool.false_eq_true]

example : (∀ x : ℚ, (fun x y z => |x| + |y| + |z| : ℚ → ℚ → ℚ → ℚ) x 0 0 = |x|) := by simp
example : Collide 0 20 100 10 10 := ⟨by norm_num, by norm_num⟩

end Verif.Distance
