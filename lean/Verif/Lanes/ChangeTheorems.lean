import Mathlib.Algebra.Order.Field.Rat
import Mathlib.Data.Rat.Floor
import Mathlib.Tactic.Ring
import Verif.Lanes.Spec
/-!
Lane changes go where they are asked to.
-/

namespace Verif.Lanes
open Verif.Lanes.Spec

/-! ### The lane -/

theorem beside_known {r : Roads} {id : Id} {d : Direction} (h : r.known id = true) :
    beside r id d = .ok (match d with | .straight => some id | .left => r.left id | .right => r.right id) := by
  cases d <;> simp only [beside, h, if_true]

/-- The neighbour on the side asked for. -/
theorem shifted_some {r : Roads} {d : Direction} {f : Nat → Option Nat} (hf : ∀ i, r.known i = true → beside r i d = .ok (f i))
    (hk : ∀ i j, f i = some j → r.known j = true) (n : Nat) (id : Id) (hid : r.known id = true) (b : Id) :
    shifted r d n id = .ok (some b) ↔ Over f n id b := by
  induction n generalizing id with
  | zero =>
    constructor
    · intro h
      simp only [shifted] at h
      cases h
      exact .here _
    · intro h
      cases h
      rfl
  | succ n ih =>
    simp only [shifted, hf id hid]
    constructor
    · intro h
      cases hi : f id with
      | none =>
        rw [hi] at h
        cases h
      | some j =>
        rw [hi] at h
        exact .next hi ((ih j (hk _ _ hi)).1 h)
    · intro h
      cases h with
      | next h1 h2 =>
        rw [h1]
        exact (ih _ (hk _ _ h1)).2 h2

theorem shifted_ok {r : Roads} {d : Direction} {f : Nat → Option Nat} (hf : ∀ i, r.known i = true → beside r i d = .ok (f i))
    (hk : ∀ i j, f i = some j → r.known j = true) (n : Nat) (id : Id) (hid : r.known id = true) :
    ∃ o, shifted r d n id = .ok o := by
  induction n generalizing id with
  | zero => exact ⟨_, rfl⟩
  | succ n ih =>
    simp only [shifted, hf id hid]
    cases hi : f id with
    | none => exact ⟨none, rfl⟩
    | some j => exact ih j (hk _ _ hi)

theorem reference_ok {a : Actor} {others : String → Option (Option Nat)} {entity : String} {id : Nat} (h : Starts a others entity id) :
    reference a others entity = .ok id := by
  rcases h with ⟨h1, h2⟩ | ⟨h1, h2⟩
  · simp [reference, h1, h2]
  · simp [reference, h1, h2]

theorem reference_not {a : Actor} {others : String → Option (Option Nat)} {entity : String} (h : ∀ id, ¬ Starts a others entity id) :
    reference a others entity = .error .thrown := by
  unfold reference
  by_cases he : entity = a.name
  · rw [if_pos he]
    cases hl : a.lanelet with
    | none => rfl
    | some id => exact absurd (Or.inl ⟨he, hl⟩) (h id)
  · rw [if_neg he]
    match ho : others entity with
    | none => rfl
    | some none => rfl
    | some (some id) => exact absurd (Or.inr ⟨he, ho⟩) (h id)

/-- The target of a change by less than 256 lanes. -/
theorem target_eq {r : Roads} {id : Id} {value : Int} (hid : r.known id = true)
    (hl : ∀ i j, r.left i = some j → r.known j = true) (hr : ∀ i j, r.right i = some j → r.known j = true)
    (h : value.natAbs < 256) :
    ∃ o, (do laneChangeable r id (directionOf value) (← shiftOf value)) = .ok o ∧
      ∀ b, o = some b ↔ Over (if value < 0 then r.right else r.left) value.natAbs id b := by
  have hs : shiftOf value = .ok value.natAbs := by
    unfold shiftOf
    rw [if_neg (by omega), Nat.mod_eq_of_lt h]
  rw [hs]
  simp only [bind, Except.bind]
  by_cases h0 : value.natAbs = 0
  · rw [h0]
    refine ⟨some id, by simp [laneChangeable, beside, hid], fun b => ?_⟩
    constructor
    · rintro ⟨⟩
      exact .here _
    · intro h
      cases h
      rfl
  · unfold laneChangeable
    rw [if_neg h0]
    by_cases hn : value < 0
    · have hd : directionOf value = .right := by simp [directionOf, hn]
      rw [hd, if_pos hn]
      have hf : ∀ i, r.known i = true → beside r i .right = .ok (r.right i) := fun i hi => beside_known hi
      obtain ⟨o, ho⟩ := shifted_ok hf hr value.natAbs id hid
      refine ⟨o, ho, fun b => ?_⟩
      rw [← shifted_some hf hr value.natAbs id hid b, ho]
      exact ⟨fun h => by rw [h], fun h => by cases h; rfl⟩
    · have hd : directionOf value = .left := by
        have h1 : value ≠ 0 := by omega
        simp [directionOf, hn, h1]
      rw [hd, if_neg hn]
      have hf : ∀ i, r.known i = true → beside r i .left = .ok (r.left i) := fun i hi => beside_known hi
      obtain ⟨o, ho⟩ := shifted_ok hf hl value.natAbs id hid
      refine ⟨o, ho, fun b => ?_⟩
      rw [← shifted_some hf hl value.natAbs id hid b, ho]
      exact ⟨fun h => by rw [h], fun h => by cases h; rfl⟩

theorem changeRelative_eq {K : Type} {r : Roads} {a : Actor} {others : String → Option (Option Nat)} {old : Request K} {entity : String} {value : Int}
    {offset : K} {id : Id} (h : reference a others entity = .ok id) :
    changeRelative r a others old entity value offset = (do
      match ← (do laneChangeable r id (directionOf value) (← shiftOf value)) with
      | none => .error .thrown
      | some id' => request a old (id', offset)) := by
  unfold changeRelative requestRelative
  cases shiftOf value with
  | error e => rfl
  | ok n =>
    simp only [bind, Except.bind, h]
    try (rcases laneChangeable r id (directionOf value) n with e | (_ | o) <;> rfl)

/-- A lane change relative to an entity takes a vehicle to the lane so many lanes to the left of that of the entity, to the right
for a negative number, with the offset asked for, if there is such a lane. Missing: numbers of lanes from 256 on, see
`C153_wrapped_violated`, and pedestrians, see `C153_pedestrian_violated`. -/
theorem C153_relative_partial {K : Type} (r : Roads) (a : Actor) (others : String → Option (Option Nat)) (old : Request K) (entity : String)
    (value : Int) (offset : K) (id : Nat) (hv : a.kind = .vehicle) (hs : Starts a others entity id) (hid : r.known id = true)
    (hl : ∀ i j, r.left i = some j → r.known j = true) (hr : ∀ i j, r.right i = some j → r.known j = true)
    (h : value.natAbs < 256) (target : Nat) (ht : Over (if value < 0 then r.right else r.left) value.natAbs id target) :
    changeRelative r a others old entity value offset = .ok (some (target, offset)) := by
  obtain ⟨o, ho, hb⟩ := target_eq (value := value) hid hl hr h
  rw [changeRelative_eq (reference_ok hs), ho, (hb target).2 ht]
  simp only [bind, Except.bind, request, hv]

/-- If there is no such lane, or the entity is not there or not on a lane, there is an error. -/
theorem C153_refused {K : Type} (r : Roads) (a : Actor) (others : String → Option (Option Nat)) (old : Request K) (entity : String)
    (value : Int) (offset : K) (hk : ∀ id, Starts a others entity id → r.known id = true)
    (hl : ∀ i j, r.left i = some j → r.known j = true) (hr : ∀ i j, r.right i = some j → r.known j = true)
    (h : value.natAbs < 256)
    (ht : ¬ ∃ id target, Starts a others entity id ∧ Over (if value < 0 then r.right else r.left) value.natAbs id target) :
    changeRelative r a others old entity value offset = .error .thrown := by
  by_cases hs : ∃ id, Starts a others entity id
  · obtain ⟨id, hs⟩ := hs
    obtain ⟨o, ho, hb⟩ := target_eq (value := value) (hk id hs) hl hr h
    rw [changeRelative_eq (reference_ok hs), ho]
    cases o with
    | none => rfl
    | some b => exact absurd ⟨id, b, hs, (hb b).1 rfl⟩ ht
  · have h1 : shiftOf value = .ok value.natAbs := by
      unfold shiftOf
      rw [if_neg (by omega), Nat.mod_eq_of_lt h]
    unfold changeRelative requestRelative
    rw [h1, reference_not fun id h => hs ⟨id, h⟩]
    rfl

/-- The number of lanes counts modulo 256: a change by 256 lanes is one to the lane of the entity itself. -/
theorem C153_wrapped_violated {K : Type} (r : Roads) (a : Actor) (others : String → Option (Option Nat)) (old : Request K) (entity : String)
    (value : Int) (offset : K) (id : Nat) (hv : a.kind = .vehicle) (hs : Starts a others entity id) (hid : r.known id = true)
    (h : value.natAbs % 256 = 0) (hm : value ≠ -9223372036854775808) :
    changeRelative r a others old entity value offset = .ok (some (id, offset)) := by
  rw [changeRelative_eq (reference_ok hs)]
  simp only [shiftOf, if_neg hm, h, bind, Except.bind, laneChangeable, if_true, beside_known hid, request, hv]

/-- A pedestrian may be asked to change lanes, and does not. Nothing says so. -/
theorem C153_pedestrian_violated {K : Type} (r : Roads) (a : Actor) (others : String → Option (Option Nat)) (old : Request K) (entity : String)
    (value : Int) (offset : K) (id : Nat) (hv : a.kind = .other) (hs : Starts a others entity id) (hid : r.known id = true)
    (hl : ∀ i j, r.left i = some j → r.known j = true) (hr : ∀ i j, r.right i = some j → r.known j = true)
    (h : value.natAbs < 256) (target : Nat) (ht : Over (if value < 0 then r.right else r.left) value.natAbs id target) :
    changeRelative r a others old entity value offset = .ok old := by
  obtain ⟨o, ho, hb⟩ := target_eq (value := value) hid hl hr h
  rw [changeRelative_eq (reference_ok hs), ho, (hb target).2 ht]
  simp only [bind, Except.bind, request, hv]

/-- The ego is never given a lane change: asking for one is an error. -/
theorem C153_ego {K : Type} (r : Roads) (a : Actor) (others : String → Option (Option Nat)) (old new : Request K) (entity : String)
    (value : Int) (offset : K) (hv : a.kind = .ego) : changeRelative r a others old entity value offset ≠ .ok new := by
  intro h
  unfold changeRelative requestRelative at h
  cases h1 : shiftOf value with
  | error e => simp [h1, bind, Except.bind] at h
  | ok n =>
    simp only [h1, bind, Except.bind] at h
    cases h2 : reference a others entity with
    | error e => simp [h2] at h
    | ok id =>
      simp only [h2] at h
      cases h3 : laneChangeable r id (directionOf value) n with
      | error e => simp [h3] at h
      | ok o =>
        simp only [h3] at h
        cases o with
        | none => simp at h
        | some b => simp [request, hv] at h

/-- Asked to change to a side, a vehicle on a lane is to change to the neighbour on that side. -/
theorem C153_direction_partial {K : Type} (zero : K) (r : Roads) (a : Actor) (old : Request K) (id target : Nat) (hv : a.kind = .vehicle)
    (ha : a.lanelet = some id) (hid : r.known id = true) :
    (r.left id = some target → requestDirection zero r a old .left = .ok (some (target, zero))) ∧
    (r.right id = some target → requestDirection zero r a old .right = .ok (some (target, zero))) ∧
    requestDirection zero r a old .straight = .ok (some (id, zero)) := by
  refine ⟨fun h => ?_, fun h => ?_, ?_⟩ <;>
    simp only [requestDirection, beside_known hid, bind, Except.bind, request, *]

/-- If there is no lane on that side, or the vehicle is not on a lane, it goes on as before, and nothing says so. -/
theorem C153_direction_violated {K : Type} (zero : K) (r : Roads) (a : Actor) (old : Request K) :
    (a.lanelet = none → ∀ d, requestDirection zero r a old d = .ok old) ∧
    (∀ id, a.lanelet = some id → r.known id = true → r.left id = none → requestDirection zero r a old .left = .ok old) ∧
    (∀ id, a.lanelet = some id → r.known id = true → r.right id = none → requestDirection zero r a old .right = .ok old) := by
  refine ⟨fun h d => by simp only [requestDirection, h], fun id ha hid h => ?_, fun id ha hid h => ?_⟩ <;>
    simp only [requestDirection, ha, beside_known hid, bind, Except.bind, h]

/-- From a lanelet that the map does not have there is no change of lanes, but an error. -/
theorem C153_unknown {K : Type} (zero : K) (r : Roads) (a : Actor) (old : Request K) (id : Nat) (d : Direction) (ha : a.lanelet = some id)
    (hid : r.known id = false) : requestDirection zero r a old d = .error .thrown := by
  simp only [requestDirection, ha, beside, hid, bind, Except.bind, Bool.false_eq_true, if_false]

/-- Three lanes beside each other, 1, 2, 3 from right to left. -/
def three : Roads where
  known i := i = 1 ∨ i = 2 ∨ i = 3
  left i := if i = 1 then some 2 else if i = 2 then some 3 else none
  right i := if i = 3 then some 2 else if i = 2 then some 1 else none
  next i := if i = 3 then [4] else []
  lefts i := if i = 1 then [2, 3] else if i = 2 then [3] else []
  rights i := if i = 3 then [2, 1] else if i = 2 then [1] else []
  allowed _ _ := true

example : Starts ⟨.vehicle, "a", some 3⟩ (fun _ => some (some 1)) "b" 1 ∧ Over (if (2 : Int) < 0 then three.right else three.left) (2 : Int).natAbs 1 3 :=
  ⟨.inr ⟨by decide, rfl⟩, .next (b := 2) rfl (.next (b := 3) rfl (.here _))⟩

example : changeRelative three ⟨.vehicle, "a", some 3⟩ (fun _ => some (some 1)) none "b" 2 (5 : Int) = .ok (some (3, 5)) ∧
    changeRelative three ⟨.vehicle, "a", some 3⟩ (fun _ => none) none "a" (-1) (5 : Int) = .ok (some (2, 5)) ∧
    changeRelative three ⟨.vehicle, "a", some 3⟩ (fun _ => none) none "a" 1 (5 : Int) = .error .thrown ∧
    changeRelative three ⟨.vehicle, "a", some 3⟩ (fun _ => none) none "a" 256 (5 : Int) = .ok (some (3, 5)) ∧
    changeRelative three ⟨.vehicle, "a", some 3⟩ (fun _ => none) none "a" (-258) (5 : Int) = .ok (some (1, 5)) :=
  ⟨rfl, rfl, rfl, rfl, rfl⟩

/-- The numbers of lane changes on a way are those of the steps to the left and to the right. A lanelet that follows another is
not beside it, and none is on both sides. -/
theorem C153_count (r : Roads) (hl : ∀ a b, b ∈ r.lefts a → b ∉ r.next a) (hr : ∀ a b, b ∈ r.rights a → b ∉ r.next a ∧ b ∉ r.lefts a)
    (route : List Nat) (m n : Nat) (h : Way r route m n) : countLaneChanges r route = some (m, n) := by
  have key : countOn r route = (m, n) := by
    induction h with
    | «at» a => rfl
    | on hb _ ih =>
      rw [countOn]
      simp only [ih, hb, if_true]
    | left hb _ ih =>
      rw [countOn]
      simp only [ih, hb, hl _ _ hb, if_true, if_false]
    | right hb _ ih =>
      rw [countOn]
      simp only [ih, hb, (hr _ _ hb).1, (hr _ _ hb).2, if_true, if_false]
  have hne : route ≠ [] := by cases h <;> simp
  rw [countLaneChanges, if_neg hne, key]

theorem C153_count_none (r : Roads) : countLaneChanges r [] = none := rfl

example : Way three [1, 2, 3, 4] 2 0 := .left (by decide) (.left (by decide) (.on (by decide) (.at _)))
example : countLaneChanges three [1, 2, 3, 4] = some (2, 0) := by decide

/-! ### The place -/

section
variable {K C : Type} [Field K] [LinearOrder K]

/-- A curve leads to every place that is far enough ahead. -/
theorem candidates_mem (t : Target K C) (maximum forward : K) (l : List Nat) (out : List (K × C)) (h : candidates t maximum forward l = .ok out) (p : K × C) :
    p ∈ out ↔ ∃ n ∈ l, p.1 = n ∧ forward < t.ahead n 0 ∧ t.curve n 0 = some p.2 ∧ t.curvature p.2 < maximum := by
  induction l generalizing out with
  | nil =>
    cases h
    simp
  | cons n l ih =>
    rw [candidates] at h
    by_cases ha : t.ahead n 0 ≤ forward
    · rw [if_pos ha] at h
      rw [ih _ h]
      constructor
      · rintro ⟨m, hm, h1⟩
        exact ⟨m, List.mem_cons_of_mem _ hm, h1⟩
      · rintro ⟨m, hm, h1, h2, h3⟩
        rcases List.mem_cons.1 hm with rfl | hm
        · exact absurd ha (not_le.2 h2)
        · exact ⟨m, hm, h1, h2, h3⟩
    · rw [if_neg ha] at h
      cases hc : t.curve n 0 with
      | none => simp [hc] at h
      | some c =>
        simp only [hc, bind, Except.bind] at h
        cases hr : candidates t maximum forward l with
        | error e => simp [hr] at h
        | ok rest =>
          simp only [hr, Except.ok.injEq] at h
          by_cases hk : t.curvature c < maximum
          · rw [if_pos hk] at h
            subst h
            constructor
            · intro hp
              rcases List.mem_cons.1 hp with rfl | hp
              · exact ⟨n, by simp, rfl, not_le.1 ha, hc, hk⟩
              · obtain ⟨m, hm, h1⟩ := (ih _ hr).1 hp
                exact ⟨m, List.mem_cons_of_mem _ hm, h1⟩
            · rintro ⟨m, hm, h1, h2, h3, h4⟩
              rcases List.mem_cons.1 hm with rfl | hm
              · rw [hc] at h3
                cases h3
                exact List.mem_cons.2 (.inl (Prod.ext h1 rfl))
              · exact List.mem_cons_of_mem _ ((ih _ hr).2 ⟨m, hm, h1, h2, h3, h4⟩)
          · rw [if_neg hk] at h
            subst h
            rw [ih _ hr]
            constructor
            · rintro ⟨m, hm, h1⟩
              exact ⟨m, List.mem_cons_of_mem _ hm, h1⟩
            · rintro ⟨m, hm, h1, h2, h3, h4⟩
              rcases List.mem_cons.1 hm with rfl | hm
              · rw [hc] at h3
                cases h3
                exact absurd h4 hk
              · exact ⟨m, hm, h1, h2, h3, h4⟩

/-- Places are tried from the beginning of the lane on. -/
theorem candidates_sorted [IsStrictOrderedRing K] (t : Target K C) (maximum forward : K) (l : List Nat) (out : List (K × C))
    (h : candidates t maximum forward l = .ok out) (hl : l.Pairwise (· < ·)) : out.Pairwise fun p q => p.1 < q.1 := by
  induction l generalizing out with
  | nil =>
    cases h
    exact List.Pairwise.nil
  | cons n l ih =>
    rw [candidates] at h
    obtain ⟨h1, h2⟩ := List.pairwise_cons.1 hl
    by_cases ha : t.ahead n 0 ≤ forward
    · rw [if_pos ha] at h
      exact ih _ h h2
    · rw [if_neg ha] at h
      cases hc : t.curve n 0 with
      | none => simp [hc] at h
      | some c =>
        simp only [hc, bind, Except.bind] at h
        cases hr : candidates t maximum forward l with
        | error e => simp [hr] at h
        | ok rest =>
          simp only [hr, Except.ok.injEq] at h
          by_cases hk : t.curvature c < maximum
          · rw [if_pos hk] at h
            subst h
            refine List.pairwise_cons.2 ⟨fun p hp => ?_, ih _ hr h2⟩
            obtain ⟨m, hm, h3, _⟩ := (candidates_mem t maximum forward l rest hr p).1 hp
            show (n : K) < p.1
            rw [h3]
            exact Nat.cast_lt.2 (h1 m hm)
          · rw [if_neg hk] at h
            subst h
            exact ih _ hr h2

omit [Field K] in
theorem leastBy_none (f : K × C → K) (l : List (K × C)) : leastBy f l = none ↔ l = [] := by
  cases l with
  | nil => simp [leastBy]
  | cons a l =>
    simp only [leastBy, reduceCtorEq, iff_false]
    cases leastBy f l with
    | none => simp
    | some b =>
      by_cases h : f b < f a <;> simp [h]

omit [Field K] in
theorem leastBy_some (f : K × C → K) (l : List (K × C)) (hl : l.Pairwise fun p q => p.1 < q.1) (p : K × C) (h : leastBy f l = some p) :
    p ∈ l ∧ ∀ q ∈ l, f p ≤ f q ∧ (f q = f p → p.1 ≤ q.1) := by
  induction l generalizing p with
  | nil => simp [leastBy] at h
  | cons a l ih =>
    obtain ⟨h1, h2⟩ := List.pairwise_cons.1 hl
    rw [leastBy] at h
    cases hb : leastBy f l with
    | none =>
      rw [hb] at h
      cases h
      rw [(leastBy_none f l).1 hb]
      simp
    | some b =>
      simp only [hb] at h
      obtain ⟨h3, h4⟩ := ih h2 b hb
      by_cases hlt : f b < f a
      · rw [if_pos hlt] at h
        cases h
        refine ⟨List.mem_cons_of_mem _ h3, fun q hq => ?_⟩
        rcases List.mem_cons.1 hq with rfl | hq
        · exact ⟨hlt.le, fun he => absurd he hlt.ne'⟩
        · exact h4 q hq
      · rw [if_neg hlt] at h
        cases h
        refine ⟨by simp, fun q hq => ?_⟩
        rcases List.mem_cons.1 hq with rfl | hq
        · exact ⟨le_rfl, fun _ => le_rfl⟩
        · exact ⟨(not_lt.1 hlt).trans (h4 q hq).1, fun _ => (h1 q hq).le⟩

theorem candidates_ok (t : Target K C) (maximum forward : K) (l : List Nat) (hc : ∀ n ∈ l, forward < t.ahead n 0 → t.curve n 0 ≠ none) :
    ∃ out, candidates t maximum forward l = .ok out := by
  induction l with
  | nil => exact ⟨_, rfl⟩
  | cons n l ih =>
    obtain ⟨rest, hr⟩ := ih fun m hm => hc m (List.mem_cons_of_mem _ hm)
    rw [candidates]
    by_cases ha : t.ahead n 0 ≤ forward
    · rw [if_pos ha]
      exact ⟨rest, hr⟩
    · rw [if_neg ha]
      cases hn : t.curve n 0 with
      | none => exact absurd hn (hc n (by simp) (not_le.1 ha))
      | some c => simp [hr, bind, Except.bind]

variable [IsStrictOrderedRing K] [FloorSemiring K]

/-- The place that a vehicle changes lanes to, if no constraint is given: if the rules of traffic allow the change, it is one of
the places a whole number of metres from the beginning of the target lane that are more than a metre ahead, to which the curve
has no curvature of 10 or more; the length of the curve is as near to 20 metres as that to any other such place, and of several
it is the first. -/
theorem C154_place (r : Roads) (t : Target K C) (own target : Id) (value offset : K) (c : C) (s : K)
    (h : path r t own target .none value offset = .ok (some (c, s))) :
    r.allowed own target = true ∧ Fits t 10 1 s c ∧
      ∀ s' c', Fits t 10 1 s' c' → |20 - t.arc c| ≤ |20 - t.arc c'| ∧ (|20 - t.arc c'| = |20 - t.arc c| → s ≤ s') := by
  unfold path at h
  by_cases ha : r.allowed own target = true
  · rw [if_pos ha] at h
    refine ⟨ha, ?_⟩
    simp only [choosePath, bind, Except.bind] at h
    cases hl : candidates t 10 1 (List.range ⌈t.length⌉₊) with
    | error e => simp [hl] at h
    | ok l =>
      simp only [hl, Except.ok.injEq, Option.map_eq_some_iff] at h
      obtain ⟨p, hp, he⟩ := h
      cases he
      obtain ⟨h1, h2⟩ := leastBy_some _ l (candidates_sorted t 10 1 _ l hl List.pairwise_lt_range) p hp
      have key : ∀ q : K × C, q ∈ l ↔ Fits t 10 1 q.1 q.2 := by
        intro q
        rw [candidates_mem t 10 1 _ l hl q]
        constructor
        · rintro ⟨n, hn, hq, h3, h4, h5⟩
          refine ⟨⟨n, hq⟩, ?_, by rw [hq]; exact h3, by rw [hq]; exact h4, h5⟩
          rw [hq]
          exact Nat.lt_ceil.1 (List.mem_range.1 hn)
        · rintro ⟨⟨n, hq⟩, h3, h4, h5, h6⟩
          rw [hq] at h3 h4 h5
          exact ⟨n, List.mem_range.2 (Nat.lt_ceil.2 h3), hq, h4, h5, h6⟩
      exact ⟨(key p).1 h1, fun s' c' hf => h2 (s', c') ((key (s', c')).2 hf)⟩
  · rw [if_neg ha] at h
    cases h

omit [IsStrictOrderedRing K] in
/-- There is no lane change only if the rules of traffic forbid it or there is no such place. -/
theorem C154_none (r : Roads) (t : Target K C) (own target : Id) (value offset : K)
    (hc : ∀ s, 1 < t.ahead s 0 → t.curve s 0 ≠ none) :
    path r t own target .none value offset = .ok none ↔ r.allowed own target = false ∨ ∀ s c, ¬ Fits t 10 1 s c := by
  unfold path
  by_cases ha : r.allowed own target = true
  · rw [if_pos ha]
    obtain ⟨l, hl⟩ := candidates_ok t 10 1 (List.range ⌈t.length⌉₊) fun n _ => hc n
    simp only [choosePath, bind, Except.bind, hl, Except.ok.injEq, Option.map_eq_none_iff, leastBy_none, ha, Bool.true_eq_false, false_or]
    constructor
    · rintro rfl s c ⟨⟨n, hn⟩, h3, h4, h5, h6⟩
      have := (candidates_mem t 10 1 _ [] hl (s, c)).2 ⟨n, List.mem_range.2 (Nat.lt_ceil.2 (hn ▸ h3)), hn, hn ▸ h4, hn ▸ h5, h6⟩
      exact absurd this List.not_mem_nil
    · intro h
      cases l with
      | nil => rfl
      | cons q l =>
        obtain ⟨n, hn, hq, h3, h4, h5⟩ := (candidates_mem t 10 1 _ _ hl q).1 (by simp)
        exact absurd ⟨⟨n, hq⟩, by rw [hq]; exact Nat.lt_ceil.1 (List.mem_range.1 hn), by rw [hq]; exact h3, by rw [hq]; exact h4, h5⟩ (h q.1 q.2)
  · rw [if_neg ha]
    simp [ha]

omit [IsStrictOrderedRing K] in
/-- If a curve of a change with a constraint cannot be made, that is an error. -/
theorem C154_bound_error (r : Roads) (t : Target K C) (own target : Id) (value offset s : K) (type : Constraint) (ht : type ≠ .none)
    (ha : r.allowed own target = true) (hs : t.across (if type = .longitudinalDistance then value else 20) = some s)
    (hc : t.curve s offset = none) : path r t own target type value offset = .error .thrown := by
  unfold path
  rw [if_pos ha]
  cases type with
  | none => exact absurd rfl ht
  | _ =>
    unfold boundPath
    rw [hs]
    simp only [hc]

omit [IsStrictOrderedRing K] in
/-- With a constraint, the place is where the line across the own lane meets the target lane: 20 metres ahead, or as far as
asked for. The curve leads to the offset asked for. -/
theorem C154_bound (r : Roads) (t : Target K C) (own target : Id) (value offset : K) (c : C) (s : K) (type : Constraint) (ht : type ≠ .none) :
    path r t own target type value offset = .ok (some (c, s)) ↔
      r.allowed own target = true ∧ (type = .longitudinalDistance → t.across value = some s) ∧
        (type ≠ .longitudinalDistance → t.across 20 = some s) ∧ t.curve s offset = some c := by
  have key : boundPath t type value offset = .ok (some (c, s)) ↔
      t.across (if type = .longitudinalDistance then value else 20) = some s ∧ t.curve s offset = some c := by
    unfold boundPath
    cases h1 : t.across (if type = .longitudinalDistance then value else 20) with
    | none => simp
    | some s' =>
      cases h2 : t.curve s' offset with
      | none =>
        constructor
        · simp [h2]
        · rintro ⟨h3, h4⟩
          cases h3
          rw [h2] at h4
          cases h4
      | some c' =>
        simp only [h2, Except.ok.injEq, Option.some.injEq, Prod.mk.injEq]
        constructor
        · rintro ⟨rfl, rfl⟩
          exact ⟨rfl, h2⟩
        · rintro ⟨rfl, h4⟩
          rw [h2] at h4
          cases h4
          exact ⟨rfl, rfl⟩
  unfold path
  by_cases ha : r.allowed own target = true
  · rw [if_pos ha]
    cases type with
    | none => exact absurd rfl ht
    | longitudinalDistance => simpa [ha] using key
    | lateralVelocity => simpa [ha] using key
    | time => simpa [ha] using key
  · rw [if_neg ha]
    simp [ha]

end

/-- A lane of three metres and a half beside the own one; a curve is its end and its length. -/
def straight : Target ℚ (ℚ × ℚ × ℚ) where
  length := 7 / 2
  ahead s _ := s
  curve s o := some (s, o, s + 18)
  curvature _ := 1
  arc c := c.2.2
  across d := if d < 3 then some d else none

example : path three straight 1 2 .none 0 0 = .ok (some ((2, 0, 20), 2)) := by decide +kernel
example : path three straight 1 2 .longitudinalDistance 2 0 = .ok (some ((2, 0, 20), 2)) := by decide +kernel
example : path three straight 1 2 .time 2 0 = .ok none := by decide +kernel
example : Fits straight 10 1 2 (2, 0, 20) := ⟨⟨2, rfl⟩, by decide +kernel, by decide +kernel, by decide +kernel, by decide +kernel⟩

/-- Without a constraint the curve leads to the middle of the lane, although an offset is asked for and a curve to it exists. -/
theorem C154_offset_violated : ∃ (r : Roads) (t : Target ℚ (ℚ × ℚ × ℚ)) (own target : Id) (offset s : ℚ) (c : ℚ × ℚ × ℚ),
    path r t own target .none 0 offset = .ok (some (c, s)) ∧ t.curve s offset ≠ none ∧ t.curve s offset ≠ some c :=
  ⟨three, straight, 1, 2, 1 / 2, 2, (2, 0, 20), by decide +kernel⟩

end Verif.Lanes
