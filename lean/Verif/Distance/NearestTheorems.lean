import Verif.Distance.Minima
import Mathlib.Tactic.Linarith
import Mathlib.Tactic.FieldSimp
import Mathlib.Tactic.Ring
import Mathlib.Algebra.Field.Rat
import Mathlib.Algebra.Order.Ring.Rat
import Mathlib.Algebra.Order.Archimedean.Basic
import Mathlib.Data.Rat.Floor
/-
C133: right of way and the nearest stop line. C134: the entity in front. C135: the distance of a bounding box from a spline.
-/
namespace Verif.Distance

variable {K : Type} [Field K] [LinearOrder K]

/-- `r` is the least of the distances there are, if there are any. -/
def LeastOf (l : List (Option K)) (r : Option K) : Prop :=
  (∀ d, r = some d → some d ∈ l ∧ ∀ x, some x ∈ l → d ≤ x) ∧ (r = none → ∀ x, some x ∉ l)

omit [Field K] in
theorem tryMin_some (best : Option K) (d : K) : ∃ b, tryMin best d = some b ∧ b ≤ d ∧ (some b = best ∨ b = d) ∧ ∀ x, best = some x → b ≤ x := by
  cases best with
  | none => exact ⟨d, rfl, le_refl _, .inr rfl, by simp⟩
  | some b =>
    simp only [tryMin]
    split
    · rename_i h; exact ⟨d, rfl, le_refl _, .inr rfl, fun x hx => by cases hx; exact le_of_lt h⟩
    · rename_i h; exact ⟨b, rfl, not_lt.mp h, .inl rfl, fun x hx => by cases hx; exact le_refl _⟩

omit [Field K] in
theorem least_acc (l : List (Option K)) : ∀ best : Option K, LeastOf (best :: l) (least l best) := by
  induction l with
  | nil =>
    intro best
    refine ⟨fun d hd => ?_, fun h => ?_⟩
    · simp only [least, List.foldl_nil] at hd
      subst hd; simp
    · simp only [least, List.foldl_nil] at h
      subst h; simp
  | cons y l ih =>
    intro best
    cases y with
    | none =>
      have h := ih best
      have e : least (none :: l) best = least l best := rfl
      rw [e]
      refine ⟨fun d hd => ?_, fun hn x => ?_⟩
      · obtain ⟨h1, h2⟩ := h.1 d hd
        refine ⟨by simp only [List.mem_cons] at *; tauto, fun x hx => h2 x ?_⟩
        simp only [List.mem_cons, reduceCtorEq, false_or] at *; tauto
      · have := h.2 hn x
        simp only [List.mem_cons, reduceCtorEq, false_or, not_or] at *; tauto
    | some y =>
      obtain ⟨b, hb, hle, hor, hbest⟩ := tryMin_some best y
      have h := ih (some b)
      have e : least (some y :: l) best = least l (some b) := by
        show least l (tryMin best y) = _
        rw [hb]
      rw [e]
      refine ⟨fun d hd => ?_, fun hn => ?_⟩
      · obtain ⟨h1, h2⟩ := h.1 d hd
        have hdb : d ≤ b := h2 b (by simp)
        refine ⟨?_, fun x hx => ?_⟩
        · simp only [List.mem_cons, Option.some.injEq] at *
          rcases h1 with rfl | h1
          · tauto
          · tauto
        · simp only [List.mem_cons, Option.some.injEq] at hx
          rcases hx with hx | hx | hx
          · exact hdb.trans (hbest x hx.symm)
          · exact hdb.trans (hx ▸ hle)
          · exact h2 x (by simp [hx])
      · exact absurd (List.mem_cons_self) (h.2 hn b)

omit [Field K] in
theorem least_of (l : List (Option K)) : LeastOf l (least l none) := by
  have h := least_acc l none
  refine ⟨fun d hd => ?_, fun hn x => ?_⟩
  · obtain ⟨h1, h2⟩ := h.1 d hd
    exact ⟨by simpa using h1, fun x hx => h2 x (by simp [hx])⟩
  · have := h.2 hn x; simpa using this

/-- The stop line found is the nearest of those that the spline crosses; the spline must have a length. -/
theorem C133_stop_line (length : K) (lines : List (Option K)) :
    (0 < length → LeastOf lines (distanceToStopLine length lines)) ∧ (length ≤ 0 → distanceToStopLine length lines = none) := by
  refine ⟨fun h => ?_, fun h => by simp [distanceToStopLine, h]⟩
  rw [distanceToStopLine, if_neg (not_le.mpr h)]
  exact least_of lines

/-- The stop line found for the traffic lights of a route is the nearest one if each light has one stop line that the spline crosses. -/
theorem C133_lights_partial (length : K) (h0 : 0 < length) (lights : List (List (Option K))) (h : ∀ l ∈ lights, ∀ x y, some x ∈ l → some y ∈ l → x = y) :
    LeastOf lights.flatten (distanceToLights length lights) := by
  have key : ∀ l ∈ lights, ∀ x, some x ∈ l ↔ distanceToLight length l = some x := by
    intro l hl x
    rw [distanceToLight, if_neg (not_le.mpr h0)]
    constructor
    · intro hx
      cases hf : l.findSome? id with
      | none => rw [List.findSome?_eq_none_iff] at hf; exact absurd (hf _ hx) (by simp)
      | some y =>
        obtain ⟨z, hz, hy⟩ := List.exists_of_findSome?_eq_some hf
        simp only [id] at hy
        subst hy
        rw [h l hl x y hx hz]
    · intro hx
      obtain ⟨z, hz, hy⟩ := List.exists_of_findSome?_eq_some hx
      simp only [id] at hy
      subst hy; exact hz
  rw [distanceToLights]
  by_cases he : lights = []
  · subst he; simp [LeastOf]
  · rw [if_neg (by simpa using he)]
    have hl := least_of (lights.map (distanceToLight length))
    have mem : ∀ x, some x ∈ lights.map (distanceToLight length) ↔ some x ∈ lights.flatten := by
      intro x
      simp only [List.mem_map, List.mem_flatten]
      refine exists_congr fun l => and_congr_right fun hl => (key l hl x).symm
    refine ⟨fun d hd => ?_, fun hn x hx => ?_⟩
    · obtain ⟨h1, h2⟩ := hl.1 d hd
      exact ⟨(mem d).mp h1, fun x hx => h2 x ((mem x).mpr hx)⟩
    · exact hl.2 hn x ((mem x).mpr hx)

example : LeastOf [none, some 30, some 12] (some (12 : ℚ)) ∧ distanceToStopLine 50 [none, some 30, some 12] = some (12 : ℚ) := by
  refine ⟨⟨fun d hd => ?_, by simp⟩, by decide +kernel⟩
  cases hd; refine ⟨by simp, ?_⟩
  intro x hx; simp only [List.mem_cons, reduceCtorEq, Option.some.injEq, List.not_mem_nil, or_false, false_or] at hx
  rcases hx with rfl | rfl <;> norm_num
example : distanceToLights (50 : ℚ) [[some 30], [none, some 12]] = some 12 := by decide +kernel

/-- A traffic light with two stop lines that the spline crosses: the first in the map counts, although the other is nearer. -/
theorem C133_light_violated : ∃ (length a b : ℚ), 0 < length ∧ b < a ∧ a ≤ length ∧ distanceToLights length [[some a, some b]] = some a :=
  ⟨50, 30, 12, by decide +kernel⟩

omit [Field K] [LinearOrder K] in
/-- An entity gives way exactly if another is on a lanelet with priority over one that it follows, and that does not have priority over the other in turn. -/
theorem C133_right_of_way (prior : Nat → List Nat) (following others : List Nat) :
    needRightOfWay prior following others = true ↔ ∃ a ∈ following, ∃ b ∈ others, b ∈ prior a ∧ a ∉ prior b := by
  simp only [needRightOfWay, List.any_eq_true, Bool.and_eq_true, decide_eq_true_eq, Bool.not_eq_true', List.contains_eq_mem, decide_eq_false_iff_not]
  constructor
  · rintro ⟨o, ho, a, ha, b, hb, rfl, hn⟩; exact ⟨a, ha, o, ho, hb, hn⟩
  · rintro ⟨a, ha, b, hb, h1, h2⟩; exact ⟨b, hb, a, ha, b, h1, rfl, h2⟩

example : needRightOfWay (fun a => if a = 2 then [7] else []) [1, 2, 3] [7] = true ∧ needRightOfWay (fun a => if a = 2 then [7] else if a = 7 then [2] else []) [1, 2, 3] [7] = false := by
  decide

/-- Where the entity stops to give way: at the start of the first lanelet ahead for which another entity is on a lanelet with priority and to which there is a distance, or
behind the entity if it is on it already. -/
theorem C133_yield_stop_partial (m : Map K) (prior : Nat → List Nat) (p : Pose K) (pre post : List Nat) (a : Nat) (others : List Nat)
    (hpre : ∀ x ∈ pre, ∀ b ∈ prior x, b ∉ others) (ha : ∃ b ∈ prior a, b ∈ others) :
    (∀ d, ahead m false p ⟨a, 0, 0⟩ = some d → yieldStop m prior p (pre ++ a :: post) others = some d) ∧
    (∀ d, ahead m false p ⟨a, 0, 0⟩ = none → ahead m false ⟨a, 0, 0⟩ p = some d → yieldStop m prior p (pre ++ a :: post) others = some (-d)) := by
  have h1 : pre.findSome? (yieldAt m prior p others) = none := by
    rw [List.findSome?_eq_none_iff]
    intro x hx
    have hl := least_of ((prior x).map fun b =>
      if others.contains b then
        match ahead m false p ⟨x, 0, 0⟩ with
        | some d => some d
        | none => match ahead m false ⟨x, 0, 0⟩ p with
          | some d => some (-d)
          | none => none
      else none)
    cases hy : yieldAt m prior p others x with
    | none => rfl
    | some d =>
      obtain ⟨h1, _⟩ := hl.1 d hy
      obtain ⟨b, hb, he⟩ := List.mem_map.mp h1
      rw [if_neg (by simpa using hpre x hx b hb)] at he
      cases he
  have main : ∀ v : K, (match ahead m false p ⟨a, 0, 0⟩ with
        | some d => some d
        | none => match ahead m false ⟨a, 0, 0⟩ p with
          | some d => some (-d)
          | none => none) = some v → yieldStop m prior p (pre ++ a :: post) others = some v := by
    intro v hv
    rw [yieldStop, List.findSome?_append, h1, Option.none_or, List.findSome?_cons]
    have hl := least_of ((prior a).map fun b =>
      if others.contains b then
        match ahead m false p ⟨a, 0, 0⟩ with
        | some d => some d
        | none => match ahead m false ⟨a, 0, 0⟩ p with
          | some d => some (-d)
          | none => none
      else none)
    have hall : yieldAt m prior p others a = some v := by
      cases hy : yieldAt m prior p others a with
      | none =>
        obtain ⟨b, hb, ho⟩ := ha
        refine absurd ?_ (hl.2 hy v)
        rw [List.mem_map]
        refine ⟨b, hb, ?_⟩
        rw [if_pos (by simpa using ho)]
        exact hv
      | some d =>
        obtain ⟨h1, _⟩ := hl.1 d hy
        obtain ⟨b, hb, he⟩ := List.mem_map.mp h1
        split at he
        · rw [← he]; exact hv
        · cases he
    rw [hall]
  refine ⟨fun d hd => main d ?_, fun d hn hd => main (-d) ?_⟩
  · rw [hd]
  · rw [hn, hd]

/-- Nothing to give way to, no stop. -/
theorem C133_no_yield_stop (m : Map K) (prior : Nat → List Nat) (p : Pose K) (following others : List Nat) (h : ∀ x ∈ following, ∀ b ∈ prior x, b ∉ others) :
    yieldStop m prior p following others = none := by
  rw [yieldStop, List.findSome?_eq_none_iff]
  intro x hx
  cases hy : yieldAt m prior p others x with
  | none => rfl
  | some d =>
    obtain ⟨h1, _⟩ := (least_of _).1 d hy
    obtain ⟨b, hb, he⟩ := List.mem_map.mp h1
    rw [if_neg (by simpa using h x hx b hb)] at he
    cases he

def straight : Map ℚ :=
  { length := fun _ => 10
    next := fun a => if a = 1 then [2] else if a = 2 then [3] else []
    route := fun _ a b => if a = b then [a] else if a = 1 ∧ b = 2 then [1, 2] else if a = 1 ∧ b = 3 then [1, 2, 3] else if a = 2 ∧ b = 3 then [2, 3] else []
    along := fun _ _ _ => none
    across := fun _ _ => none }

example : yieldStop straight (fun a => if a = 3 then [7] else []) ⟨1, 4, 0⟩ ([1, 2] ++ 3 :: []) [7] = some 16 ∧ ahead straight false ⟨1, 4, 0⟩ ⟨3, 0, 0⟩ = some 16 := by decide +kernel

/-- Lanelet 2 and lanelet 7 have priority over each other, so nobody gives way there; the entity has to give way to lanelet 8 at lanelet 3. It stops at lanelet 2. -/
theorem C133_yield_violated : ∃ (m : Map ℚ) (prior : Nat → List Nat) (p : Pose ℚ) (following others : List Nat) (d : ℚ),
    needRightOfWay prior following others = true ∧ (∀ a ∈ following, a ≠ 3 → needRightOfWay prior [a] others = false) ∧
    ahead m false p ⟨3, 0, 0⟩ = some (d + 10) ∧ yieldStop m prior p following others = some d :=
  ⟨straight, fun a => if a = 2 then [7] else if a = 7 then [2] else if a = 3 then [8] else [], ⟨1, 4, 0⟩, [1, 2, 3], [7, 8], 6, by decide +kernel⟩

omit [Field K] in
/-- The nearest of the entities on conflicting crosswalks, measured to the crosswalk, and of those on conflicting lanes. An entity off the lanes finds none. -/
theorem C133_conflict (crosswalks lanes : List Nat) (crosswalk : Nat → Option K) (others : List (Option Nat × Option K)) :
    (∀ d, nearestConflict true crosswalks lanes crosswalk others = some d →
      ((∃ a e, (some a, e) ∈ others ∧ a ∈ crosswalks ∧ crosswalk a = some d) ∨ (∃ a, (some a, some d) ∈ others ∧ a ∈ lanes)) ∧
      (∀ a e, (some a, e) ∈ others → (∀ x, a ∈ crosswalks → crosswalk a = some x → d ≤ x) ∧ (∀ x, a ∈ lanes → e = some x → d ≤ x))) ∧
    (nearestConflict true crosswalks lanes crosswalk others = none →
      ∀ a e, (some a, e) ∈ others → (a ∈ crosswalks → crosswalk a = none) ∧ (a ∈ lanes → e = none)) ∧
    nearestConflict false crosswalks lanes crosswalk others = none := by
  have mem1 : ∀ x, some x ∈ ((others.filter fun o => match o.1 with | some a => crosswalks.contains a | none => false).map fun o => match o.1 with | some a => crosswalk a | none => none) ↔
      ∃ a e, (some a, e) ∈ others ∧ a ∈ crosswalks ∧ crosswalk a = some x := by
    intro x
    simp only [List.mem_map, List.mem_filter]
    constructor
    · rintro ⟨⟨o, e⟩, ⟨h1, h2⟩, h3⟩
      cases o with
      | none => simp at h2
      | some a => exact ⟨a, e, h1, by simpa using h2, h3⟩
    · rintro ⟨a, e, h1, h2, h3⟩
      exact ⟨(some a, e), ⟨h1, by simpa using h2⟩, h3⟩
  have mem2 : ∀ x, some x ∈ ((others.filter fun o => match o.1 with | some a => lanes.contains a | none => false).map (·.2)) ↔ ∃ a, (some a, some x) ∈ others ∧ a ∈ lanes := by
    intro x
    simp only [List.mem_map, List.mem_filter]
    constructor
    · rintro ⟨⟨o, e⟩, ⟨h1, h2⟩, rfl⟩
      cases o with
      | none => simp at h2
      | some a => exact ⟨a, h1, by simpa using h2⟩
    · rintro ⟨a, h1, h2⟩
      exact ⟨(some a, some x), ⟨h1, by simpa using h2⟩, rfl⟩
  simp only [nearestConflict, Bool.not_true, Bool.false_eq_true, if_false]
  generalize hc : ((others.filter fun o => match o.1 with | some a => crosswalks.contains a | none => false).map fun o => match o.1 with | some a => crosswalk a | none => none) = l1 at *
  generalize hl : ((others.filter fun o => match o.1 with | some a => lanes.contains a | none => false).map (·.2)) = l2 at *
  have hb := least_of l1
  have ha := least_acc l2 (least l1 none)
  have up : ∀ x, some x ∈ l1 → ∀ d, least l2 (least l1 none) = some d → d ≤ x := by
    intro x hx d hd
    cases hbn : least l1 none with
    | none => exact absurd hx (hb.2 hbn x)
    | some b =>
      refine ((ha.1 d hd).2 b ?_).trans ((hb.1 b hbn).2 x hx)
      rw [hbn]; simp
  refine ⟨fun d hd => ⟨?_, fun a e ho => ⟨fun x h1 h2 => up x ((mem1 x).mpr ⟨a, e, ho, h1, h2⟩) d hd, ?_⟩⟩, fun hn a e ho => ⟨fun h1 => ?_, fun h1 => ?_⟩, by simp⟩
  · rcases List.mem_cons.mp (ha.1 d hd).1 with h | h
    · exact .inl ((mem1 d).mp (hb.1 d h.symm).1)
    · exact .inr ((mem2 d).mp h)
  · rintro x h1 rfl
    exact (ha.1 d hd).2 x (List.mem_cons_of_mem _ ((mem2 x).mpr ⟨a, ho, h1⟩))
  · cases hx : crosswalk a with
    | none => rfl
    | some x =>
      exfalso
      have h2 := (mem1 x).mpr ⟨a, e, ho, h1, hx⟩
      cases hbn : least l1 none with
      | none => exact hb.2 hbn x h2
      | some b => exact ha.2 hn b (by rw [hbn]; simp)
  · cases e with
    | none => rfl
    | some x => exact absurd (List.mem_cons_of_mem _ ((mem2 x).mpr ⟨a, ho, h1⟩)) (ha.2 hn x)

example : nearestConflict true [5] [6] (fun _ => some 30) [(some 5, none), (some 6, some 20), (none, some 1), (some 9, some 2)] = some (20 : ℚ) := by decide +kernel

/-! ### C134 -/

omit [Field K] in
theorem mem_emplace (x y : Other K) (l : List (Other K)) (h : y ∈ emplace x l) : y = x ∨ y ∈ l := by
  induction l with
  | nil => simpa [emplace] using h
  | cons z l ih =>
    simp only [emplace] at h
    split at h
    · simpa using h
    · split at h
      · exact .inr h
      · rcases List.mem_cons.mp h with rfl | h
        · simp
        · rcases ih h with h | h <;> simp [h]

omit [Field K] in
theorem old_emplace (x y : Other K) (l : List (Other K)) (h : y ∈ l) : y ∈ emplace x l := by
  induction l with
  | nil => cases h
  | cons z l ih =>
    simp only [emplace]
    split
    · simp [h]
    · split
      · exact h
      · rcases List.mem_cons.mp h with rfl | h
        · simp
        · simp [ih h]

omit [Field K] in
theorem new_emplace (x : Other K) (l : List (Other K)) (h : ∀ y ∈ l, y.rough ≠ x.rough) : x ∈ emplace x l := by
  induction l with
  | nil => simp [emplace]
  | cons z l ih =>
    simp only [emplace]
    split
    · simp
    · rw [if_neg (fun e => h z (by simp) e.symm)]
      exact List.mem_cons_of_mem _ (ih fun y hy => h y (by simp [hy]))

theorem nearby_sub (horizon : K) (others : List (Other K)) : ∀ acc y, y ∈ others.foldl (fun l x => if x.rough < horizon then emplace x l else l) acc →
    y ∈ acc ∨ y ∈ others ∧ y.rough < horizon := by
  induction others with
  | nil => intro acc y h; exact .inl h
  | cons x l ih =>
    intro acc y h
    rcases ih _ y h with h | h
    · simp only at h
      split at h
      · rename_i hx
        rcases mem_emplace x y acc h with rfl | h
        · exact .inr ⟨by simp, hx⟩
        · exact .inl h
      · exact .inl h
    · exact .inr ⟨by simp [h.1], h.2⟩

theorem nearby_sup (horizon : K) (others : List (Other K)) (hn : others.Pairwise fun x y => x.rough ≠ y.rough) :
    ∀ acc, (∀ y ∈ acc, ∀ x ∈ others, y.rough ≠ x.rough) → ∀ y, (y ∈ acc ∨ y ∈ others ∧ y.rough < horizon) →
    y ∈ others.foldl (fun l x => if x.rough < horizon then emplace x l else l) acc := by
  induction others with
  | nil => rintro acc _ y (h | ⟨h, _⟩); exacts [h, by cases h]
  | cons x l ih =>
    intro acc hacc y hy
    rw [List.pairwise_cons] at hn
    simp only [List.foldl_cons]
    refine ih hn.2 _ ?_ y ?_
    · intro z hz w hw
      split at hz
      · rcases mem_emplace x z acc hz with rfl | hz
        · exact hn.1 w hw
        · exact hacc z hz w (by simp [hw])
      · exact hacc z hz w (by simp [hw])
    · rcases hy with hy | ⟨hy, hh⟩
      · left; split
        · exact old_emplace x y acc hy
        · exact hy
      · rcases List.mem_cons.mp hy with rfl | hy
        · left
          rw [if_pos hh]
          exact new_emplace y acc fun z hz => hacc z hz y (by simp)
        · exact .inr ⟨hy, hh⟩

theorem chooseFront_spec (own : Box K) (l : List (Other K)) : ∀ best : Option (Other K × K),
    (∀ x d, chooseFront own l best = some (x, d) → (best = some (x, d) ∨ x ∈ l ∧ x.facing = true ∧ splineDistance own (-1) x.target = some d) ∧
      (∀ b e, best = some (b, e) → d ≤ e) ∧ ∀ y ∈ l, y.facing = true → ∀ e, splineDistance own (-1) y.target = some e → d ≤ e) ∧
    (chooseFront own l best = none → best = none ∧ ∀ y ∈ l, y.facing = true → splineDistance own (-1) y.target = none) := by
  induction l with
  | nil =>
    intro best
    refine ⟨fun x d h => ⟨.inl h, fun b e he => ?_, by simp⟩, fun h => ⟨h, by simp⟩⟩
    rw [he] at h; simp only [chooseFront, Option.some.injEq, Prod.mk.injEq] at h; exact le_of_eq h.2.symm
  | cons z l ih =>
    intro best
    cases hf : z.facing with
    | false =>
      have e : chooseFront own (z :: l) best = chooseFront own l best := by simp [chooseFront, hf]
      rw [e]
      refine ⟨fun x d h => ?_, fun h => ?_⟩
      · obtain ⟨h1, h2, h3⟩ := (ih best).1 x d h
        refine ⟨by simp only [List.mem_cons]; tauto, h2, fun y hy hyf => ?_⟩
        rcases List.mem_cons.mp hy with rfl | hy
        · rw [hf] at hyf; cases hyf
        · exact h3 y hy hyf
      · obtain ⟨h1, h2⟩ := (ih best).2 h
        refine ⟨h1, fun y hy hyf => ?_⟩
        rcases List.mem_cons.mp hy with rfl | hy
        · rw [hf] at hyf; cases hyf
        · exact h2 y hy hyf
    | true =>
      cases hs : splineDistance own (-1) z.target with
      | none =>
        have e : chooseFront own (z :: l) best = chooseFront own l best := by simp [chooseFront, hf, hs]
        rw [e]
        refine ⟨fun x d h => ?_, fun h => ?_⟩
        · obtain ⟨h1, h2, h3⟩ := (ih best).1 x d h
          refine ⟨by simp only [List.mem_cons]; tauto, h2, fun y hy hyf e' he' => ?_⟩
          rcases List.mem_cons.mp hy with rfl | hy
          · rw [hs] at he'; cases he'
          · exact h3 y hy hyf e' he'
        · obtain ⟨h1, h2⟩ := (ih best).2 h
          refine ⟨h1, fun y hy hyf => ?_⟩
          rcases List.mem_cons.mp hy with rfl | hy
          · exact hs
          · exact h2 y hy hyf
      | some dz =>
        -- the best after this entity
        obtain ⟨w, b, hw, hwb, hle, hbest⟩ : ∃ w b, chooseFront own (z :: l) best = chooseFront own l (some (w, b)) ∧ (best = some (w, b) ∨ w = z ∧ b = dz) ∧ b ≤ dz ∧
            (∀ x e, best = some (x, e) → b ≤ e) := by
          cases best with
          | none => exact ⟨z, dz, by simp [chooseFront, hf, hs], .inr ⟨rfl, rfl⟩, le_refl _, by simp⟩
          | some p =>
            obtain ⟨w, b⟩ := p
            by_cases hlt : dz < b
            · exact ⟨z, dz, by simp [chooseFront, hf, hs, hlt], .inr ⟨rfl, rfl⟩, le_refl _, fun x e he => by cases he; exact hlt.le⟩
            · exact ⟨w, b, by simp [chooseFront, hf, hs, hlt], .inl rfl, not_lt.mp hlt, fun x e he => by cases he; exact le_refl _⟩
        rw [hw]
        refine ⟨fun x d h => ?_, fun h => ?_⟩
        · obtain ⟨h1, h2, h3⟩ := (ih (some (w, b))).1 x d h
          have hdb := h2 w b rfl
          refine ⟨?_, fun x' e' he' => hdb.trans (hbest x' e' he'), fun y hy hyf e' he' => ?_⟩
          · rcases h1 with h1 | h1
            · cases h1
              rcases hwb with hwb | ⟨rfl, rfl⟩
              · exact .inl hwb
              · exact .inr ⟨by simp, hf, hs⟩
            · exact .inr ⟨by simp [h1.1], h1.2⟩
          · rcases List.mem_cons.mp hy with rfl | hy
            · rw [hs] at he'; cases he'; exact hdb.trans hle
            · exact h3 y hy hyf e' he'
        · exact absurd ((ih (some (w, b))).2 h).1 (by simp)

/-- The entity in front is one with a distance along the way that is the least of those of all entities that are in front within the horizon, provided that no two entities are
equally far away as the crow flies. If there is none, no entity in front within the horizon has a distance. -/
theorem C134_front_partial (own : Box K) (length stop : K) (others : List (Other K)) (hn : others.Pairwise fun x y => x.rough ≠ y.rough) :
    (∀ x, frontEntity true own length stop others = some x → x ∈ others ∧ x.facing = true ∧ (x.rough < length ∨ x.rough < stop) ∧
      ∃ d, splineDistance own (-1) x.target = some d ∧
        ∀ y ∈ others, y.facing = true → (y.rough < length ∨ y.rough < stop) → ∀ e, splineDistance own (-1) y.target = some e → d ≤ e) ∧
    (frontEntity true own length stop others = none → ∀ y ∈ others, y.facing = true → (y.rough < length ∨ y.rough < stop) → splineDistance own (-1) y.target = none) ∧
    frontEntity false own length stop others = none := by
  have hz : ∀ r : K, r < (if stop < length then length else stop) ↔ r < length ∨ r < stop := by
    intro r
    split
    · rename_i h; constructor
      · exact .inl
      · rintro (h' | h'); exacts [h', h'.trans h]
    · rename_i h; constructor
      · exact .inr
      · rintro (h' | h'); exacts [lt_of_lt_of_le h' (not_lt.mp h), h']
  simp only [frontEntity, Bool.not_true, Bool.false_eq_true, if_false]
  generalize (if stop < length then length else stop) = horizon at *
  have sub : ∀ y ∈ nearby horizon others, y ∈ others ∧ y.rough < horizon := by
    intro y hy
    rcases nearby_sub horizon others [] y hy with h | h
    · cases h
    · exact h
  have sup : ∀ y ∈ others, y.rough < horizon → y ∈ nearby horizon others := by
    intro y hy hh
    exact nearby_sup horizon others hn [] (by simp) y (.inr ⟨hy, hh⟩)
  have hspec := chooseFront_spec own (nearby horizon others) none
  refine ⟨fun x hx => ?_, fun hx y hy hyf hyr => ?_, by simp⟩
  · cases hc : chooseFront own (nearby horizon others) none with
    | none => rw [hc] at hx; cases hx
    | some p =>
      obtain ⟨x', d⟩ := p
      rw [hc] at hx
      simp only [Option.map_some, Option.some.injEq] at hx
      subst hx
      obtain ⟨h1, _, h3⟩ := hspec.1 x' d hc
      rcases h1 with h1 | ⟨h1, h1f, h1s⟩
      · cases h1
      · exact ⟨(sub x' h1).1, h1f, (hz _).mp (sub x' h1).2, d, h1s, fun y hy hyf hyr e he => h3 y (sup y hy ((hz _).mpr hyr)) hyf e he⟩
  · cases hc : chooseFront own (nearby horizon others) none with
    | none => exact (hspec.2 hc).2 y (sup y hy ((hz _).mpr hyr)) hyf
    | some p => rw [hc] at hx; cases hx

/-- The distance to the entity in front is from the middle of the entity to the rear of the other: the other is ahead, and beside the way by no more than half of the own width, or
crosses it. -/
theorem C134_distance_partial [IsStrictOrderedRing K] (own : Box K) (limit : K) (t : Target K) (ha' : 0 ≤ own.cx + own.dx / 2)
    (hb : t.box.cx - t.box.dx / 2 ≤ 0) (x : K) (hx : 0 < x) (hl : t.longitudinal = some x) (r : K) (hr : splineDistance own limit t = some r) :
    r = (x + (t.box.cx - t.box.dx / 2)) - own.cx ∧ 0 ≤ (x + (t.box.cx - t.box.dx / 2)) - (own.cx + own.dx / 2) ∧ t.level = true ∧
      ((limit < 0 → t.aside ≤ own.dy / 2) ∧ (0 ≤ limit → t.aside ≤ limit) ∨
        t.crossed (x + (t.box.cx - t.box.dx / 2) - (own.cx + own.dx / 2)) (r + t.diagonal) = true) := by
  have e1 : |own.front| = own.cx + own.dx / 2 := by rw [Box.front, abs_of_nonneg] <;> linarith
  have e2 : |t.box.rear| = -(t.box.cx - t.box.dx / 2) := by rw [Box.rear, abs_of_nonpos] <;> linarith
  have e3 : boxLongitudinal own t.box (some x) = some (x + (t.box.cx - t.box.dx / 2) - (own.cx + own.dx / 2)) := by
    simp only [boxLongitudinal, Option.map_some, hx, if_true, e1, e2, Option.some.injEq]; ring
  simp only [splineDistance, hl, e3] at hr
  split at hr
  · cases hr
  · rename_i hlev
    split at hr
    · cases hr
    · rename_i hd
      have hd' := not_lt.mp hd
      have lev : t.level = true := by simpa using hlev
      have fin : ∀ v, v = x + (t.box.cx - t.box.dx / 2) - (own.cx + own.dx / 2) + own.dx / 2 → v = (x + (t.box.cx - t.box.dx / 2)) - own.cx := by
        intro v hv; rw [hv]; ring
      generalize hth : (if limit < 0 then own.dy / 2 else limit) = th at hr
      have hth' : t.aside ≤ th → (limit < 0 → t.aside ≤ own.dy / 2) ∧ (0 ≤ limit → t.aside ≤ limit) := by
        intro h
        refine ⟨fun hn => ?_, fun hn => ?_⟩
        · rw [if_pos hn] at hth; rwa [hth]
        · rw [if_neg (not_lt.mpr hn)] at hth; rwa [hth]
      split at hr
      · rename_i has
        cases hr
        exact ⟨fin _ rfl, hd', lev, .inl (hth' has)⟩
      · split at hr
        · rename_i hcr
          cases hr
          exact ⟨fin _ rfl, hd', lev, .inr hcr⟩
        · cases hr

/-- An entity ahead in the same lane is not seen as soon as its body overlaps that of the entity: nobody is in front then. -/
theorem C134_overlap_violated [IsStrictOrderedRing K] (own : Box K) (limit : K) (t : Target K) (ha' : 0 ≤ own.cx + own.dx / 2)
    (hb : t.box.cx - t.box.dx / 2 ≤ 0) (x : K) (hx : 0 < x) (hl : t.longitudinal = some x) (ho : x + (t.box.cx - t.box.dx / 2) < own.cx + own.dx / 2) :
    splineDistance own limit t = none := by
  have e1 : |own.front| = own.cx + own.dx / 2 := by rw [Box.front, abs_of_nonneg] <;> linarith
  have e2 : |t.box.rear| = -(t.box.cx - t.box.dx / 2) := by rw [Box.rear, abs_of_nonpos] <;> linarith
  have e3 : boxLongitudinal own t.box (some x) = some (x + (t.box.cx - t.box.dx / 2) - (own.cx + own.dx / 2)) := by
    simp only [boxLongitudinal, Option.map_some, hx, if_true, e1, e2, Option.some.injEq]; ring
  have hneg : x + (t.box.cx - t.box.dx / 2) - (own.cx + own.dx / 2) < 0 := by linarith
  simp only [splineDistance, hl, e3, hneg, if_true, ite_self]

def car' : Box ℚ := ⟨1, 0, 4, 2⟩
def target (x aside : ℚ) : Target ℚ := ⟨car', true, some x, aside, fun _ _ => false, 5⟩

example : splineDistance car' (-1) (target 20 0) = some 18 ∧ splineDistance car' (-1) (target 20 (3/2)) = none ∧ splineDistance car' 2 (target 20 (3/2)) = some 18 ∧
    splineDistance car' (-1) (target 3 0) = none := by decide +kernel
example : (frontEntity true car' 50 20 [⟨"a", 30, true, target 30 0⟩, ⟨"b", 20, true, target 20 0⟩, ⟨"c", 10, false, target 10 0⟩]).map (·.name) = some "b" := by decide +kernel
example : ([⟨"a", 30, true, target 30 0⟩, ⟨"b", 20, true, target 20 0⟩] : List (Other ℚ)).Pairwise fun x y => x.rough ≠ y.rough := by decide +kernel

/-- Of two entities equally far away only the first in the hash table is looked at. Here it is one in the next lane, and the one ahead in the same lane is not seen. -/
theorem C134_tie_violated : ∃ (a b : Other ℚ), a.rough = b.rough ∧ b.facing = true ∧ splineDistance car' (-1) b.target = some 18 ∧
    (frontEntity true car' 50 20 [a, b]).map (·.name) = none ∧ (frontEntity true car' 50 20 [b, a]).map (·.name) = some b.name :=
  ⟨⟨"a", 19, true, target 19 (3/2)⟩, ⟨"b", 19, true, target 20 0⟩, by decide +kernel⟩

/-- The entity in front is chosen with half of the own width, but its distance is measured with the lateral collision threshold of the entity. With a smaller threshold, an entity
that is beside the way hides the one that is on it. -/
theorem C134_threshold_violated : ∃ (a b : Other ℚ), splineDistance car' (1/2) a.target = none ∧ splineDistance car' (1/2) b.target = some 38 ∧ b.facing = true ∧
    frontDistance true car' (some (1/2)) 50 20 [b] = some 38 ∧ frontDistance true car' (some (1/2)) 50 20 [a, b] = none :=
  ⟨⟨"a", 20, true, target 20 (3/4)⟩, ⟨"b", 40, true, target 40 0⟩, by decide +kernel⟩

omit [Field K] in
theorem detect_acc (own : String) (others : List (String × Option K)) : ∀ best : Option (String × K),
    (∀ n s, others.foldl (fun best o => if own = o.1 then best else match o.2 with
        | some s => match best with
          | some (_, b) => if s < b then some (o.1, s) else best
          | none => some (o.1, s)
        | none => best) best = some (n, s) → (best = some (n, s) ∨ (n, some s) ∈ others ∧ n ≠ own) ∧ (∀ n' s', best = some (n', s') → s ≤ s') ∧
      ∀ n' s', (n', some s') ∈ others → n' ≠ own → s ≤ s') ∧
    (others.foldl (fun best o => if own = o.1 then best else match o.2 with
        | some s => match best with
          | some (_, b) => if s < b then some (o.1, s) else best
          | none => some (o.1, s)
        | none => best) best = none → best = none ∧ ∀ n' s', (n', some s') ∈ others → n' = own) := by
  induction others with
  | nil =>
    intro best
    refine ⟨fun n s h => ⟨.inl h, fun n' s' h' => ?_, by simp⟩, fun h => ⟨h, by simp⟩⟩
    simp only [List.foldl_nil] at h
    rw [h] at h'; cases h'; exact le_refl _
  | cons o l ih =>
    intro best
    simp only [List.foldl_cons]
    obtain ⟨o1, o2⟩ := o
    by_cases ho : own = o1
    · simp only [ho, if_true]
      subst ho
      refine ⟨fun n s h => ?_, fun h => ?_⟩
      · obtain ⟨h1, h2, h3⟩ := (ih best).1 n s h
        refine ⟨by rcases h1 with h1 | h1; exacts [.inl h1, .inr ⟨by simp [h1.1], h1.2⟩], h2, fun n' s' hm hne => ?_⟩
        rcases List.mem_cons.mp hm with hm | hm
        · cases hm; exact absurd rfl hne
        · exact h3 n' s' hm hne
      · obtain ⟨h1, h2⟩ := (ih best).2 h
        refine ⟨h1, fun n' s' hm => ?_⟩
        rcases List.mem_cons.mp hm with hm | hm
        · cases hm; rfl
        · exact h2 n' s' hm
    · simp only [ho, if_false]
      cases o2 with
      | none =>
        refine ⟨fun n s h => ?_, fun h => ?_⟩
        · obtain ⟨h1, h2, h3⟩ := (ih best).1 n s h
          refine ⟨by rcases h1 with h1 | h1; exacts [.inl h1, .inr ⟨by simp [h1.1], h1.2⟩], h2, fun n' s' hm hne => ?_⟩
          rcases List.mem_cons.mp hm with hm | hm
          · cases hm
          · exact h3 n' s' hm hne
        · obtain ⟨h1, h2⟩ := (ih best).2 h
          refine ⟨h1, fun n' s' hm => ?_⟩
          rcases List.mem_cons.mp hm with hm | hm
          · cases hm
          · exact h2 n' s' hm
      | some so =>
        obtain ⟨w, b, hw, hwb, hle, hbest⟩ : ∃ w b, (match (generalizing := false) best with | some (_, b) => if so < b then some (o1, so) else best | none => some (o1, so)) = some (w, b) ∧
            (best = some (w, b) ∨ w = o1 ∧ b = so) ∧ b ≤ so ∧ (∀ x e, best = some (x, e) → b ≤ e) := by
          cases best with
          | none => exact ⟨o1, so, rfl, .inr ⟨rfl, rfl⟩, le_refl _, by simp⟩
          | some p =>
            obtain ⟨w, b⟩ := p
            by_cases hlt : so < b
            · exact ⟨o1, so, by simp [hlt], .inr ⟨rfl, rfl⟩, le_refl _, fun x e he => by cases he; exact hlt.le⟩
            · exact ⟨w, b, by simp [hlt], .inl rfl, not_lt.mp hlt, fun x e he => by cases he; exact le_refl _⟩
        have ihw := ih (some (w, b))
        rw [← hw] at ihw
        refine ⟨fun n s h => ?_, fun h => ?_⟩
        · obtain ⟨h1, h2, h3⟩ := ihw.1 n s h
          have hsb := h2 w b hw
          refine ⟨?_, fun n' s' h' => hsb.trans (hbest n' s' h'), fun n' s' hm hne => ?_⟩
          · rcases h1 with h1 | h1
            · rw [hw] at h1; cases h1
              rcases hwb with hwb | ⟨rfl, rfl⟩
              · exact .inl hwb
              · exact .inr ⟨by simp, fun e => ho e.symm⟩
            · exact .inr ⟨by simp [h1.1], h1.2⟩
          · rcases List.mem_cons.mp hm with hm | hm
            · cases hm; exact hsb.trans hle
            · exact h3 n' s' hm hne
        · exact absurd (ihw.2 h).1 (by rw [hw]; simp)

omit [Field K] in
/-- On a trajectory, the entity in front is one of those that intersect the trajectory soonest; the entity itself does not count. -/
theorem C134_trajectory (parts : List K) (hp : parts ≠ []) (own : String) (others : List (String × Option K)) :
    (∀ n s, detectCollision parts own others = some (n, s) → (n, some s) ∈ others ∧ n ≠ own ∧ ∀ n' s', (n', some s') ∈ others → n' ≠ own → s ≤ s') ∧
    (detectCollision parts own others = none → ∀ n' s', (n', some s') ∈ others → n' = own) := by
  rw [detectCollision, if_neg (by simpa using hp)]
  have h := detect_acc own others none
  refine ⟨fun n s hs => ?_, fun hn => (h.2 hn).2⟩
  obtain ⟨h1, _, h3⟩ := h.1 n s hs
  rcases h1 with h1 | h1
  · cases h1
  · exact ⟨h1.1, h1.2, h3⟩

omit [Field K] in
/-- Where an entity intersects the trajectory: at the start of the first part it intersects; the starts increase. -/
theorem C134_first_part (parts : List (K × Bool)) (hs : parts.Pairwise fun x y => x.1 < y.1) :
    (∀ s, firstPart parts = some s → (s, true) ∈ parts ∧ ∀ t, (t, true) ∈ parts → s ≤ t) ∧ (firstPart parts = none → ∀ t, (t, true) ∉ parts) := by
  induction parts with
  | nil => simp [firstPart]
  | cons x l ih =>
    obtain ⟨x1, x2⟩ := x
    rw [List.pairwise_cons] at hs
    obtain ⟨i1, i2⟩ := ih hs.2
    cases x2 with
    | true =>
      have e : firstPart ((x1, true) :: l) = some x1 := by simp [firstPart]
      rw [e]
      refine ⟨fun s h => ?_, by simp⟩
      cases h
      refine ⟨by simp, fun t ht => ?_⟩
      rcases List.mem_cons.mp ht with ht | ht
      · cases ht; exact le_refl _
      · exact (hs.1 _ ht).le
    | false =>
      have e : firstPart ((x1, false) :: l) = firstPart l := by simp [firstPart]
      rw [e]
      refine ⟨fun s h => ?_, fun h t ht => ?_⟩
      · obtain ⟨h1, h2⟩ := i1 s h
        refine ⟨by simp [h1], fun t ht => ?_⟩
        rcases List.mem_cons.mp ht with ht | ht
        · cases ht
        · exact h2 t ht
      · rcases List.mem_cons.mp ht with ht | ht
        · cases ht
        · exact i2 h t ht

example : detectCollision [0, 1, 2] "a" [("a", some 0), ("b", some 2), ("c", some 1), ("d", none)] = some ("c", (1 : ℚ)) ∧
    firstPart [(0, false), (1, true), (2, true)] = some (1 : ℚ) := by decide +kernel

/-! ### C135 -/

section spline
variable [IsStrictOrderedRing K]

omit [IsStrictOrderedRing K] in
theorem bisect_end (f : K → K) (s e : K) (h : |s - e| ≤ 1 / 20) : bisect f s e (f s) (f e) = some (min (f s) (f e)) := by
  rw [bisect, if_neg (not_lt.mpr h)]

/-- The invariant of the search: an interval of at most `2 ^ n` times the accuracy is halved at most `n` times. `P` holds of the intervals. -/
theorem bisect_inv (f : K → K) (P : K → K → Prop)
    (hP : ∀ s e, s ≤ e → P s e → (f e < f s → P (s + (e - s) / 2) e) ∧ (¬f e < f s → P s (s + (e - s) / 2))) :
    ∀ (n : Nat) (s e : K), s ≤ e → e - s ≤ 2 ^ n / 20 → P s e →
      ∃ s' e', s ≤ s' ∧ s' ≤ e' ∧ e' ≤ e ∧ e' - s' ≤ 1 / 20 ∧ P s' e' ∧ bisect f s e (f s) (f e) = some (min (f s') (f e')) := by
  intro n
  induction n with
  | zero =>
    intro s e hle hw hp
    refine ⟨s, e, le_refl _, hle, le_refl _, by simpa using hw, hp, bisect_end f s e ?_⟩
    rw [abs_sub_comm, abs_of_nonneg (by linarith)]; simpa using hw
  | succ n ih =>
    intro s e hle hw hp
    by_cases hc : 1 / 20 < |s - e|
    · have hm1 : s ≤ s + (e - s) / 2 := by linarith
      have hm2 : s + (e - s) / 2 ≤ e := by linarith
      have hw' : (e - s) / 2 ≤ 2 ^ n / 20 := by rw [pow_succ] at hw; linarith
      rw [bisect, if_pos hc]
      simp only
      by_cases hf : f e < f s
      · rw [if_pos hf]
        obtain ⟨s', e', h1, h2, h3, h4, h5, h6⟩ := ih (s + (e - s) / 2) e hm2 (by linarith) ((hP s e hle hp).1 hf)
        exact ⟨s', e', by linarith, h2, h3, h4, h5, h6⟩
      · rw [if_neg hf]
        obtain ⟨s', e', h1, h2, h3, h4, h5, h6⟩ := ih s (s + (e - s) / 2) hm1 (by linarith) ((hP s e hle hp).2 hf)
        exact ⟨s', e', h1, h2, by linarith, h4, h5, h6⟩
    · have hc' := not_lt.mp hc
      refine ⟨s, e, le_refl _, hle, le_refl _, ?_, hp, bisect_end f s e hc'⟩
      rwa [abs_sub_comm, abs_of_nonneg (by linarith)] at hc'

omit [LinearOrder K] [IsStrictOrderedRing K] in
theorem two_pow_cast (n : Nat) : ((2 ^ n : Nat) : K) = 2 ^ n := by push_cast; rfl

variable [Archimedean K]

theorem enough (w : K) : ∃ n : Nat, w ≤ 2 ^ n / 20 := by
  obtain ⟨m, hm⟩ := exists_nat_ge (w * 20)
  refine ⟨m, ?_⟩
  have h1 : (m : K) ≤ 2 ^ m := by
    rw [← two_pow_cast]
    exact_mod_cast Nat.lt_two_pow_self.le
  rw [le_div_iff₀ (by norm_num)]
  exact hm.trans h1

/-- The search ends, with the squared distance from some point of the spline within half of the diagonal of the reference: the distance is not underestimated. -/
theorem C135_attained (f : K → K) (s e : K) (hle : s ≤ e) : ∃ x, s ≤ x ∧ x ≤ e ∧ bisect f s e (f s) (f e) = some (f x) := by
  obtain ⟨n, hn⟩ := enough (e - s)
  obtain ⟨s', e', h1, h2, h3, _, _, h6⟩ := bisect_inv f (fun _ _ => True) (by simp) n s e hle hn trivial
  rcases min_choice (f s') (f e') with h | h
  · exact ⟨s', h1, h2.trans h3, by rw [h6, h]⟩
  · exact ⟨e', h1.trans h2, h3, by rw [h6, h]⟩

/-- On a straight part of the spline, where the squared distance of a point is `(s - c)² + h`, the search ends within 2.5 cm of the nearest point `c'` of the part. -/
theorem C135_straight_partial (c h s e : K) (hle : s ≤ e) (c' : K) (hc' : c' = max s (min e c)) :
    ∃ x, |x - c'| ≤ 1 / 40 ∧ s ≤ x ∧ x ≤ e ∧ bisect (fun t => (t - c) ^ 2 + h) s e ((s - c) ^ 2 + h) ((e - c) ^ 2 + h) = some ((x - c) ^ 2 + h) ∧
      ∀ t, s ≤ t → t ≤ e → (c' - c) ^ 2 + h ≤ (t - c) ^ 2 + h := by
  have opt : ∀ t, s ≤ t → t ≤ e → (c' - c) ^ 2 + h ≤ (t - c) ^ 2 + h := by
    intro t h1 h2
    rcases le_total c e with hce | hce
    · rw [min_eq_right hce] at hc'
      rcases le_total s c with hsc | hsc
      · rw [max_eq_right hsc] at hc'; subst hc'; nlinarith [sq_nonneg (t - c')]
      · rw [max_eq_left hsc] at hc'; subst hc'; nlinarith
    · rw [min_eq_left hce, max_eq_right hle] at hc'; subst hc'; nlinarith
  obtain ⟨n, hn⟩ := enough (e - s)
  have inv := bisect_inv (fun t => (t - c) ^ 2 + h) (fun s' e' => s ≤ s' ∧ e' ≤ e ∧ s' ≤ c' ∧ c' ≤ e') ?_ n s e hle hn ?_
  · obtain ⟨s', e', h1, h2, h3, h4, ⟨_, _, h5, h6⟩, h7⟩ := inv
    -- the nearer of the two ends is at most half of the width away
    have key : ∃ x, (x = s' ∨ x = e') ∧ |x - c'| ≤ 1 / 40 ∧ min ((s' - c) ^ 2 + h) ((e' - c) ^ 2 + h) = (x - c) ^ 2 + h := by
      have hb1 : c' = s ∨ c' = e ∨ c' = c := by
        rcases le_total c e with hce | hce
        · rw [min_eq_right hce] at hc'
          rcases le_total s c with hsc | hsc
          · rw [max_eq_right hsc] at hc'; exact .inr (.inr hc')
          · rw [max_eq_left hsc] at hc'; exact .inl hc'
        · rw [min_eq_left hce, max_eq_right hle] at hc'; exact .inr (.inl hc')
      rcases le_total ((s' - c) ^ 2) ((e' - c) ^ 2) with hm | hm
      · refine ⟨s', .inl rfl, ?_, min_eq_left (by linarith)⟩
        rw [abs_sub_comm, abs_of_nonneg (by linarith)]
        rcases eq_or_lt_of_le h2 with he | hlt
        · linarith
        · have hmid : c ≤ (s' + e') / 2 := by nlinarith
          rcases hb1 with hb | hb | hb
          · linarith
          · -- the end of the whole part is the nearest, so the point is beyond it
            have : e' = e := le_antisymm h3 (by linarith)
            have hce : e ≤ c := by
              by_contra hcon
              have hce := not_le.mp hcon
              rw [min_eq_right hce.le] at hc'
              rcases le_total s c with hsc | hsc
              · rw [max_eq_right hsc] at hc'; linarith
              · rw [max_eq_left hsc] at hc'; linarith
            linarith
          · linarith
      · refine ⟨e', .inr rfl, ?_, min_eq_right (by linarith)⟩
        rw [abs_of_nonneg (by linarith)]
        rcases eq_or_lt_of_le h2 with he | hlt
        · linarith
        · have hmid : (s' + e') / 2 ≤ c := by nlinarith
          rcases hb1 with hb | hb | hb
          · have : s' = s := le_antisymm (by linarith) h1
            have hcs : c ≤ s := by
              by_contra hcon
              have hcs := not_le.mp hcon
              rcases le_total c e with hce | hce
              · rw [min_eq_right hce, max_eq_right hcs.le] at hc'; linarith
              · rw [min_eq_left hce, max_eq_right hle] at hc'; linarith
            linarith
          · linarith
          · linarith
    obtain ⟨x, hx, hx1, hx2⟩ := key
    refine ⟨x, hx1, ?_, ?_, by rw [h7, hx2], opt⟩
    · rcases hx with rfl | rfl
      · exact h1
      · exact h1.trans h2
    · rcases hx with rfl | rfl
      · exact h2.trans h3
      · exact h3
  · rintro a b hab ⟨ha, hb, hca, hcb⟩
    refine ⟨fun hlt => ⟨by linarith, hb, ?_, hcb⟩, fun hlt => ⟨ha, by linarith, hca, ?_⟩⟩
    · -- nearer to the end: the nearest point is in the second half
      have hmid : a + (b - a) / 2 ≤ c := by
        rcases eq_or_lt_of_le hab with he | hab'
        · subst he; simp at hlt
        · nlinarith
      rw [hc']
      exact le_max_of_le_right (le_min (by linarith) hmid)
    · have hge := not_lt.mp hlt
      rcases eq_or_lt_of_le hab with he | hab'
      · rw [← he] at hcb ⊢; simpa using hcb
      · have hmid : c ≤ a + (b - a) / 2 := by nlinarith
        rw [hc']
        exact max_le (by linarith) ((min_le_right _ _).trans hmid)
  · exact ⟨le_refl _, le_refl _, by rw [hc']; exact le_max_left _ _, by rw [hc']; exact max_le hle (min_le_left _ _)⟩

/-- The distance is the least of those of the corners. -/
theorem C135_corners (points : List (K → K)) (hp : points ≠ []) (reference diagonal : K) (hd : 0 ≤ diagonal) :
    ∃ r, toSpline points reference diagonal = some r ∧
      (∃ f ∈ points, ∃ x, |x - reference| ≤ diagonal / 2 ∧ r = f x) ∧
      ∀ f ∈ points, ∀ v, bisect f (reference - diagonal / 2) (reference + diagonal / 2) (f (reference - diagonal / 2)) (f (reference + diagonal / 2)) = some v → r ≤ v := by
  have hle : reference - diagonal / 2 ≤ reference + diagonal / 2 := by linarith
  generalize hg : (fun f : K → K => bisect f (reference - diagonal / 2) (reference + diagonal / 2) (f (reference - diagonal / 2)) (f (reference + diagonal / 2))) = g
  have hgs : ∀ f, ∃ x, |x - reference| ≤ diagonal / 2 ∧ g f = some (f x) := by
    intro f
    obtain ⟨x, h1, h2, h3⟩ := C135_attained f _ _ hle
    exact ⟨x, abs_le.mpr ⟨by linarith, by linarith⟩, by rw [← hg]; exact h3⟩
  have hmap : ∀ l : List (K → K), ∃ vs, l.mapM g = some vs ∧ ∀ v, v ∈ vs ↔ ∃ f ∈ l, g f = some v := by
    intro l
    induction l with
    | nil => exact ⟨[], rfl, by simp⟩
    | cons f l ih =>
      obtain ⟨vs, h1, h2⟩ := ih
      obtain ⟨x, _, hx⟩ := hgs f
      refine ⟨f x :: vs, by simp [List.mapM_cons, h1, hx], fun v => ?_⟩
      simp only [List.mem_cons, h2, exists_eq_or_imp, hx, Option.some.injEq]
      constructor <;> rintro (h | h) <;> simp_all
  obtain ⟨vs, h1, h2⟩ := hmap points
  have e : toSpline points reference diagonal = least (vs.map some) none := by
    simp only [toSpline]
    rw [hg, h1]
  have hl := least_of (vs.map some)
  rw [← e] at hl
  cases hr : toSpline points reference diagonal with
  | none =>
    exfalso
    obtain ⟨f, l, rfl⟩ := List.exists_cons_of_ne_nil hp
    obtain ⟨x, _, hx⟩ := hgs f
    exact hl.2 hr (f x) (by simpa using (h2 (f x)).mpr ⟨f, by simp, hx⟩)
  | some r =>
    obtain ⟨h3, h4⟩ := hl.1 r hr
    obtain ⟨f, hf, hfr⟩ := (h2 r).mp (by simpa using h3)
    obtain ⟨x, hx1, hx2⟩ := hgs f
    rw [hx2, Option.some.injEq] at hfr
    refine ⟨r, rfl, ⟨f, hf, x, hx1, hfr.symm⟩, fun f' hf' v hv => h4 v ?_⟩
    have : g f' = some v := by rw [← hg]; exact hv
    simpa using (h2 v).mpr ⟨f', hf', this⟩

end spline

/-- A way that turns back: 4 m east, 3 m north, then west. The squared distance of the point (2.5, 0.5) from it. -/
def turn (s : ℚ) : ℚ :=
  if s ≤ 4 then (s - 5/2) ^ 2 + 1/4 else if s ≤ 7 then 9/4 + (s - 9/2) ^ 2 else (17/2 - s) ^ 2 + 25/4

/-- The point is half a metre from the way, but the search, which starts with the nearer end, finds at least a metre and a half. -/
theorem C135_turn_violated : ∃ r, bisect turn 0 (17/2) (turn 0) (turn (17/2)) = some r ∧ 9/4 ≤ r ∧ turn (5/2) = 1/4 := by
  have h1 : bisect turn 0 (17/2) (turn 0) (turn (17/2)) = bisect turn (17/4) (17/2) (turn (17/4)) (turn (17/2)) := by
    rw [bisect, if_pos (by norm_num)]
    simp only
    rw [if_pos (by norm_num [turn])]
    norm_num
  obtain ⟨x, hx1, hx2, hx3⟩ := C135_attained turn (17/4) (17/2) (by norm_num)
  refine ⟨turn x, by rw [h1, hx3], ?_, by norm_num [turn]⟩
  simp only [turn]
  rw [if_neg (by linarith)]
  split
  · nlinarith [sq_nonneg (x - 9/2)]
  · nlinarith [sq_nonneg (17/2 - x)]

example : (3 : ℚ) = max 0 (min 10 3) := by norm_num

end Verif.Distance
