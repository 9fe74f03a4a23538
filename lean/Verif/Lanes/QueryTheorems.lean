import Mathlib.Algebra.Order.Field.Rat
import Mathlib.Tactic.Ring
import Mathlib.Tactic.NormNum
import Mathlib.Tactic.FieldSimp
import Mathlib.Data.List.Sort
import Verif.Lanes.Queries
import Verif.Lanes.Spec
/-!
Answers to questions to the map.
-/

namespace Verif.Lanes
open Verif.Lanes.Spec

/-! ### Lanelets nearby -/

section
variable {K : Type} [LinearOrder K]

theorem sorted_near (layer : List (Near K)) : (layer.insertionSort fun a b => a.distance ≤ b.distance).Pairwise fun a b => a.distance ≤ b.distance := by
  have : Std.Total fun a b : Near K => a.distance ≤ b.distance := ⟨fun a b => le_total _ _⟩
  have : IsTrans (Near K) fun a b => a.distance ≤ b.distance := ⟨fun _ _ _ => le_trans⟩
  exact List.pairwise_insertionSort _ layer

theorem mem_take_sorted (threshold : K) (l : List (Near K)) (hl : l.Pairwise fun a b => a.distance ≤ b.distance) (n : Nat)
    (hn : (l.filter fun e => e.distance ≤ threshold).length ≤ n) (e : Near K) (he : e ∈ l) (hd : e.distance ≤ threshold) : e ∈ l.take n := by
  induction l generalizing n with
  | nil => simp at he
  | cons a l ih =>
    obtain ⟨h1, h2⟩ := List.pairwise_cons.1 hl
    have ha : a.distance ≤ threshold := by
      rcases List.mem_cons.1 he with rfl | he
      · exact hd
      · exact (h1 e he).trans hd
    rw [List.filter_cons_of_pos (by simpa using ha), List.length_cons] at hn
    obtain ⟨m, rfl⟩ : ∃ m, n = m + 1 := ⟨n - 1, by omega⟩
    rw [List.take_succ_cons]
    rcases List.mem_cons.1 he with rfl | he
    · simp
    · exact List.mem_cons_of_mem _ (ih h2 m (by omega) he)

theorem beyond_filter (threshold : K) (l : List (Near K)) (hl : l.Pairwise fun a b => a.distance ≤ b.distance) (h : beyond threshold l = true) :
    (l.filter fun e => e.distance ≤ threshold) = [] := by
  cases l with
  | nil => rfl
  | cons a l =>
    simp only [beyond, decide_eq_true_eq] at h
    obtain ⟨h1, _⟩ := List.pairwise_cons.1 hl
    refine List.filter_eq_nil_iff.2 fun e he => ?_
    simp only [decide_eq_true_eq, not_le]
    rcases List.mem_cons.1 he with rfl | he
    · exact h
    · exact h.trans_le (h1 e he)

/-- The two checks of the first lanelet change nothing. -/
theorem nearby_eq (layer : List (Near K)) (threshold : K) (crosswalks : Bool) (count : Nat) :
    nearby layer threshold crosswalks count =
      (((findNearest layer (count % 4294967296)).filter fun e => crosswalks || (match e.subtype with | some s => decide (s ≠ "crosswalk") | none => false)).filter
        fun e => e.distance ≤ threshold).map (·.id) := by
  have hs : (findNearest layer (count % 4294967296)).Pairwise fun a b => a.distance ≤ b.distance := (sorted_near layer).take
  unfold nearby
  generalize findNearest layer (count % 4294967296) = l at hs
  simp only
  by_cases hb : beyond threshold l = true
  · rw [if_pos hb, List.filter_comm, beyond_filter threshold l hs hb]
    rfl
  · rw [if_neg hb]
    cases crosswalks with
    | true =>
      simp only [if_true, if_neg hb, Bool.true_or, List.filter_true]
    | false =>
      simp only [Bool.false_eq_true, if_false, Bool.false_or]
      by_cases hc : beyond threshold (exclude "crosswalk" l) = true
      · rw [if_pos hc]
        exact (congrArg (List.map _) (beyond_filter threshold _ (hs.filter _) hc)).symm
      · rw [if_neg hc]
        rfl

/-- Lanelets that are found are near enough. If crosswalks are not to be found, they are not. -/
theorem C155_nearby_sound (layer : List (Near K)) (threshold : K) (crosswalks : Bool) (count : Nat) (id : Id)
    (h : id ∈ nearby layer threshold crosswalks count) :
    ∃ e ∈ layer, e.id = id ∧ e.distance ≤ threshold ∧ (crosswalks = false → e.subtype ≠ some "crosswalk") := by
  rw [nearby_eq] at h
  obtain ⟨e, he, rfl⟩ := List.mem_map.1 h
  obtain ⟨he, hd⟩ := List.mem_filter.1 he
  obtain ⟨he, hc⟩ := List.mem_filter.1 he
  refine ⟨e, ?_, rfl, by simpa using hd, fun hf hcw => by simp [hf, hcw] at hc⟩
  exact (List.perm_insertionSort _ layer).mem_iff.1 (List.mem_of_mem_take he)

/-- All lanelets that are near enough and have a subtype are found, unless there are more of them than were to be looked at.
Missing: if there are more, see `C155_nearby_violated`; lanelets without a subtype, see `C155_subtype_violated`. -/
theorem C155_nearby_partial (layer : List (Near K)) (threshold : K) (crosswalks : Bool) (count : Nat) (hc : count < 4294967296)
    (hn : (layer.filter fun e => e.distance ≤ threshold).length ≤ count) (e : Near K) (he : e ∈ layer) (hd : e.distance ≤ threshold)
    (ht : crosswalks = true ∨ ∃ s, e.subtype = some s ∧ s ≠ "crosswalk") : e.id ∈ nearby layer threshold crosswalks count := by
  rw [nearby_eq]
  refine List.mem_map.2 ⟨e, List.mem_filter.2 ⟨List.mem_filter.2 ⟨?_, ?_⟩, by simpa using hd⟩, rfl⟩
  · rw [Nat.mod_eq_of_lt hc]
    refine mem_take_sorted threshold _ (sorted_near layer) count ?_ e ((List.perm_insertionSort _ layer).mem_iff.2 he) hd
    rw [((List.perm_insertionSort _ layer).filter _).length_eq]
    exact hn
  · rcases ht with rfl | ⟨s, hs, hne⟩
    · rfl
    · simp [hs, hne]

/-- Nearer lanelets come first. -/
theorem C155_order (layer : List (Near K)) (threshold : K) (crosswalks : Bool) (count : Nat) :
    ∃ l : List (Near K), nearby layer threshold crosswalks count = l.map (·.id) ∧ (∀ e ∈ l, e ∈ layer) ∧
      l.Pairwise fun a b => a.distance ≤ b.distance := by
  rw [nearby_eq]
  refine ⟨_, rfl, fun e he => ?_, ((List.Pairwise.take (sorted_near layer)).filter _).filter _⟩
  exact (List.perm_insertionSort _ layer).mem_iff.1 (List.mem_of_mem_take (List.mem_of_mem_filter (List.mem_of_mem_filter he)))
end

/-- Six lanelets, one of them a road behind five crosswalks. -/
def crossing : List (Near Nat) :=
  [⟨6, 6, some "road"⟩, ⟨1, 1, some "crosswalk"⟩, ⟨2, 2, some "crosswalk"⟩, ⟨3, 3, some "crosswalk"⟩, ⟨4, 4, some "crosswalk"⟩, ⟨5, 5, some "crosswalk"⟩]

example : nearby crossing 3 true 5 = [1, 2, 3] ∧ nearby crossing 7 true 6 = [1, 2, 3, 4, 5, 6] ∧ nearby crossing 7 false 6 = [6] := by decide +kernel

/-- With the default of five lanelets to look at, a road that is near enough is not found: five crosswalks are nearer, and they
are not to be found either. -/
theorem C155_nearby_violated : ∃ (layer : List (Near Nat)) (e : Near Nat), e ∈ layer ∧ e.subtype = some "road" ∧ e.distance ≤ 10 ∧
    nearby layer 10 false 5 = [] :=
  ⟨crossing, ⟨6, 6, some "road"⟩, by decide +kernel⟩

/-- A lanelet without a subtype is not found when crosswalks are not to be found. -/
theorem C155_subtype_violated : ∃ (layer : List (Near Nat)) (e : Near Nat), e ∈ layer ∧ e.subtype ≠ some "crosswalk" ∧ e.distance ≤ 10 ∧
    nearby layer 10 false 5 = [] ∧ nearby layer 10 true 5 = [e.id] :=
  ⟨[⟨0, 1, none⟩], ⟨0, 1, none⟩, by decide +kernel⟩

/-! ### The direction of a lane -/

section
variable {K : Type} [LinearOrder K]

theorem nearestIndex_spec (l : List K) (i : Nat) (b : K) (h : nearestIndex l = some (i, b)) :
    l[i]? = some b ∧ (∀ c ∈ l, b ≤ c) ∧ ∀ j < i, ∀ c, l[j]? = some c → b < c := by
  induction l generalizing i b with
  | nil => simp [nearestIndex] at h
  | cons a l ih =>
    rw [nearestIndex] at h
    cases hl : nearestIndex l with
    | none =>
      rw [hl] at h
      cases h
      have : l = [] := by
        cases l with
        | nil => rfl
        | cons x l =>
          rw [nearestIndex] at hl
          cases hm : nearestIndex l with
          | none => simp [hm] at hl
          | some p =>
            simp only [hm] at hl
            split at hl <;> simp at hl
      subst this
      simp
    | some p =>
      obtain ⟨j, c⟩ := p
      simp only [hl] at h
      obtain ⟨h1, h2, h3⟩ := ih j c hl
      by_cases hlt : c < a
      · rw [if_pos hlt] at h
        cases h
        refine ⟨by simpa using h1, fun d hd => ?_, fun k hk d hd => ?_⟩
        · rcases List.mem_cons.1 hd with rfl | hd
          · exact hlt.le
          · exact h2 d hd
        · cases k with
          | zero =>
            cases hd
            exact hlt
          | succ k => exact h3 k (by omega) d (by simpa using hd)
      · rw [if_neg hlt] at h
        cases h
        refine ⟨rfl, fun d hd => ?_, fun k hk => by omega⟩
        rcases List.mem_cons.1 hd with rfl | hd
        · exact le_rfl
        · exact (not_lt.1 hlt).trans (h2 d hd)

theorem nearestIndex_some (l : List K) (h : l ≠ []) : ∃ i b, nearestIndex l = some (i, b) := by
  cases l with
  | nil => exact absurd rfl h
  | cons a l =>
    rw [nearestIndex]
    cases nearestIndex l with
    | none => exact ⟨_, _, rfl⟩
    | some p =>
      obtain ⟨i, b⟩ := p
      simp only
      by_cases hlt : b < a
      · rw [if_pos hlt]
        exact ⟨_, _, rfl⟩
      · rw [if_neg hlt]
        exact ⟨_, _, rfl⟩

/-- The direction of a lane at a point is that from the center point nearest to it to the next one. Missing: if that is the last
one, see `C155_yaw_violated`. -/
theorem C155_yaw_partial {P : Type} (d : P → K) (before after : List P) (p q : P)
    (h1 : ∀ x ∈ before, d p < d x) (h2 : ∀ x ∈ q :: after, d p ≤ d x) : yawPoints d (before ++ p :: q :: after) = .ok (p, q) := by
  obtain ⟨i, b, hi⟩ := nearestIndex_some ((before ++ p :: q :: after).map d) (by simp)
  obtain ⟨h3, h4, h5⟩ := nearestIndex_spec _ i b hi
  have hm : ∀ x ∈ before ++ p :: q :: after, d p ≤ d x := by
    intro x hx
    rcases List.mem_append.1 hx with hx | hx
    · exact (h1 x hx).le
    · rcases List.mem_cons.1 hx with rfl | hx
      · exact le_rfl
      · exact h2 x hx
  have hbp : b = d p := by
    apply le_antisymm (h4 _ (List.mem_map.2 ⟨p, by simp, rfl⟩))
    obtain ⟨x, hx, rfl⟩ := List.mem_map.1 (List.mem_of_getElem? h3)
    exact hm x hx
  have hib : i = before.length := by
    rcases lt_trichotomy i before.length with hlt | heq | hgt
    · exfalso
      rw [List.getElem?_map, List.getElem?_append_left hlt, List.getElem?_eq_getElem hlt] at h3
      simp only [Option.map_some, Option.some.injEq] at h3
      have := h1 _ (List.getElem_mem hlt)
      rw [h3, hbp] at this
      exact lt_irrefl _ this
    · exact heq
    · exfalso
      have := h5 before.length hgt (d p) (by simp)
      rw [hbp] at this
      exact lt_irrefl _ this
  subst hib
  simp only [yawPoints, hi]
  rw [List.getElem?_append_right (le_refl _), List.getElem?_append_right (by omega)]
  simp

/-- If the nearest center point is the last one, the direction cannot be told: `std::out_of_range` is thrown. -/
theorem C155_yaw_violated {P : Type} (d : P → K) (before : List P) (p : P) (h1 : ∀ x ∈ before, d p < d x) :
    yawPoints d (before ++ [p]) = .error .range := by
  obtain ⟨i, b, hi⟩ := nearestIndex_some ((before ++ [p]).map d) (by simp)
  obtain ⟨h3, h4, h5⟩ := nearestIndex_spec _ i b hi
  have hib : i = before.length := by
    have hlen : i < (before ++ [p]).length := by
      have := (List.getElem?_eq_some_iff.1 h3).1
      simpa using this
    simp only [List.length_append, List.length_singleton] at hlen
    by_contra hne
    have hlt : i < before.length := by omega
    rw [List.getElem?_map, List.getElem?_append_left hlt, List.getElem?_eq_getElem hlt] at h3
    simp only [Option.map_some, Option.some.injEq] at h3
    have h6 := h1 _ (List.getElem_mem hlt)
    rw [h3] at h6
    exact absurd (h4 _ (List.mem_map.2 ⟨p, by simp, rfl⟩)) (not_le.2 h6)
  subst hib
  simp only [yawPoints, hi]
  rw [List.getElem?_eq_none (l := before ++ [p]) (i := before.length + 1) (by simp)]
  cases (before ++ [p])[before.length]? <;> rfl

/-- Without center points there is no direction, and an error says so. -/
theorem C155_yaw_none (d : P → K) : yawPoints d [] = .error .thrown := rfl

example : yawPoints (fun n : Nat => n) [5, 2, 3, 2] = .ok (2, 3) ∧ yawPoints (fun n : Nat => n) [5, 2, 1] = .error .range := ⟨rfl, rfl⟩
end

/-! ### Speed limits -/

section
variable {K : Type} [Field K] [LinearOrder K] [IsStrictOrderedRing K]

omit [Field K] [IsStrictOrderedRing K] in
theorem foldl_min (l : List K) (a : K) : (l.foldl min a = a ∨ l.foldl min a ∈ l) ∧ l.foldl min a ≤ a ∧ ∀ b ∈ l, l.foldl min a ≤ b := by
  induction l generalizing a with
  | nil => simp
  | cons b l ih =>
    obtain ⟨h1, h2, h3⟩ := ih (min a b)
    rw [List.foldl_cons]
    refine ⟨?_, h2.trans (min_le_left _ _), fun c hc => ?_⟩
    · rcases h1 with h1 | h1
      · rw [h1]
        rcases min_choice a b with h | h
        · exact .inl h
        · exact .inr (by rw [h]; simp)
      · exact .inr (List.mem_cons_of_mem _ h1)
    · rcases List.mem_cons.1 hc with rfl | hc
      · exact h2.trans (min_le_right _ _)
      · exact h3 c hc

/-- The speed limit on some lanelets, in metres per second, is the least of theirs: 3.6 kilometres per hour are one metre per
second. Of no lanelets there is none. -/
theorem C155_speed (limits : List K) (v : K) :
    speedLimit limits = .ok v ↔ v * (36 / 10) ∈ limits ∧ ∀ b ∈ limits, v * (36 / 10) ≤ b := by
  have hp : (0 : K) < 36 / 10 := by norm_num
  cases limits with
  | nil => simp [speedLimit]
  | cons a l =>
    simp only [speedLimit, Except.ok.injEq]
    obtain ⟨h1, h2, h3⟩ := foldl_min (l.map (· / (36 / 10))) (a / (36 / 10))
    constructor
    · rintro rfl
      refine ⟨?_, fun b hb => ?_⟩
      · rcases h1 with h1 | h1
        · rw [h1, div_mul_cancel₀ _ hp.ne']
          simp
        · obtain ⟨c, hc, he⟩ := List.mem_map.1 h1
          rw [← he, div_mul_cancel₀ _ hp.ne']
          exact List.mem_cons_of_mem _ hc
      · rw [← le_div_iff₀ hp]
        rcases List.mem_cons.1 hb with rfl | hb
        · exact h2
        · exact h3 _ (List.mem_map.2 ⟨b, hb, rfl⟩)
    · rintro ⟨h4, h5⟩
      apply le_antisymm
      · rcases List.mem_cons.1 h4 with h4 | h4
        · rw [← h4, mul_div_cancel_right₀ _ hp.ne'] at h2 ⊢
          exact h2
        · have := h3 _ (List.mem_map.2 ⟨_, h4, rfl⟩)
          rwa [mul_div_cancel_right₀ _ hp.ne'] at this
      · rcases h1 with h1 | h1
        · rw [h1, le_div_iff₀ hp]
          exact h5 a (by simp)
        · obtain ⟨c, hc, he⟩ := List.mem_map.1 h1
          rw [← he, le_div_iff₀ hp]
          exact h5 c (List.mem_cons_of_mem _ hc)

omit [IsStrictOrderedRing K] in
theorem C155_speed_none : speedLimit ([] : List K) = .error .thrown := rfl

example : speedLimit [50, 36, (72 : ℚ)] = .ok 10 := by decide +kernel
end

/-! ### Several lanelets -/

section
variable {P : Type} [DecidableEq P]

theorem unique_cons (a : P) (l : List P) : ∃ m, unique (a :: l) = a :: m := by
  induction l generalizing a with
  | nil => exact ⟨[], by rw [unique.eq_def]⟩
  | cons b l ih =>
    rw [unique]
    by_cases h : a = b
    · rw [if_pos h]
      exact ih a
    · rw [if_neg h]
      exact ⟨_, rfl⟩

theorem unique_chain (l : List P) : (unique l).IsChain (· ≠ ·) := by
  match l with
  | [] => simp [unique]
  | [a] => simp [unique]
  | a :: b :: l =>
    rw [unique]
    by_cases h : a = b
    · rw [if_pos h]
      exact unique_chain (a :: l)
    · rw [if_neg h]
      have h1 := unique_chain (b :: l)
      obtain ⟨m, hm⟩ := unique_cons b l
      rw [hm] at h1 ⊢
      exact List.IsChain.cons_cons h h1
termination_by l.length

theorem unique_mem (l : List P) (p : P) : p ∈ unique l ↔ p ∈ l := by
  match l with
  | [] => simp [unique]
  | [a] => simp [unique]
  | a :: b :: l =>
    rw [unique]
    by_cases h : a = b
    · rw [if_pos h, unique_mem (a :: l) p, h]
      simp
    · rw [if_neg h, List.mem_cons, unique_mem (b :: l) p]
      simp
termination_by l.length

theorem unique_sublist (l : List P) : (unique l).Sublist l := by
  match l with
  | [] => simp [unique]
  | [a] => simp [unique]
  | a :: b :: l =>
    rw [unique]
    by_cases h : a = b
    · rw [if_pos h]
      exact (unique_sublist (a :: l)).trans (by subst h; simp)
    · rw [if_neg h]
      exact (unique_sublist (b :: l)).cons_cons a
termination_by l.length

theorem unique_keep (l : List P) (h : l.IsChain (· ≠ ·)) : unique l = l := by
  match l with
  | [] => simp [unique]
  | [a] => simp [unique]
  | a :: b :: l =>
    cases h with
    | cons_cons h1 h2 => rw [unique, if_neg h1, unique_keep (b :: l) h2]
termination_by l.length

/-- The points of the center line of several lanelets are those of the lanelets, in order; no point comes twice in a row, and
nothing else is left out: it is all of them if no point comes twice in a row. -/
theorem C155_points (points : Id → List P) (ids : List Id) :
    (joined points ids).IsChain (· ≠ ·) ∧ (joined points ids).Sublist (ids.map points).flatten ∧
      (∀ p, p ∈ joined points ids ↔ ∃ id ∈ ids, p ∈ points id) ∧
      ((ids.map points).flatten.IsChain (· ≠ ·) → joined points ids = (ids.map points).flatten) := by
  have e : joined points ids = unique (ids.map points).flatten := by
    unfold joined
    by_cases h : ids = []
    · subst h
      simp [unique]
    · rw [if_neg h, List.flatMap_def]
  rw [e]
  refine ⟨unique_chain _, unique_sublist _, fun p => ?_, unique_keep _⟩
  rw [unique_mem]
  simp only [List.mem_flatten, List.mem_map]
  constructor
  · rintro ⟨l, ⟨id, h1, rfl⟩, h2⟩
    exact ⟨id, h1, h2⟩
  · rintro ⟨id, h1, h2⟩
    exact ⟨_, ⟨id, h1, rfl⟩, h2⟩
end

theorem length_unique {V : Type} [NormedAddCommGroup V] [NormedSpace ℝ V] [DecidableEq V] (l : List V) : Spec.length (unique l) = Spec.length l := by
  match l with
  | [] => simp [unique]
  | [a] => simp [unique]
  | a :: b :: l =>
    rw [unique]
    by_cases h : a = b
    · rw [if_pos h, length_unique (a :: l), ← h]
      conv_rhs => rw [Spec.length]
      simp
    · rw [if_neg h]
      have h1 := length_unique (b :: l)
      obtain ⟨m, hm⟩ := unique_cons b l
      rw [hm] at h1 ⊢
      rw [Spec.length, h1, Spec.length]
termination_by l.length

/-- Leaving out points that come twice in a row does not change the length of the line. -/
theorem C155_length {V : Type} [NormedAddCommGroup V] [NormedSpace ℝ V] [DecidableEq V] (points : Id → List V) (ids : List Id) :
    Spec.length (joined points ids) = Spec.length (ids.map points).flatten := by
  unfold joined
  by_cases h : ids = []
  · subst h
    rfl
  · rw [if_neg h, length_unique, List.flatMap_def]

example : joined (fun id => if id = 1 then [1, 2, 3] else [3, 3, 4, 1]) [1, 2] = [1, 2, 3, 4, 1] := by decide +kernel

theorem insertId_mem (x y : Id) (l : List Id) : y ∈ insertId x l ↔ y = x ∨ y ∈ l := by
  induction l with
  | nil => simp [insertId]
  | cons a l ih =>
    rw [insertId]
    by_cases h : x < a
    · rw [if_pos h]
      simp
    · rw [if_neg h]
      by_cases he : x = a
      · rw [if_pos he, he]
        simp
      · rw [if_neg he, List.mem_cons, ih, List.mem_cons]
        constructor
        · rintro (h | h | h)
          · exact .inr (.inl h)
          · exact .inl h
          · exact .inr (.inr h)
        · rintro (h | h | h)
          · exact .inr (.inl h)
          · exact .inl h
          · exact .inr (.inr h)

theorem insertId_sorted (x : Id) (l : List Id) (h : l.Pairwise (· < ·)) : (insertId x l).Pairwise (· < ·) := by
  induction l with
  | nil => simp [insertId]
  | cons a l ih =>
    obtain ⟨h1, h2⟩ := List.pairwise_cons.1 h
    rw [insertId]
    by_cases hx : x < a
    · rw [if_pos hx]
      refine List.pairwise_cons.2 ⟨fun b hb => ?_, h⟩
      rcases List.mem_cons.1 hb with rfl | hb
      · exact hx
      · exact hx.trans (h1 b hb)
    · rw [if_neg hx]
      by_cases he : x = a
      · rw [if_pos he]
        exact h
      · rw [if_neg he]
        refine List.pairwise_cons.2 ⟨fun b hb => ?_, ih h2⟩
        rcases (insertId_mem x b l).1 hb with rfl | hb
        · exact lt_of_le_of_ne (not_lt.1 hx) (Ne.symm he)
        · exact h1 b hb

theorem insertAll (xs s : List Id) (hs : s.Pairwise (· < ·)) :
    (xs.foldl (fun s x => insertId x s) s).Pairwise (· < ·) ∧ ∀ y, y ∈ xs.foldl (fun s x => insertId x s) s ↔ y ∈ xs ∨ y ∈ s := by
  induction xs generalizing s with
  | nil => exact ⟨hs, by simp⟩
  | cons x xs ih =>
    obtain ⟨h1, h2⟩ := ih (insertId x s) (insertId_sorted x s hs)
    refine ⟨h1, fun y => ?_⟩
    rw [List.foldl_cons, h2, insertId_mem, List.mem_cons]
    constructor
    · rintro (h | h | h)
      · exact .inl (.inr h)
      · exact .inl (.inl h)
      · exact .inr h
    · rintro ((h | h) | h)
      · exact .inr (.inl h)
      · exact .inl h
      · exact .inr (.inr h)

/-- The lanelets that follow some lanelets, or precede them, are those of each of them, every one once, in ascending order. -/
theorem C155_union (f : Id → List Id) (ids : List Id) :
    (unionIds f ids).Pairwise (· < ·) ∧ ∀ y, y ∈ unionIds f ids ↔ ∃ id ∈ ids, y ∈ f id := by
  have key : ∀ (ids s : List Id), s.Pairwise (· < ·) →
      (ids.foldl (fun s id => (f id).foldl (fun s x => insertId x s) s) s).Pairwise (· < ·) ∧
      ∀ y, y ∈ ids.foldl (fun s id => (f id).foldl (fun s x => insertId x s) s) s ↔ (∃ id ∈ ids, y ∈ f id) ∨ y ∈ s := by
    intro ids
    induction ids with
    | nil => exact fun s hs => ⟨hs, by simp⟩
    | cons a ids ih =>
      intro s hs
      obtain ⟨h1, h2⟩ := insertAll (f a) s hs
      obtain ⟨h3, h4⟩ := ih _ h1
      refine ⟨h3, fun y => ?_⟩
      rw [List.foldl_cons, h4, h2]
      constructor
      · rintro (⟨id, h5, h6⟩ | h5 | h5)
        · exact .inl ⟨id, List.mem_cons_of_mem _ h5, h6⟩
        · exact .inl ⟨a, by simp, h5⟩
        · exact .inr h5
      · rintro (⟨id, h5, h6⟩ | h5)
        · rcases List.mem_cons.1 h5 with rfl | h5
          · exact .inr (.inl h6)
          · exact .inl ⟨id, h5, h6⟩
        · exact .inr (.inr h5)
  obtain ⟨h1, h2⟩ := key ids [] List.Pairwise.nil
  exact ⟨h1, fun y => by rw [unionIds, h2]; simp⟩

example : unionIds (fun id => if id = 1 then [7, 3] else [5, 3]) [2, 1] = [3, 5, 7] := by decide

/-! ### Traffic lights -/

section
variable {K : Type} [Field K]

/-- The bulb of a color of a traffic light: one of the bulbs on the map that belong to the light, with that color and without an
arrow, if there are any. -/
theorem C156_bulb (lights : List (Light K)) (id : Id) (color : String) (infer : Bool) (p : K × K × K)
    (h : ∃ t ∈ lights, ∃ g ∈ t.groups, ∃ b ∈ g.bulbs, g.light = some id ∧ b.color = some color ∧ b.arrow = false)
    (hp : bulbPosition lights id color infer = some p) :
    ∃ t ∈ lights, ∃ g ∈ t.groups, ∃ b ∈ g.bulbs, g.light = some id ∧ b.color = some color ∧ b.arrow = false ∧ p = (b.x, b.y, b.z) := by
  unfold bulbPosition at hp
  cases hb : findBulb lights id color with
  | none =>
    exfalso
    obtain ⟨t, ht, g, hg, b, hbm, h1, h2, h3⟩ := h
    unfold findBulb at hb
    have := List.find?_eq_none.1 hb b (by
      simp only [List.mem_flatMap, List.mem_filter]
      exact ⟨g, ⟨⟨t, ht, hg⟩, by simp [assigned, h1]⟩, hbm⟩)
    simp [ofColor, h2, h3] at this
  | some b =>
    simp only [hb, Option.some.injEq] at hp
    unfold findBulb at hb
    have h1 := List.mem_of_find?_eq_some hb
    have h2 := List.find?_some hb
    simp only [List.mem_flatMap, List.mem_filter] at h1
    obtain ⟨g, ⟨⟨t, ht, hg⟩, h3⟩, h4⟩ := h1
    simp only [ofColor, Bool.and_eq_true, beq_iff_eq, Bool.not_eq_true'] at h2
    exact ⟨t, ht, g, hg, b, h4, by simpa [assigned] using h3, h2.1, h2.2, hp.symm⟩

omit [Field K] in
theorem findBulb_none {lights : List (Light K)} {id : Id} {color : String}
    (h : ∀ t ∈ lights, ∀ g ∈ t.groups, ∀ b ∈ g.bulbs, g.light = some id → b.color = some color → b.arrow = true) : findBulb lights id color = none := by
  unfold findBulb
  refine List.find?_eq_none.2 fun b hb => ?_
  simp only [List.mem_flatMap, List.mem_filter] at hb
  obtain ⟨g, ⟨⟨t, ht, hg⟩, h3⟩, h4⟩ := hb
  simp only [ofColor, Bool.and_eq_true, beq_iff_eq, Bool.not_eq_true', not_and, Bool.not_eq_false]
  exact fun hc => h t ht g hg b h4 (by simpa [assigned] using h3) hc

/-- There is always a position if there is such a bulb. -/
theorem C156_bulb_found (lights : List (Light K)) (id : Id) (color : String) (infer : Bool)
    (h : ∃ t ∈ lights, ∃ g ∈ t.groups, ∃ b ∈ g.bulbs, g.light = some id ∧ b.color = some color ∧ b.arrow = false) :
    bulbPosition lights id color infer ≠ none := by
  unfold bulbPosition
  cases hb : findBulb lights id color with
  | some b => simp
  | none =>
    exfalso
    obtain ⟨t, ht, g, hg, b, hbm, h1, h2, h3⟩ := h
    unfold findBulb at hb
    have := List.find?_eq_none.1 hb b (by
      simp only [List.mem_flatMap, List.mem_filter]
      exact ⟨g, ⟨⟨t, ht, hg⟩, by simp [assigned, h1]⟩, hbm⟩)
    simp [ofColor, h2, h3] at this

/-- Without such a bulb, and without a guess, there is no position. -/
theorem C156_bulb_none (lights : List (Light K)) (id : Id) (color : String)
    (h : ∀ t ∈ lights, ∀ g ∈ t.groups, ∀ b ∈ g.bulbs, g.light = some id → b.color = some color → b.arrow = true) :
    bulbPosition lights id color false = none := by
  simp [bulbPosition, findBulb_none h]

/-- Without such a bulb the position is guessed from the line at the bottom of the light: half of its height above its beginning,
and between its ends. A quarter of the way from the end to the beginning is red, half of it yellow, three quarters are green. -/
theorem C156_guess (lights : List (Light K)) (id : Id) (color : String)
    (h : ∀ t ∈ lights, ∀ g ∈ t.groups, ∀ b ∈ g.bulbs, g.light = some id → b.color = some color → b.arrow = true)
    (p q : K × K × K) (height : K)
    (hu : ∀ t ∈ lights, ∀ b ∈ t.bases, b.id = id → b.line = some (p, q) ∧ b.height = some height)
    (he : ∃ t ∈ lights, ∃ b ∈ t.bases, b.id = id) (w : K)
    (hw : color = "red" ∧ w = 1 / 4 ∨ color = "yellow" ∧ w = 1 / 2 ∨ color = "green" ∧ w = 3 / 4) :
    bulbPosition lights id color true = some (q.1 + w * (p.1 - q.1), q.2.1 + w * (p.2.1 - q.2.1), p.2.2 + height / 2) := by
  have hs : (scale color : K) = w := by
    rcases hw with ⟨rfl, rfl⟩ | ⟨rfl, rfl⟩ | ⟨rfl, rfl⟩ <;> simp [scale]
  have hi : ∀ b : Base K, b.id = id → b.line = some (p, q) → b.height = some height →
      inferred id color b = some (q.1 + w * (p.1 - q.1), q.2.1 + w * (p.2.1 - q.2.1), p.2.2 + height / 2) := by
    intro b h1 h2 h3
    simp only [inferred, h1, h2, h3, hs, ne_eq, not_true, if_false, Option.some.injEq, Prod.mk.injEq, and_true]
    exact ⟨by ring, by ring⟩
  simp only [bulbPosition, findBulb_none h, if_true]
  obtain ⟨t, ht, b, hb, hbi⟩ := he
  have hmem : b ∈ lights.flatMap (·.bases) := List.mem_flatMap.2 ⟨t, ht, hb⟩
  have hall : ∀ c ∈ lights.flatMap (·.bases), c.id = id → c.line = some (p, q) ∧ c.height = some height := by
    intro c hc
    obtain ⟨t, ht, hc⟩ := List.mem_flatMap.1 hc
    exact hu t ht c hc
  generalize lights.flatMap (·.bases) = l at hmem hall
  induction l with
  | nil => simp at hmem
  | cons c l ih =>
    rw [List.findSome?_cons]
    by_cases hc : c.id = id
    · obtain ⟨h1, h2⟩ := hall c (by simp) hc
      rw [hi c hc h1 h2]
    · have : inferred id color c = none := by simp [inferred, hc]
      rw [this]
      rcases List.mem_cons.1 hmem with rfl | hm
      · exact absurd hbi hc
      · exact ih hm fun d hd => hall d (List.mem_cons_of_mem _ hd)

omit [Field K] in
/-- The stop lines of a traffic light are those of the regulatory elements that have bulbs that belong to the light. If there is no
such element, that is an error. -/
theorem C156_stop_lines (lights : List (Light K)) (id : Id) :
    ((∃ t ∈ lights, ∃ g ∈ t.groups, g.light = some id) → ∃ l, stopLineIds lights id = .ok l ∧
      ∀ s, s ∈ l ↔ ∃ t ∈ lights, (∃ g ∈ t.groups, g.light = some id) ∧ ∃ line, t.stopLine = some (s, line)) ∧
    ((¬ ∃ t ∈ lights, ∃ g ∈ t.groups, g.light = some id) → stopLineIds lights id = .error .thrown) := by
  have hm : ∀ t, t ∈ lights.filter (fun t => t.groups.any (assigned id)) ↔ t ∈ lights ∧ ∃ g ∈ t.groups, g.light = some id := by
    intro t
    simp [assigned]
  constructor
  · rintro ⟨t, ht, hg⟩
    have hne : lights.filter (fun t => t.groups.any (assigned id)) ≠ [] := List.ne_nil_of_mem ((hm t).2 ⟨ht, hg⟩)
    refine ⟨_, by simp only [stopLineIds, lightsOf, if_neg hne, bind, Except.bind]; rfl, fun s => ?_⟩
    simp only [List.mem_filterMap, hm, Option.map_eq_some_iff]
    constructor
    · rintro ⟨t, ⟨h1, h2⟩, ⟨⟨a, line⟩, h3, h4⟩⟩
      exact ⟨t, h1, h2, line, by rw [h3, ← h4]⟩
    · rintro ⟨t, h1, h2, line, h3⟩
      exact ⟨t, ⟨h1, h2⟩, _, h3, rfl⟩
  · intro h
    have he : lights.filter (fun t => t.groups.any (assigned id)) = [] :=
      List.eq_nil_iff_forall_not_mem.2 fun t ht => h ⟨t, ((hm t).1 ht).1, ((hm t).1 ht).2⟩
    simp only [stopLineIds, lightsOf, he, if_true, bind, Except.bind]

omit [Field K] in
/-- The points of the stop lines: of every such element those of its stop line, and none if it has no stop line. -/
theorem C156_stop_line_points (lights : List (Light K)) (id : Id) (l : List (List (K × K × K))) (h : stopLinePoints lights id = .ok l) (line : List (K × K × K)) :
    line ∈ l ↔ ∃ t ∈ lights, (∃ g ∈ t.groups, g.light = some id) ∧ ((∃ s, t.stopLine = some (s, line)) ∨ t.stopLine = none ∧ line = []) := by
  have hm : ∀ t, t ∈ lights.filter (fun t => t.groups.any (assigned id)) ↔ t ∈ lights ∧ ∃ g ∈ t.groups, g.light = some id := by
    intro t
    simp [assigned]
  unfold stopLinePoints lightsOf at h
  by_cases he : lights.filter (fun t => t.groups.any (assigned id)) = []
  · simp [he, bind, Except.bind] at h
  · simp only [if_neg he, bind, Except.bind, Except.ok.injEq] at h
    rw [← h]
    simp only [List.mem_map, hm]
    constructor
    · rintro ⟨t, ⟨h1, h2⟩, h3⟩
      refine ⟨t, h1, h2, ?_⟩
      cases hs : t.stopLine with
      | none => simp only [hs] at h3; exact .inr ⟨rfl, h3.symm⟩
      | some p => simp only [hs] at h3; exact .inl ⟨p.1, by rw [← h3]⟩
    · rintro ⟨t, h1, h2, ⟨s, h3⟩ | ⟨h3, rfl⟩⟩
      · exact ⟨t, ⟨h1, h2⟩, by rw [h3]⟩
      · exact ⟨t, ⟨h1, h2⟩, by rw [h3]⟩

omit [Field K] in
/-- Every traffic light that has bulbs on the map, or on a path, is listed, and no other. For every listed one stop lines can be
asked for. -/
theorem C156_listed (lights : List (Light K)) (id : Id) :
    (id ∈ lightIds lights ↔ ∃ t ∈ lights, ∃ g ∈ t.groups, g.light = some id) ∧
    (id ∈ lightIds lights ↔ ∃ l, stopLineIds lights id = .ok l) := by
  have h1 : id ∈ lightIds lights ↔ ∃ t ∈ lights, ∃ g ∈ t.groups, g.light = some id := by
    simp only [lightIds, List.mem_filterMap, List.mem_flatMap]
    constructor
    · rintro ⟨g, ⟨t, ht, hg⟩, h⟩
      exact ⟨t, ht, g, hg, h⟩
    · rintro ⟨t, ht, g, hg, h⟩
      exact ⟨g, ⟨t, ht, hg⟩, h⟩
  refine ⟨h1, h1.trans ⟨fun h => ?_, fun ⟨l, hl⟩ => ?_⟩⟩
  · obtain ⟨l, hl, _⟩ := (C156_stop_lines lights id).1 h
    exact ⟨l, hl⟩
  · by_contra h
    rw [(C156_stop_lines lights id).2 h] at hl
    cases hl
end

/-- A traffic light with bulbs for red, with an arrow for green, and with a line at its bottom. -/
def demoLight : Light ℚ :=
  ⟨[⟨some 7, [⟨some "green", true, 9, 9, 9⟩, ⟨some "red", false, 1, 2, 3⟩]⟩, ⟨none, []⟩], [⟨7, some 2, some ((0, 0, 5), (4, 8, 5))⟩], some (11, [(0, 0, 0)])⟩

example : bulbPosition [demoLight] 7 "red" true = some (1, 2, 3) ∧ bulbPosition [demoLight] 7 "green" false = none ∧
    bulbPosition [demoLight] 7 "green" true = some (1, 2, 6) ∧ stopLineIds [demoLight, { demoLight with stopLine := none }] 7 = .ok [11] ∧
    stopLinePoints [demoLight, { demoLight with stopLine := none }] 7 = .ok [[(0, 0, 0)], []] ∧ lightIds [demoLight] = [7] := by decide +kernel

/-- The ids and the points of the stop lines do not go together: an element without a stop line has points, none, but no id. -/
theorem C156_together_violated : ∃ (lights : List (Light ℚ)) (a : List Id) (b : List (List (ℚ × ℚ × ℚ))),
    stopLineIds lights 7 = .ok a ∧ stopLinePoints lights 7 = .ok b ∧ a.length ≠ b.length :=
  ⟨[demoLight, { demoLight with stopLine := none }], [11], [[(0, 0, 0)], []], by decide +kernel⟩

end Verif.Lanes
