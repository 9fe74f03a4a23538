import Verif.Lanelet.Model
import Mathlib.Algebra.Order.Ring.Rat
import Mathlib.Tactic.Linarith
import Mathlib.Algebra.Order.Archimedean.Basic
import Mathlib.Data.Rat.Floor
/- Specification of positions on the road network, and lemmas. -/
namespace Verif.Lanelet

/-! ### Specification -/

/-- Two poses are the same place on the road, seen from different lanelets: the end of a lanelet is the beginning of
each of its successors. -/
inductive Same (r : Road) : Pose → Pose → Prop
  | refl (p : Pose) : Same r p p
  | next {id s i q} : i ∈ r.next id → Same r ⟨i, s - r.length id⟩ q → Same r ⟨id, s⟩ q
  | prev {id s i q} : i ∈ r.prev id → Same r ⟨i, s + r.length i⟩ q → Same r ⟨id, s⟩ q

/-- The pose lies on its lanelet. -/
def OnLanelet (r : Road) (p : Pose) : Prop := 0 ≤ p.s ∧ p.s ≤ r.length p.id

/-- The road ends before the pose: beyond the end of a lanelet without successors or before the beginning of one without
predecessors. -/
def OffRoad (r : Road) (p : Pose) : Prop := (p.s < 0 ∧ r.prev p.id = []) ∨ (r.length p.id < p.s ∧ r.next p.id = [])

/-- Each element is linked to the one after it. -/
def Linked (link : Id → List Id) : List Id → Prop
  | a :: b :: l => b ∈ link a ∧ Linked link (b :: l)
  | _ => True

/-- Sum of the lengths. -/
def total (r : Road) : List Id → Rat
  | [] => 0
  | i :: l => r.length i + total r l

/-- The straight ones, if there is any; otherwise all. -/
def preferred (r : Road) (l : List Id) : List Id := if l.any r.straight then l.filter r.straight else l

/-! ### Lemmas -/

theorem preferred_sub {r : Road} {l : List Id} {i : Id} (h : i ∈ preferred r l) : i ∈ l := by
  unfold preferred at h
  split at h
  · exact (List.mem_filter.mp h).1
  · exact h

theorem Linked.mono {f g : Id → List Id} (hfg : ∀ i j, j ∈ f i → j ∈ g i) {l : List Id} (h : Linked f l) : Linked g l := by
  induction l with
  | nil => trivial
  | cons a l ih =>
    cases l with
    | nil => trivial
    | cons b l => exact ⟨hfg _ _ h.1, ih h.2⟩


theorem total_append (r : Road) (a b : List Id) : total r (a ++ b) = total r a + total r b := by
  induction a with
  | nil => simp [total]
  | cons x l ih => simp only [List.cons_append, total, ih]; ring

theorem Linked.snoc {link : Id → List Id} {l : List Id} {a b : Id} (h : Linked link (l ++ [a])) (hb : b ∈ link a) :
    Linked link (l ++ [a] ++ [b]) := by
  induction l with
  | nil => exact ⟨hb, trivial⟩
  | cons x l ih =>
    cases l with
    | nil => exact ⟨h.1, hb, trivial⟩
    | cons y l => exact ⟨h.1, ih h.2⟩

theorem Linked.append {link : Id → List Id} {l m : List Id} {a : Id} (h : Linked link (l ++ [a])) (hm : Linked link (a :: m)) :
    Linked link (l ++ [a] ++ m) := by
  induction l with
  | nil => exact hm
  | cons x l ih =>
    cases l with
    | nil => exact ⟨h.1, hm⟩
    | cons y l => exact ⟨h.1, ih h.2⟩

theorem Same.trans {r : Road} {a b c : Pose} (h : Same r a b) (g : Same r b c) : Same r a c := by
  induction h with
  | refl => exact g
  | next hi _ ih => exact .next hi (ih g)
  | prev hi _ ih => exact .prev hi (ih g)

theorem backward_spec (r : Road) (p : Pose) (x : Canonical) (h : backward r p = some x) :
    (∀ q, x = .pose q → Same r p q ∧ 0 ≤ q.s ∧ (0 ≤ p.s → q = p) ∧ (p.s < 0 → q.s < r.length q.id)) ∧
    (∀ i, x = .endOfRoad i → ∃ s, Same r p ⟨i, s⟩ ∧ s < 0 ∧ r.prev i = []) := by
  refine backward.partial_correctness r (fun p x =>
    (∀ q, x = .pose q → Same r p q ∧ 0 ≤ q.s ∧ (0 ≤ p.s → q = p) ∧ (p.s < 0 → q.s < r.length q.id)) ∧
    (∀ i, x = .endOfRoad i → ∃ s, Same r p ⟨i, s⟩ ∧ s < 0 ∧ r.prev i = [])) ?_ p x h
  intro f ih p x h
  split at h
  · next hs =>
    split at h
    · next hp =>
      obtain rfl := Option.some.inj h
      refine ⟨by simp, fun i hi => ?_⟩
      cases hi
      exact ⟨p.s, .refl _, hs, hp⟩
    · next i l hp =>
      obtain ⟨h1, h2⟩ := ih _ _ h
      refine ⟨fun q hq => ?_, fun j hj => ?_⟩
      · obtain ⟨a, b, c, d⟩ := h1 q hq
        refine ⟨.prev (by rw [hp]; simp) a, b, fun h0 => absurd hs (not_lt.mpr h0), fun _ => ?_⟩
        rcases le_or_gt 0 (p.s + r.length i) with h0 | h0
        · rw [c h0]; simp only; linarith
        · exact d h0
      · obtain ⟨s, a, b⟩ := h2 j hj
        exact ⟨s, .prev (by rw [hp]; simp) a, b⟩
  · next hs =>
    obtain rfl := Option.some.inj h
    refine ⟨fun q hq => ?_, by simp⟩
    cases hq
    exact ⟨.refl _, not_lt.mp hs, fun _ => rfl, fun h0 => absurd h0 hs⟩

theorem forward_spec (r : Road) (p : Pose) (x : Canonical) (h : forward r p = some x) (h0 : 0 ≤ p.s) :
    (∀ q, x = .pose q → Same r p q ∧ OnLanelet r q ∧ (p.s ≤ r.length p.id → q = p)) ∧
    (∀ i, x = .endOfRoad i → ∃ s, Same r p ⟨i, s⟩ ∧ r.length i < s ∧ r.next i = []) := by
  refine forward.partial_correctness r (fun p x => 0 ≤ p.s →
    (∀ q, x = .pose q → Same r p q ∧ OnLanelet r q ∧ (p.s ≤ r.length p.id → q = p)) ∧
    (∀ i, x = .endOfRoad i → ∃ s, Same r p ⟨i, s⟩ ∧ r.length i < s ∧ r.next i = [])) ?_ p x h h0
  intro f ih p x h h0
  split at h
  · next hs =>
    split at h
    · next hp =>
      obtain rfl := Option.some.inj h
      refine ⟨by simp, fun i hi => ?_⟩
      cases hi
      exact ⟨p.s, .refl _, hs, hp⟩
    · next i l hp =>
      obtain ⟨h1, h2⟩ := ih _ _ h (by simp only; linarith)
      refine ⟨fun q hq => ?_, fun j hj => ?_⟩
      · obtain ⟨a, b, c⟩ := h1 q hq
        exact ⟨.next (by rw [hp]; simp) a, b, fun hle => absurd hs (not_lt.mpr hle)⟩
      · obtain ⟨s, a, b⟩ := h2 j hj
        exact ⟨s, .next (by rw [hp]; simp) a, b⟩
  · next hs =>
    obtain rfl := Option.some.inj h
    refine ⟨fun q hq => ?_, by simp⟩
    cases hq
    exact ⟨.refl _, ⟨h0, not_lt.mp hs⟩, fun _ => rfl⟩

/-- All lanelets have a length of at least some positive number, as in every finite map. -/
def Positive (r : Road) : Prop := ∃ e : Rat, 0 < e ∧ ∀ i, e ≤ r.length i

theorem backward_ends {r : Road} (hr : Positive r) (p : Pose) : ∃ x, backward r p = some x := by
  obtain ⟨e, he, hl⟩ := hr
  obtain ⟨n, hn⟩ := Archimedean.arch (-p.s) he
  rw [nsmul_eq_mul] at hn
  induction n generalizing p with
  | zero =>
    rw [backward.eq_def, if_neg (by simp at hn; linarith)]
    exact ⟨_, rfl⟩
  | succ n ih =>
    rw [backward.eq_def]
    split
    · split
      · exact ⟨_, rfl⟩
      · next i l hp =>
        refine ih _ ?_
        push_cast at hn
        have := hl i
        simp only
        linarith
    · exact ⟨_, rfl⟩

theorem forward_ends {r : Road} (hr : Positive r) (p : Pose) : ∃ x, forward r p = some x := by
  obtain ⟨e, he, hl⟩ := hr
  obtain ⟨n, hn⟩ := Archimedean.arch p.s he
  rw [nsmul_eq_mul] at hn
  induction n generalizing p with
  | zero =>
    have := hl p.id
    rw [forward.eq_def, if_neg (by simp at hn; linarith)]
    exact ⟨_, rfl⟩
  | succ n ih =>
    rw [forward.eq_def]
    split
    · split
      · exact ⟨_, rfl⟩
      · next i l hp =>
        refine ih _ ?_
        push_cast at hn
        have := hl p.id
        simp only
        linarith
    · exact ⟨_, rfl⟩

/-! #### Routes -/

/-- A route into which each lanelet leads in one way at most. -/
def Unambiguous (r : Road) (route : List Id) : Prop := ∀ id, ((r.next id).filter (· ∈ route)).length ≤ 1

theorem intoRoute_none (r : Road) (route : List Id) (l : List Id) (x : Bool × Pose) (h : l.filter (· ∈ route) = []) :
    intoRoute r route l x = x := by
  induction l generalizing x with
  | nil => rfl
  | cons i l ih =>
    obtain ⟨b, p⟩ := x
    simp only [List.filter_cons] at h
    split at h
    · cases h
    · next hi =>
      simp only [decide_eq_true_eq] at hi
      unfold intoRoute
      rw [if_neg hi]
      exact ih _ h

theorem intoRoute_one (r : Road) (route : List Id) (l : List Id) (p : Pose) (h : (l.filter (· ∈ route)).length ≤ 1) :
    (intoRoute r route l (false, p) = (false, p) ∧ ∀ i ∈ l, i ∉ route) ∨
    ∃ i ∈ l, i ∈ route ∧ intoRoute r route l (false, p) = (true, ⟨i, p.s - r.length p.id⟩) := by
  induction l with
  | nil => exact .inl ⟨rfl, by simp⟩
  | cons i l ih =>
    by_cases hi : i ∈ route
    · right
      simp only [List.filter_cons, hi, decide_true, if_true, List.length_cons] at h
      have hn : l.filter (· ∈ route) = [] := List.length_eq_zero_iff.mp (by omega)
      refine ⟨i, by simp, hi, ?_⟩
      unfold intoRoute
      rw [if_pos hi]
      exact intoRoute_none r route l _ hn
    · have e : intoRoute r route (i :: l) (false, p) = intoRoute r route l (false, p) := by
        conv => lhs; unfold intoRoute
        rw [if_neg hi]
      rw [e]
      simp only [List.filter_cons, hi, decide_false] at h
      rcases ih h with ⟨a, b⟩ | ⟨j, a, b, c⟩
      · left; exact ⟨a, fun j hj => by rcases List.mem_cons.mp hj with rfl | hj; exacts [hi, b j hj]⟩
      · right; exact ⟨j, by simp [a], b, c⟩

theorem forwardRoute_spec (r : Road) (route : List Id) (hu : Unambiguous r route) (p : Pose) (x : Canonical)
    (h : forwardRoute r route p = some x) (h0 : 0 ≤ p.s) :
    (∀ q, x = .pose q → Same r p q ∧ OnLanelet r q ∧ (p.s ≤ r.length p.id → q = p) ∧ (q.id = p.id ∨ q.id ∈ route)) ∧
    (∀ i, x = .endOfRoad i → ∃ s, Same r p ⟨i, s⟩ ∧ r.length i < s ∧ (∀ j ∈ r.next i, j ∉ route) ∧ (i = p.id ∨ i ∈ route)) := by
  refine forwardRoute.partial_correctness r route (fun p x => 0 ≤ p.s →
    (∀ q, x = .pose q → Same r p q ∧ OnLanelet r q ∧ (p.s ≤ r.length p.id → q = p) ∧ (q.id = p.id ∨ q.id ∈ route)) ∧
    (∀ i, x = .endOfRoad i → ∃ s, Same r p ⟨i, s⟩ ∧ r.length i < s ∧ (∀ j ∈ r.next i, j ∉ route) ∧ (i = p.id ∨ i ∈ route))) ?_ p x h h0
  intro f ih p x h h0
  split at h
  · next hs =>
    rcases intoRoute_one r route (r.next p.id) p (hu p.id) with ⟨a, b⟩ | ⟨i, a, b, c⟩
    · rw [a] at h
      obtain rfl := Option.some.inj h
      refine ⟨by simp, fun i hi => ?_⟩
      cases hi
      exact ⟨p.s, .refl _, hs, b, .inl rfl⟩
    · rw [c] at h
      obtain ⟨h1, h2⟩ := ih _ _ h (by simp only; linarith)
      refine ⟨fun q hq => ?_, fun j hj => ?_⟩
      · obtain ⟨a', b', _, d'⟩ := h1 q hq
        refine ⟨.next a a', b', fun hle => absurd hs (not_lt.mpr hle), ?_⟩
        rcases d' with d' | d'
        · right; rw [d']; exact b
        · exact .inr d'
      · obtain ⟨s, a', b', c', d'⟩ := h2 j hj
        refine ⟨s, .next a a', b', c', ?_⟩
        rcases d' with d' | d'
        · right; rw [d']; exact b
        · exact .inr d'
  · next hs =>
    obtain rfl := Option.some.inj h
    refine ⟨fun q hq => ?_, by simp⟩
    cases hq
    exact ⟨.refl _, ⟨h0, not_lt.mp hs⟩, fun _ => rfl, .inl rfl⟩

theorem intoRoute_decreases (r : Road) (route : List Id) (e : Rat) (hl : ∀ i, e ≤ r.length i) (he : 0 < e) (l : List Id) :
    ∀ (b : Bool) (p q : Pose), intoRoute r route l (b, p) = (true, q) → (b = true ∧ q.s ≤ p.s) ∨ q.s ≤ p.s - e := by
  induction l with
  | nil =>
    intro b p q h
    simp only [intoRoute, Prod.mk.injEq] at h
    left
    exact ⟨h.1, by rw [h.2]⟩
  | cons i l ih =>
    intro b p q h
    unfold intoRoute at h
    split at h
    · right
      have := hl p.id
      rcases ih _ _ _ h with ⟨_, h1⟩ | h1 <;> simp only at h1 <;> linarith
    · exact ih _ _ _ h

theorem forwardRoute_ends {r : Road} (hr : Positive r) (route : List Id) (p : Pose) : ∃ x, forwardRoute r route p = some x := by
  obtain ⟨e, he, hl⟩ := hr
  obtain ⟨n, hn⟩ := Archimedean.arch p.s he
  rw [nsmul_eq_mul] at hn
  induction n generalizing p with
  | zero =>
    have := hl p.id
    rw [forwardRoute.eq_def, if_neg (by simp at hn; linarith)]
    exact ⟨_, rfl⟩
  | succ n ih =>
    rw [forwardRoute.eq_def]
    split
    · split
      · next q hq =>
        refine ih _ ?_
        push_cast at hn
        rcases intoRoute_decreases r route e hl he _ _ _ _ hq with ⟨h, _⟩ | h
        · cases h
        · linarith
      · exact ⟨_, rfl⟩
    · exact ⟨_, rfl⟩

/-! #### Moving along -/

theorem pick_mem {r : Road} {l : List Id} {i : Id} (h : pick r l = some i) : i ∈ l := by
  unfold pick at h
  cases hf : (l.filter r.straight).head? with
  | none => rw [hf] at h; exact List.mem_of_mem_head? (by simpa using h)
  | some j =>
    rw [hf] at h
    simp only [Option.some_or, Option.some.injEq] at h
    subst h
    exact (List.mem_filter.mp (List.mem_of_mem_head? hf)).1

theorem pick_none {r : Road} {l : List Id} (h : pick r l = none) : l = [] := by
  unfold pick at h
  cases l with
  | nil => rfl
  | cons a l => simp at h

/-- A straight one is taken if there is any. -/
theorem pick_straight {r : Road} {l : List Id} {i : Id} (h : pick r l = some i) (hs : ∃ j ∈ l, r.straight j = true) : r.straight i = true := by
  unfold pick at h
  cases hf : (l.filter r.straight).head? with
  | none =>
    obtain ⟨j, h1, h2⟩ := hs
    have : j ∈ l.filter r.straight := List.mem_filter.mpr ⟨h1, h2⟩
    rw [List.head?_eq_none_iff] at hf
    rw [hf] at this
    cases this
  | some j =>
    rw [hf] at h
    simp only [Option.some_or, Option.some.injEq] at h
    subst h
    exact (List.mem_filter.mp (List.mem_of_mem_head? hf)).2

theorem pick_preferred {r : Road} {l : List Id} {i : Id} (h : pick r l = some i) : i ∈ preferred r l := by
  unfold preferred
  split
  · next ha =>
    rw [List.any_eq_true] at ha
    exact List.mem_filter.mpr ⟨pick_mem h, pick_straight h ha⟩
  · exact pick_mem h

theorem alongForward_spec (r : Road) (p : Pose) (x : Along) (h : alongForward r p = some x) (h0 : 0 ≤ p.s) :
    (∀ q, x = .pose q → Same r p q ∧ 0 ≤ q.s ∧ q.s < r.length q.id) ∧
    (x = .error → ∃ i s, Same r p ⟨i, s⟩ ∧ r.length i ≤ s ∧ r.next i = []) := by
  refine alongForward.partial_correctness r (fun p x => 0 ≤ p.s →
    (∀ q, x = .pose q → Same r p q ∧ 0 ≤ q.s ∧ q.s < r.length q.id) ∧
    (x = .error → ∃ i s, Same r p ⟨i, s⟩ ∧ r.length i ≤ s ∧ r.next i = [])) ?_ p x h h0
  intro f ih p x h h0
  split at h
  · next hs =>
    split at h
    · next hp =>
      obtain rfl := Option.some.inj h
      exact ⟨by simp, fun _ => ⟨p.id, p.s, .refl _, hs, pick_none hp⟩⟩
    · next i hp =>
      obtain ⟨h1, h2⟩ := ih _ _ h (by simp only; linarith)
      refine ⟨fun q hq => ?_, fun he => ?_⟩
      · obtain ⟨a, b⟩ := h1 q hq
        exact ⟨.next (pick_mem hp) a, b⟩
      · obtain ⟨j, s, a, b⟩ := h2 he
        exact ⟨j, s, .next (pick_mem hp) a, b⟩
  · next hs =>
    obtain rfl := Option.some.inj h
    refine ⟨fun q hq => ?_, by simp⟩
    cases hq
    exact ⟨.refl _, h0, not_le.mp hs⟩

theorem alongBackward_spec (r : Road) (p : Pose) (x : Along) (h : alongBackward r p = some x) (h0 : p.s < r.length p.id) :
    (∀ q, x = .pose q → Same r p q ∧ 0 ≤ q.s ∧ q.s < r.length q.id) ∧
    (x = .error → ∃ i s, Same r p ⟨i, s⟩ ∧ s < 0 ∧ r.prev i = []) := by
  refine alongBackward.partial_correctness r (fun p x => p.s < r.length p.id →
    (∀ q, x = .pose q → Same r p q ∧ 0 ≤ q.s ∧ q.s < r.length q.id) ∧
    (x = .error → ∃ i s, Same r p ⟨i, s⟩ ∧ s < 0 ∧ r.prev i = [])) ?_ p x h h0
  intro f ih p x h h0
  split at h
  · next hs =>
    split at h
    · next hp =>
      obtain rfl := Option.some.inj h
      exact ⟨by simp, fun _ => ⟨p.id, p.s, .refl _, hs, pick_none hp⟩⟩
    · next i hp =>
      obtain ⟨h1, h2⟩ := ih _ _ h (by simp only; linarith)
      refine ⟨fun q hq => ?_, fun he => ?_⟩
      · obtain ⟨a, b⟩ := h1 q hq
        exact ⟨.prev (pick_mem hp) a, b⟩
      · obtain ⟨j, s, a, b⟩ := h2 he
        exact ⟨j, s, .prev (pick_mem hp) a, b⟩
  · next hs =>
    obtain rfl := Option.some.inj h
    refine ⟨fun q hq => ?_, by simp⟩
    cases hq
    exact ⟨.refl _, not_lt.mp hs, h0⟩

theorem alongForward_ends {r : Road} (hr : Positive r) (p : Pose) : ∃ x, alongForward r p = some x := by
  obtain ⟨e, he, hl⟩ := hr
  obtain ⟨n, hn⟩ := Archimedean.arch p.s he
  rw [nsmul_eq_mul] at hn
  induction n generalizing p with
  | zero =>
    have := hl p.id
    rw [alongForward.eq_def, if_neg (by simp at hn; linarith)]
    exact ⟨_, rfl⟩
  | succ n ih =>
    rw [alongForward.eq_def]
    split
    · split
      · exact ⟨_, rfl⟩
      · refine ih _ ?_
        push_cast at hn
        have := hl p.id
        simp only
        linarith
    · exact ⟨_, rfl⟩

theorem alongBackward_ends {r : Road} (hr : Positive r) (p : Pose) : ∃ x, alongBackward r p = some x := by
  obtain ⟨e, he, hl⟩ := hr
  obtain ⟨n, hn⟩ := Archimedean.arch (-p.s) he
  rw [nsmul_eq_mul] at hn
  induction n generalizing p with
  | zero =>
    rw [alongBackward.eq_def, if_neg (by simp at hn; linarith)]
    exact ⟨_, rfl⟩
  | succ n ih =>
    rw [alongBackward.eq_def]
    split
    · split
      · exact ⟨_, rfl⟩
      · next i hp =>
        refine ih _ ?_
        push_cast at hn
        have := hl i
        simp only
        linarith
    · exact ⟨_, rfl⟩

/-! #### Lists -/

theorem followLoop_spec (r : Road) (d : Rat) (id : Id) (ref : Id) (t : Rat) (acc l : List Id) (h : followLoop r d ref t acc = some l)
    (tail : List Id) (pre : List Id) (hacc : acc = pre ++ tail) (hlast : ((id :: tail).getLast?.getD id) = ref) (ht : t = total r tail)
    (hlink : Linked (fun i => preferred r (r.next i)) (id :: tail)) (hmin : ∀ t' i, tail = t' ++ [i] → total r t' < d) :
    ∃ tail', l = pre ++ tail' ∧ Linked (fun i => preferred r (r.next i)) (id :: tail') ∧
      (d ≤ total r tail' ∨ r.next ((id :: tail').getLast?.getD id) = []) ∧ (∀ t' i, tail' = t' ++ [i] → total r t' < d) := by
  refine followLoop.partial_correctness r d (fun ref t acc l => ∀ tail, acc = pre ++ tail →
    ((id :: tail).getLast?.getD id) = ref → t = total r tail → Linked (fun i => preferred r (r.next i)) (id :: tail) → (∀ t' i, tail = t' ++ [i] → total r t' < d) →
    ∃ tail', l = pre ++ tail' ∧ Linked (fun i => preferred r (r.next i)) (id :: tail') ∧
      (d ≤ total r tail' ∨ r.next ((id :: tail').getLast?.getD id) = []) ∧ (∀ t' i, tail' = t' ++ [i] → total r t' < d))
    ?_ ref t acc l h tail hacc hlast ht hlink hmin
  clear h hacc hlast ht hlink hmin tail ref t acc l
  intro f ih ref t acc l h tail hacc hlast ht hlink hmin
  have hsplit : ∃ m, id :: tail = m ++ [ref] := by
    rcases List.eq_nil_or_concat' (id :: tail) with h | ⟨m, b, h⟩
    · cases h
    · rw [h] at hlast
      simp at hlast
      exact ⟨m, by rw [h, hlast]⟩
  split at h
  · next hlt =>
    split at h
    · next i hp =>
      refine ih _ _ _ _ h (tail ++ [i]) (by rw [hacc]; simp) (by rw [← List.cons_append, List.getLast?_concat]; rfl) ?_ ?_ ?_
      · rw [total_append, ht]; simp [total]
      · obtain ⟨m, hm⟩ := hsplit
        rw [← List.cons_append, hm]
        exact Linked.snoc (hm ▸ hlink) (pick_preferred hp)
      · intro t' j e
        have := List.append_inj' e rfl
        rw [← this.1, ← ht]; exact hlt
    · next hp =>
      obtain rfl := Option.some.inj h
      exact ⟨tail, hacc, hlink, .inr (by rw [hlast]; exact pick_none hp), hmin⟩
  · next hlt =>
    obtain rfl := Option.some.inj h
    exact ⟨tail, hacc, hlink, .inl (by rw [← ht]; exact not_lt.mp hlt), hmin⟩

theorem previousLoop_spec (r : Road) (d : Rat) (id : Id) (ref : Id) (t : Rat) (acc l : List Id) (h : previousLoop r d ref t acc = some l)
    (tail : List Id) (hacc : acc = id :: tail) (hlast : ((id :: tail).getLast?.getD id) = ref) (ht : t = total r tail)
    (hlink : Linked (fun i => preferred r (r.prev i)) (id :: tail)) (hmin : ∀ t' i, tail = t' ++ [i] → total r t' < d) :
    ∃ tail', l = id :: tail' ∧ Linked (fun i => preferred r (r.prev i)) (id :: tail') ∧
      (d ≤ total r tail' ∨ r.prev ((id :: tail').getLast?.getD id) = []) ∧ (∀ t' i, tail' = t' ++ [i] → total r t' < d) := by
  refine previousLoop.partial_correctness r d (fun ref t acc l => ∀ tail, acc = id :: tail →
    ((id :: tail).getLast?.getD id) = ref → t = total r tail → Linked (fun i => preferred r (r.prev i)) (id :: tail) → (∀ t' i, tail = t' ++ [i] → total r t' < d) →
    ∃ tail', l = id :: tail' ∧ Linked (fun i => preferred r (r.prev i)) (id :: tail') ∧
      (d ≤ total r tail' ∨ r.prev ((id :: tail').getLast?.getD id) = []) ∧ (∀ t' i, tail' = t' ++ [i] → total r t' < d))
    ?_ ref t acc l h tail hacc hlast ht hlink hmin
  clear h hacc hlast ht hlink hmin tail ref t acc l
  intro f ih ref t acc l h tail hacc hlast ht hlink hmin
  have hsplit : ∃ m, id :: tail = m ++ [ref] := by
    rcases List.eq_nil_or_concat' (id :: tail) with h | ⟨m, b, h⟩
    · cases h
    · rw [h] at hlast
      simp at hlast
      exact ⟨m, by rw [h, hlast]⟩
  split at h
  · next hlt =>
    split at h
    · next i hp =>
      refine ih _ _ _ _ h (tail ++ [i]) (by rw [hacc]; simp) (by rw [← List.cons_append, List.getLast?_concat]; rfl) ?_ ?_ ?_
      · rw [total_append, ht]; simp [total]
      · obtain ⟨m, hm⟩ := hsplit
        rw [← List.cons_append, hm]
        exact Linked.snoc (hm ▸ hlink) (pick_preferred hp)
      · intro t' j e
        have := List.append_inj' e rfl
        rw [← this.1, ← ht]; exact hlt
    · next hp =>
      obtain rfl := Option.some.inj h
      exact ⟨tail, hacc, hlink, .inr (by rw [hlast]; exact pick_none hp), hmin⟩
  · next hlt =>
    obtain rfl := Option.some.inj h
    exact ⟨tail, hacc, hlink, .inl (by rw [← ht]; exact not_lt.mp hlt), hmin⟩

theorem followLoop_ends {r : Road} (hr : Positive r) (d : Rat) (ref : Id) (t : Rat) (acc : List Id) :
    ∃ l, followLoop r d ref t acc = some l := by
  obtain ⟨e, he, hl⟩ := hr
  obtain ⟨n, hn⟩ := Archimedean.arch (d - t) he
  rw [nsmul_eq_mul] at hn
  induction n generalizing ref t acc with
  | zero =>
    rw [followLoop.eq_def, if_neg (by simp at hn; linarith)]
    exact ⟨_, rfl⟩
  | succ n ih =>
    rw [followLoop.eq_def]
    split
    · split
      · next i hp =>
        refine ih _ _ _ ?_
        push_cast at hn
        have := hl i
        linarith
      · exact ⟨_, rfl⟩
    · exact ⟨_, rfl⟩

theorem previousLoop_ends {r : Road} (hr : Positive r) (d : Rat) (ref : Id) (t : Rat) (acc : List Id) :
    ∃ l, previousLoop r d ref t acc = some l := by
  obtain ⟨e, he, hl⟩ := hr
  obtain ⟨n, hn⟩ := Archimedean.arch (d - t) he
  rw [nsmul_eq_mul] at hn
  induction n generalizing ref t acc with
  | zero =>
    rw [previousLoop.eq_def, if_neg (by simp at hn; linarith)]
    exact ⟨_, rfl⟩
  | succ n ih =>
    rw [previousLoop.eq_def]
    split
    · split
      · next i hp =>
        refine ih _ _ _ ?_
        push_cast at hn
        have := hl i
        linarith
      · exact ⟨_, rfl⟩
    · exact ⟨_, rfl⟩

/-! #### Following a route -/

theorem routeLoop_true (r : Road) (id : Id) (horizon : Rat) (self : Bool) (pre : List Id) (hpre : pre = if self then [id] else [])
    (l : List Id) : ∀ (tail : List Id) (t' : Rat) (acc' : List Id),
    routeLoop r id horizon self l true (total r tail) (pre ++ tail) = some (t', acc') → Linked r.next (id :: tail) → total r tail ≤ horizon →
    ∃ m, acc' = pre ++ (tail ++ m) ∧ Linked r.next (id :: (tail ++ m)) ∧ t' = total r (tail ++ m) ∧ m <+: l ∧ (horizon < t' ∨ m = l) ∧
      (∀ k i, m = k ++ [i] → total r (tail ++ k) ≤ horizon) := by
  induction l with
  | nil =>
    intro tail t' acc' h hl _
    simp only [routeLoop, Option.some.injEq, Prod.mk.injEq] at h
    exact ⟨[], by simp [h.2], by simpa using hl, by simp [h.1], by simp, .inr rfl, by simp⟩
  | cons i l ih =>
    intro tail t' acc' h hl ht
    unfold routeLoop at h
    have hlast : ((pre ++ tail).getLast?.getD id) = ((id :: tail).getLast?.getD id) := by
      subst hpre
      cases self with
      | true => rfl
      | false => cases tail <;> rfl
    split at h
    · next hi =>
      rw [hlast] at hi
      have hlink : Linked r.next (id :: (tail ++ [i])) := by
        rcases List.eq_nil_or_concat' (id :: tail) with h | ⟨m, b, h⟩
        · cases h
        · rw [← List.cons_append, h]
          rw [h] at hi hl
          simp only [List.getLast?_concat, Option.getD_some] at hi
          exact Linked.snoc hl hi
      have htot : total r tail + r.length i = total r (tail ++ [i]) := by rw [total_append]; simp [total]
      split at h
      · next hlt =>
        simp only [Option.some.injEq, Prod.mk.injEq] at h
        refine ⟨[i], by rw [← h.2]; simp, hlink, by rw [← h.1, htot], by simp, .inl (by rw [← h.1]; exact hlt), fun k j hk => ?_⟩
        have : k = [] := by cases k with | nil => rfl | cons a k => simp at hk
        subst this; simpa using ht
      · next hlt =>
        rw [htot, List.append_assoc] at h
        obtain ⟨m, h1, h2, h3, h4, h5, h6⟩ := ih _ _ _ h hlink (by rw [← htot]; exact not_lt.mp hlt)
        refine ⟨i :: m, by rw [h1]; simp, by simpa using h2, by rw [h3]; simp, by simpa using h4, ?_, fun k j hk => ?_⟩
        rotate_left
        · cases k with
          | nil => simpa using ht
          | cons a k =>
            simp only [List.cons_append, List.cons.injEq] at hk
            have := h6 k j hk.2
            rw [← hk.1]; simpa using this
        rcases h5 with h5 | h5
        · exact .inl h5
        · exact .inr (by rw [h5])
    · cases h

theorem routeLoop_true_none (r : Road) (id : Id) (horizon : Rat) (self : Bool) (pre : List Id) (hpre : pre = if self then [id] else [])
    (l : List Id) : ∀ (tail : List Id), routeLoop r id horizon self l true (total r tail) (pre ++ tail) = none → Linked r.next (id :: tail) →
    ¬ Linked r.next (id :: (tail ++ l)) := by
  induction l with
  | nil => intro tail h; simp [routeLoop] at h
  | cons i l ih =>
    intro tail h hl hc
    have hlast : ((pre ++ tail).getLast?.getD id) = ((id :: tail).getLast?.getD id) := by
      subst hpre
      cases self with
      | true => rfl
      | false => cases tail <;> rfl
    have key : ∀ (m : List Id) (b : Id), Linked r.next (m ++ [b] ++ i :: l) → i ∈ r.next b := by
      intro m b
      induction m with
      | nil => intro h; exact h.1
      | cons x m ih =>
        intro h
        apply ih
        cases m with
        | nil => exact h.2
        | cons y m => exact h.2
    obtain ⟨m, b, hm⟩ : ∃ m b, id :: tail = m ++ [b] := by
      rcases List.eq_nil_or_concat' (id :: tail) with h | ⟨m, b, h⟩
      · cases h
      · exact ⟨m, b, h⟩
    have hi : i ∈ r.next b := key m b (by rw [← hm]; simpa using hc)
    unfold routeLoop at h
    rw [hlast, hm] at h
    simp only [List.getLast?_concat, Option.getD_some] at h
    rw [if_pos hi] at h
    split at h
    · cases h
    · have htot : total r tail + r.length i = total r (tail ++ [i]) := by rw [total_append]; simp [total]
      rw [htot, List.append_assoc] at h
      refine ih _ h ?_ (by simpa using hc)
      rw [← List.cons_append, hm]
      exact Linked.snoc (hm ▸ hl) hi

theorem routeLoop_false (r : Road) (id : Id) (horizon : Rat) (self : Bool) (l : List Id) :
    (id ∉ l ∧ routeLoop r id horizon self l false 0 [] = some (0, [])) ∨
    ∃ a b, l = a ++ id :: b ∧ id ∉ a ∧
      routeLoop r id horizon self l false 0 [] = routeLoop r id horizon self b true 0 (if self then [id] else []) := by
  induction l with
  | nil => exact .inl ⟨by simp, rfl⟩
  | cons i l ih =>
    by_cases hi : i = id
    · subst hi
      right
      refine ⟨[], l, rfl, by simp, ?_⟩
      conv => lhs; unfold routeLoop
      simp
    · have e : routeLoop r id horizon self (i :: l) false 0 [] = routeLoop r id horizon self l false 0 [] := by
        conv => lhs; unfold routeLoop
        rw [if_neg hi]
      rw [e]
      rcases ih with ⟨h1, h2⟩ | ⟨a, b, h1, h2, h3⟩
      · left; exact ⟨by simp only [List.mem_cons, not_or]; exact ⟨fun h => hi h.symm, h1⟩, h2⟩
      · right; exact ⟨i :: a, b, by rw [h1]; rfl, by simp only [List.mem_cons, not_or]; exact ⟨fun h => hi h.symm, h2⟩, h3⟩

/-! #### Alternatives -/

theorem collect_mem (f : Id → Option (List Pose)) (g : Id → List Pose → List Pose) (l : List Id) :
    ∀ (acc L : List Pose), l.foldlM (fun acc i => do let x ← f i; return acc ++ g i x) acc = some L →
      (∀ q ∈ L, q ∈ acc ∨ ∃ i ∈ l, ∃ x, f i = some x ∧ q ∈ g i x) ∧ (∀ q ∈ acc, q ∈ L) ∧
      (∀ i ∈ l, ∃ x, f i = some x ∧ ∀ q ∈ g i x, q ∈ L) := by
  induction l with
  | nil =>
    intro acc L h
    simp only [List.foldlM_nil, Option.pure_def, Option.some.injEq] at h
    subst h
    exact ⟨fun q hq => .inl hq, fun q hq => hq, by simp⟩
  | cons i l ih =>
    intro acc L h
    simp only [List.foldlM_cons, Option.bind_eq_bind] at h
    cases hf : f i with
    | none => rw [hf] at h; cases h
    | some x =>
      rw [hf] at h
      simp only [Option.bind_some, Option.pure_def] at h
      obtain ⟨h1, h2, h3⟩ := ih _ _ h
      refine ⟨fun q hq => ?_, fun q hq => h2 q (by simp [hq]), fun j hj => ?_⟩
      · rcases h1 q hq with hq | ⟨j, hj, y, hy, hq⟩
        · rcases List.mem_append.mp hq with hq | hq
          · exact .inl hq
          · exact .inr ⟨i, by simp, x, hf, hq⟩
        · exact .inr ⟨j, by simp [hj], y, hy, hq⟩
      · rcases List.mem_cons.mp hj with rfl | hj
        · exact ⟨x, hf, fun q hq => h2 q (by simp [hq])⟩
        · exact h3 j hj

theorem collect_ends (f : Id → Option (List Pose)) (g : Id → List Pose → List Pose) (l : List Id)
    (h : ∀ i ∈ l, ∃ x, f i = some x) : ∀ acc, ∃ L, l.foldlM (fun acc i => do let x ← f i; return acc ++ g i x) acc = some L := by
  induction l with
  | nil => intro acc; exact ⟨acc, rfl⟩
  | cons i l ih =>
    intro acc
    obtain ⟨x, hx⟩ := h i (by simp)
    simp only [List.foldlM_cons, Option.bind_eq_bind, hx, Option.bind_some, Option.pure_def]
    exact ih (fun j hj => h j (by simp [hj])) _

/-- `alternatives` unfolded. -/
def gather (q : Id → Pose) (i : Id) (x : List Pose) : List Pose := if x.isEmpty then [q i] else x

theorem alternatives_spec (r : Road) (p : Pose) (L : List Pose) (h : alternatives r p = some L) :
    (∀ q ∈ L, Same r p q ∧ (OnLanelet r q ∨ OffRoad r q)) ∧ (OnLanelet r p → L = [p]) ∧ (L = [] → OffRoad r p) := by
  refine alternatives.partial_correctness r (fun p L =>
    (∀ q ∈ L, Same r p q ∧ (OnLanelet r q ∨ OffRoad r q)) ∧ (OnLanelet r p → L = [p]) ∧ (L = [] → OffRoad r p)) ?_ p L h
  intro f ih p L h
  split at h
  · next hs =>
    obtain ⟨h1, _, h3⟩ := collect_mem (fun i => f ⟨i, p.s + r.length i⟩) (gather fun i => ⟨i, p.s + r.length i⟩) _ _ _ h
    refine ⟨fun q hq => ?_, fun ho => absurd hs (not_lt.mpr ho.1), fun hL => ?_⟩
    · rcases h1 q hq with hq | ⟨i, hi, x, hx, hq⟩
      · cases hq
      · obtain ⟨a, _, c⟩ := ih _ _ hx
        unfold gather at hq
        split at hq
        · next he =>
          rw [List.mem_singleton] at hq
          subst hq
          exact ⟨.prev hi (.refl _), .inr (c (by simpa using he))⟩
        · exact ⟨.prev hi (a q hq).1, (a q hq).2⟩
    · left
      refine ⟨hs, ?_⟩
      cases hp : r.prev p.id with
      | nil => rfl
      | cons i l =>
        obtain ⟨x, _, hx⟩ := h3 i (by rw [hp]; simp)
        subst hL
        cases x with
        | nil => exact absurd (hx ⟨i, p.s + r.length i⟩ (by simp [gather])) (by simp)
        | cons y x => exact absurd (hx y (by simp [gather])) (by simp)
  · next hs =>
    split at h
    · next hs' =>
      obtain ⟨h1, _, h3⟩ := collect_mem (fun i => f ⟨i, p.s - r.length p.id⟩) (gather fun i => ⟨i, p.s - r.length p.id⟩) _ _ _ h
      refine ⟨fun q hq => ?_, fun ho => absurd hs' (not_lt.mpr ho.2), fun hL => ?_⟩
      · rcases h1 q hq with hq | ⟨i, hi, x, hx, hq⟩
        · cases hq
        · obtain ⟨a, _, c⟩ := ih _ _ hx
          unfold gather at hq
          split at hq
          · next he =>
            rw [List.mem_singleton] at hq
            subst hq
            exact ⟨.next hi (.refl _), .inr (c (by simpa using he))⟩
          · exact ⟨.next hi (a q hq).1, (a q hq).2⟩
      · right
        refine ⟨hs', ?_⟩
        cases hp : r.next p.id with
        | nil => rfl
        | cons i l =>
          obtain ⟨x, _, hx⟩ := h3 i (by rw [hp]; simp)
          subst hL
          cases x with
          | nil => exact absurd (hx ⟨i, p.s - r.length p.id⟩ (by simp [gather])) (by simp)
          | cons y x => exact absurd (hx y (by simp [gather])) (by simp)
    · next hs' =>
      obtain rfl := Option.some.inj h
      have ho : OnLanelet r p := ⟨not_lt.mp hs, not_lt.mp hs'⟩
      refine ⟨fun q hq => ?_, fun _ => rfl, by simp⟩
      rw [List.mem_singleton] at hq
      subst hq
      exact ⟨.refl _, .inl ho⟩

theorem alternatives_ends {r : Road} (hr : Positive r) (p : Pose) : ∃ L, alternatives r p = some L := by
  obtain ⟨e, he, hl⟩ := hr
  have up : ∀ (n : Nat) (p : Pose), 0 ≤ p.s → p.s ≤ n * e → ∃ L, alternatives r p = some L := by
    intro n
    induction n with
    | zero =>
      intro p h0 hn
      have := hl p.id
      rw [alternatives.eq_def, if_neg (not_lt.mpr h0), if_neg (by simp at hn; linarith)]
      exact ⟨_, rfl⟩
    | succ n ih =>
      intro p h0 hn
      rw [alternatives.eq_def, if_neg (not_lt.mpr h0)]
      split
      · next hs =>
        refine collect_ends (fun i => alternatives r ⟨i, p.s - r.length p.id⟩) (gather fun i => ⟨i, p.s - r.length p.id⟩) _ (fun i _ => ?_) _
        have := hl p.id
        push_cast at hn
        exact ih _ (by simp only; linarith) (by simp only; linarith)
      · exact ⟨_, rfl⟩
  have down : ∀ (n : Nat) (p : Pose), -p.s ≤ n * e → ∃ L, alternatives r p = some L := by
    intro n
    induction n with
    | zero =>
      intro p hn
      obtain ⟨m, hm⟩ := Archimedean.arch p.s he
      rw [nsmul_eq_mul] at hm
      exact up m p (by simp at hn; linarith) hm
    | succ n ih =>
      intro p hn
      rcases le_or_gt 0 p.s with h0 | h0
      · obtain ⟨m, hm⟩ := Archimedean.arch p.s he
        rw [nsmul_eq_mul] at hm
        exact up m p h0 hm
      · rw [alternatives.eq_def, if_pos h0]
        refine collect_ends (fun i => alternatives r ⟨i, p.s + r.length i⟩) (gather fun i => ⟨i, p.s + r.length i⟩) _ (fun i _ => ?_) _
        have := hl i
        push_cast at hn
        exact ih _ (by simp only; linarith)
  obtain ⟨n, hn⟩ := Archimedean.arch (-p.s) he
  rw [nsmul_eq_mul] at hn
  exact down n p hn

end Verif.Lanelet
