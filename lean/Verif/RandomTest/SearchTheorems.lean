import Verif.RandomTest.Spec
import Mathlib.Algebra.Order.Archimedean.Basic
import Mathlib.Tactic.Linarith
import Mathlib.Tactic.Ring
import Mathlib.Data.Rat.Lemmas
/-
C165: the places near the ego.
-/
namespace Verif.RandomTest
variable {K : Type} [Field K] [LinearOrder K]

/-! ### Helpers -/

omit [Field K] [LinearOrder K] in
theorem mem_insert (p r : Part K) (l : List (Part K)) : r ∈ insert p l ↔ r = p ∨ r ∈ l := by
  induction l with
  | nil => simp [insert]
  | cons q l ih =>
    unfold insert
    split
    · simp
    · simp only [List.mem_cons, ih]
      tauto

theorem mem_found (m : Map K) (i : Item K) (found : List (Part K)) (r : Part K) :
    r ∈ (i.part m).elim found (fun p => insert p found) ↔ i.part m = some r ∨ r ∈ found := by
  cases h : i.part m with
  | none => simp
  | some p => simp [mem_insert, eq_comm]

/-- The poses an item stands for. -/
def Item.Covers (m : Map K) (i : Item K) (q : Pose K) (d : K) : Prop :=
  match i.direction with
  | .forward => Ahead m ⟨i.id, i.s⟩ q d
  | .backward => Behind m ⟨i.id, i.s⟩ q d

/-- The place of an item is within its lanelet. -/
def Item.Fits (m : Map K) (i : Item K) : Prop := 0 ≤ i.s ∧ i.s ≤ m.length i.id

variable [IsStrictOrderedRing K]

theorem part_covers (m : Map K) (i : Item K) (hf : i.Fits m) (hlo : 0 ≤ i.lo) (r : Part K)
    (hr : i.part m = some r) (q : Pose K) (hq : r.Has q) : ∃ d, i.Covers m q d ∧ i.lo ≤ d ∧ d ≤ i.hi := by
  obtain ⟨id, lo, hi, dir, s⟩ := i
  obtain ⟨j, t⟩ := q
  obtain ⟨h1, h2, h3⟩ := hq
  obtain ⟨f1, f2⟩ := hf
  cases dir with
  | forward =>
    simp only [Item.part] at hr
    split at hr
    · simp only [Option.some.injEq] at hr
      subst hr
      simp only at h1 h2 h3 f1 f2 hlo
      subst h1
      refine ⟨t - s, Ahead.here (by linarith) ?_, by simp only; linarith, ?_⟩
      · split at h3 <;> [exact h3; exact le_trans h3 (not_lt.mp (by assumption))]
      · simp only
        split at h3 <;> linarith
    · simp at hr
  | backward =>
    simp only [Item.part] at hr
    split at hr
    · simp only [Option.some.injEq] at hr
      subst hr
      simp only at h1 h2 h3 f1 f2 hlo
      subst h1
      refine ⟨s - t, Behind.here ?_ (by linarith), by simp only; linarith, ?_⟩
      · split at h2 <;> [exact h2; exact le_trans (not_lt.mp (by assumption)) h2]
      · simp only
        split at h2 <;> linarith
    · simp at hr

theorem next_covers (m : Map K) (i : Item K) (hf : i.Fits m) (c : Item K) (hc : c ∈ i.next m) (q : Pose K)
    (d : K) (hd : c.Covers m q d) (h1 : c.lo ≤ d) (h2 : d ≤ c.hi) :
    ∃ d', i.Covers m q d' ∧ i.lo ≤ d' ∧ d' ≤ i.hi := by
  obtain ⟨id, lo, hi, dir, s⟩ := i
  obtain ⟨f1, f2⟩ := hf
  cases dir with
  | forward =>
    simp only [Item.next] at hc
    split at hc
    · rename_i hgt
      obtain ⟨j, hj, rfl⟩ := List.mem_map.mp hc
      simp only at h1 h2 f1 f2 hgt
      refine ⟨m.length id - s + d, Ahead.on f2 hj hd, ?_, ?_⟩
      · have := le_trans (le_max_right 0 (lo - (m.length id - s))) h1
        simp only
        linarith
      · rw [max_eq_right (by linarith)] at h2
        simp only
        linarith
    · simp at hc
  | backward =>
    simp only [Item.next] at hc
    split at hc
    · rename_i hgt
      obtain ⟨j, hj, rfl⟩ := List.mem_map.mp hc
      simp only at h1 h2 f1 f2 hgt
      refine ⟨s + d, Behind.on f1 hj hd, ?_, ?_⟩
      · have := le_trans (le_max_right 0 (lo - s)) h1
        simp only
        linarith
      · rw [max_eq_right (by linarith)] at h2
        simp only
        linarith
    · simp at hc

omit [IsStrictOrderedRing K] in
theorem next_fits (m : Map K) (hm : ∀ i, 0 ≤ m.length i) (i c : Item K) (hc : c ∈ i.next m) :
    c.Fits m ∧ 0 ≤ c.lo := by
  obtain ⟨id, lo, hi, dir, s⟩ := i
  cases dir with
  | forward =>
    simp only [Item.next] at hc
    split at hc
    · obtain ⟨j, hj, rfl⟩ := List.mem_map.mp hc
      exact ⟨⟨le_refl _, hm j⟩, le_max_left _ _⟩
    · simp at hc
  | backward =>
    simp only [Item.next] at hc
    split at hc
    · obtain ⟨j, hj, rfl⟩ := List.mem_map.mp hc
      exact ⟨⟨hm j, le_refl _⟩, le_max_left _ _⟩
    · simp at hc

theorem search_sound (m : Map K) (hm : ∀ i, 0 ≤ m.length i) (P : Pose K → Prop) : ∀ (fuel : Nat) (queue : List (Item K)) (found parts : List (Part K)),
    (∀ i ∈ queue, i.Fits m ∧ 0 ≤ i.lo ∧ ∀ q d, i.Covers m q d → i.lo ≤ d → d ≤ i.hi → P q) →
    (∀ r ∈ found, ∀ q, r.Has q → P q) → search m fuel queue found = .ok parts → ∀ r ∈ parts, ∀ q, r.Has q → P q
  | _, [], found, parts, _, hf, h => by
    have h : found = parts := by simpa [search] using h
    exact h ▸ hf
  | 0, _ :: _, _, _, _, _, h => by simp [search] at h
  | fuel + 1, i :: queue, found, parts, hq, hf, h => by
    refine search_sound m hm P fuel _ _ parts ?_ ?_ h
    · intro c hc
      rcases List.mem_append.mp hc with hc | hc
      · exact hq c (List.mem_cons_of_mem _ hc)
      · obtain ⟨a, b, hi⟩ := hq i List.mem_cons_self
        obtain ⟨c1, c2⟩ := next_fits m hm i c hc
        refine ⟨c1, c2, fun q d hd h1 h2 => ?_⟩
        obtain ⟨d', g1, g2, g3⟩ := next_covers m i a c hc q d hd h1 h2
        exact hi q d' g1 g2 g3
    · intro r hr q hrq
      rcases (mem_found m i found r).mp hr with hr | hr
      · obtain ⟨a, b, hi⟩ := hq i List.mem_cons_self
        obtain ⟨d, g1, g2, g3⟩ := part_covers m i a b r hr q hrq
        exact hi q d g1 g2 g3
      · exact hf r hr q hrq

omit [Field K] [LinearOrder K] [IsStrictOrderedRing K] in
theorem mem_both (lo hi : K) (p : Pose K) (i : Item K) :
    i ∈ both lo hi p ↔ i = ⟨p.id, lo, hi, .forward, p.s⟩ ∨ i = ⟨p.id, lo, hi, .backward, p.s⟩ := by
  simp [both]

omit [Field K] [LinearOrder K] [IsStrictOrderedRing K] in
theorem mem_origins (m : Map K) (p o : Pose K) : o ∈ origins m p ↔ Beside m p o := by
  simp only [origins, Beside, List.mem_cons, List.mem_append, Option.mem_toList, List.mem_map, List.mem_filter,
    decide_eq_true_eq]
  constructor
  · rintro (h | h | ⟨j, ⟨h1, h2⟩, rfl⟩)
    · exact .inl h
    · exact .inr (.inl h)
    · exact .inr (.inr ⟨j, h1, rfl⟩)
  · rintro (h | h | ⟨j, h1, rfl⟩)
    · exact .inl h
    · exact .inr (.inl h)
    · by_cases hj : j = p.id
      · subst hj
        exact .inl rfl
      · exact .inr (.inr ⟨j, ⟨h1, hj⟩, rfl⟩)

omit [IsStrictOrderedRing K] in
theorem lanesWithin_ok (m : Map K) (fuel : Nat) (p : Pose K) (lo hi : K) (parts : List (Part K))
    (h : lanesWithin m fuel p lo hi = .ok parts) :
    ¬ hi < lo ∧ p.id ∈ m.ids ∧ search m fuel ((origins m p).flatMap (both lo hi)) [] = .ok parts := by
  unfold lanesWithin at h
  split at h
  · simp at h
  · split at h
    · exact ⟨by assumption, by assumption, h⟩
    · simp at h

/-! ### What is found is near -/

/-- Every pose on a part that is found is at a distance between the two that were given, on the road from
the pose or from one beside it.  Only part of the claim: lanelets besides have to be long enough, and a
road that comes back to the pose is followed (see below). -/
theorem C165_near_partial (m : Map K) (hm : ∀ i, 0 ≤ m.length i) (fuel : Nat) (p : Pose K) (lo hi : K)
    (hlo : 0 ≤ lo) (hp : Fits m p) (parts : List (Part K)) (h : lanesWithin m fuel p lo hi = .ok parts)
    (r : Part K) (hr : r ∈ parts) (q : Pose K) (hq : r.Has q) : Near m p lo hi q := by
  obtain ⟨-, -, h⟩ := lanesWithin_ok m fuel p lo hi parts h
  refine search_sound m hm (Near m p lo hi) fuel _ [] parts ?_ (by simp) h r hr q hq
  intro i hi'
  obtain ⟨o, ho, hi'⟩ := List.mem_flatMap.mp hi'
  rw [mem_origins] at ho
  rcases (mem_both lo hi o i).mp hi' with rfl | rfl
  · exact ⟨hp o ho, hlo, fun q d h1 h2 h3 => ⟨o, d, ho, .inl h1, h2, h3⟩⟩
  · exact ⟨hp o ho, hlo, fun q d h1 h2 h3 => ⟨o, d, ho, .inr h1, h2, h3⟩⟩

/-! ### What is near is found -/

/-- An item stands for a pose at a distance, so that the part of its lanelet or an item after it does. -/
def Item.Holds (m : Map K) (i : Item K) (q : Pose K) : Prop :=
  ∃ d, i.Covers m q d ∧ i.lo ≤ d ∧ d < i.hi ∧
    (d = i.lo → match i.direction with
      | .forward => i.s + i.lo < m.length i.id
      | .backward => 0 < i.s - i.lo)

theorem ahead_nonneg (m : Map K) {p q : Pose K} {d : K} (h : Ahead m p q d) : 0 ≤ d := by
  induction h with
  | here h1 _ => linarith
  | on h1 _ _ ih => linarith

theorem behind_nonneg (m : Map K) {p q : Pose K} {d : K} (h : Behind m p q d) : 0 ≤ d := by
  induction h with
  | here _ h1 => linarith
  | on h1 _ _ ih => linarith

theorem holds_step (m : Map K) (hm : ∀ i, 0 < m.length i) (i : Item K) (q : Pose K) (h : i.Holds m q) :
    (∃ r, i.part m = some r ∧ r.Has q) ∨ ∃ c ∈ i.next m, c.Holds m q := by
  obtain ⟨id, lo, hi, dir, s⟩ := i
  obtain ⟨d, hc, h1, h2, h3⟩ := h
  cases dir with
  | forward =>
    simp only [Item.Covers] at hc h1 h2 h3
    generalize hp : (⟨id, s⟩ : Pose K) = p at hc
    cases hc with
    | @here i' s' t g1 g2 =>
      obtain ⟨rfl, rfl⟩ := Pose.mk.inj hp
      left
      have hlt : s + lo < m.length id := by
        rcases eq_or_lt_of_le h1 with h | h
        · exact h3 h.symm
        · linarith
      refine ⟨_, by simp only [Item.part, hlt, if_true]; rfl, rfl, ?_, ?_⟩
      · simp only; linarith
      · simp only
        split <;> linarith
    | @on i' j s' d' _ g1 g2 g3 =>
      obtain ⟨rfl, rfl⟩ := Pose.mk.inj hp
      right
      have hd := ahead_nonneg m g3
      have hgt : s + hi > m.length id := by linarith
      refine ⟨⟨j, max 0 (lo - (m.length id - s)), max 0 (hi - (m.length id - s)), .forward, 0⟩, ?_, d', g3, ?_, ?_, ?_⟩
      · simp only [Item.next, hgt, if_true]
        exact List.mem_map.mpr ⟨j, g2, rfl⟩
      · exact max_le hd (by linarith)
      · exact lt_of_lt_of_le (by linarith) (le_max_right _ _)
      · simp only
        intro he
        rcases le_total (lo - (m.length id - s)) 0 with hle | hle
        · rw [max_eq_left hle]
          simpa using hm j
        · rw [max_eq_right hle] at he ⊢
          have := h3 (by linarith)
          rw [show lo - (m.length id - s) = 0 by linarith]
          simpa using hm j
  | backward =>
    simp only [Item.Covers] at hc h1 h2 h3
    generalize hp : (⟨id, s⟩ : Pose K) = p at hc
    cases hc with
    | @here i' s' t g1 g2 =>
      obtain ⟨rfl, rfl⟩ := Pose.mk.inj hp
      left
      have hlt : s - lo > 0 := by
        rcases eq_or_lt_of_le h1 with h | h
        · exact h3 h.symm
        · linarith
      refine ⟨_, by simp only [Item.part, hlt, if_true]; rfl, rfl, ?_, ?_⟩
      · simp only
        split <;> linarith
      · simp only; linarith
    | @on i' j s' d' _ g1 g2 g3 =>
      obtain ⟨rfl, rfl⟩ := Pose.mk.inj hp
      right
      have hd := behind_nonneg m g3
      have hgt : s - hi < 0 := by linarith
      refine ⟨⟨j, max 0 (lo - s), max 0 (hi - s), .backward, m.length j⟩, ?_, d', g3, ?_, ?_, ?_⟩
      · simp only [Item.next, hgt, if_true]
        exact List.mem_map.mpr ⟨j, g2, rfl⟩
      · exact max_le hd (by linarith)
      · exact lt_of_lt_of_le (by linarith) (le_max_right _ _)
      · simp only
        intro he
        rcases le_total (lo - s) 0 with hle | hle
        · rw [max_eq_left hle]
          simpa using hm j
        · rw [max_eq_right hle] at he ⊢
          have := h3 (by linarith)
          rw [show lo - s = 0 by linarith]
          simpa using hm j

theorem search_complete (m : Map K) (hm : ∀ i, 0 < m.length i) (q : Pose K) : ∀ (fuel : Nat) (queue : List (Item K)) (found parts : List (Part K)),
    ((∃ r ∈ found, r.Has q) ∨ ∃ i ∈ queue, i.Holds m q) → search m fuel queue found = .ok parts → ∃ r ∈ parts, r.Has q
  | _, [], found, parts, hq, h => by
    have h : found = parts := by simpa [search] using h
    rcases hq with hq | ⟨i, hi, -⟩
    · exact h ▸ hq
    · simp at hi
  | 0, _ :: _, _, _, _, h => by simp [search] at h
  | fuel + 1, i :: queue, found, parts, hq, h => by
    refine search_complete m hm q fuel _ _ parts ?_ h
    rcases hq with ⟨r, hr, hrq⟩ | ⟨c, hc, hcq⟩
    · exact .inl ⟨r, (mem_found m i found r).mpr (.inr hr), hrq⟩
    · rcases List.mem_cons.mp hc with rfl | hc
      · rcases holds_step m hm c q hcq with ⟨r, hr, hrq⟩ | ⟨c', hc', hcq'⟩
        · exact .inl ⟨r, (mem_found m c found r).mpr (.inl hr), hrq⟩
        · exact .inr ⟨c', List.mem_append_right _ hc', hcq'⟩
      · exact .inr ⟨c, List.mem_append_left _ hc, hcq⟩

/-- Every pose at a distance strictly between the two that were given, on the road from the pose or from
one beside it, is on a part that is found. -/
theorem C165_found (m : Map K) (hm : ∀ i, 0 < m.length i) (fuel : Nat) (p : Pose K) (lo hi : K)
    (parts : List (Part K)) (h : lanesWithin m fuel p lo hi = .ok parts)
    (o : Pose K) (ho : Beside m p o) (q : Pose K) (d : K) (hd : Road m o q d) (h1 : lo < d) (h2 : d < hi) :
    ∃ r ∈ parts, r.Has q := by
  obtain ⟨-, -, h⟩ := lanesWithin_ok m fuel p lo hi parts h
  refine search_complete m hm q fuel _ [] parts (.inr ?_) h
  rcases hd with hd | hd
  · exact ⟨⟨o.id, lo, hi, .forward, o.s⟩,
      List.mem_flatMap.mpr ⟨o, (mem_origins m p o).mpr ho, by simp [both]⟩, d, hd, h1.le, h2, fun h => absurd h h1.ne'⟩
  · exact ⟨⟨o.id, lo, hi, .backward, o.s⟩,
      List.mem_flatMap.mpr ⟨o, (mem_origins m p o).mpr ho, by simp [both]⟩, d, hd, h1.le, h2, fun h => absurd h h1.ne'⟩

/-! ### The search ends -/

omit [IsStrictOrderedRing K] in
theorem search_level (m : Map K) : ∀ (q r : List (Item K)) (found : List (Part K)), ∃ found', ∀ fuel,
    search m (q.length + fuel) (q ++ r) found = search m fuel (r ++ q.flatMap (Item.next m)) found'
  | [], r, found => ⟨found, fun fuel => by simp⟩
  | i :: q, r, found => by
    obtain ⟨f, hf⟩ := search_level m q (r ++ i.next m) ((i.part m).elim found (fun p => insert p found))
    refine ⟨f, fun fuel => ?_⟩
    rw [List.flatMap_cons, ← List.append_assoc, ← hf, List.length_cons,
      show q.length + 1 + fuel = (q.length + fuel) + 1 by omega, List.cons_append, search, List.append_assoc]

/-- How much is left after the lanelet of an item. -/
def Item.left (m : Map K) (i : Item K) : K :=
  match i.direction with
  | .forward => i.hi - (m.length i.id - i.s)
  | .backward => i.hi - i.s

theorem next_left (m : Map K) (ε : K) (hm : ∀ i, ε ≤ m.length i) (i c : Item K) (hc : c ∈ i.next m) :
    0 < i.left m ∧ c.left m ≤ i.left m - ε := by
  obtain ⟨id, lo, hi, dir, s⟩ := i
  cases dir with
  | forward =>
    simp only [Item.next] at hc
    split at hc
    · rename_i hgt
      obtain ⟨j, hj, rfl⟩ := List.mem_map.mp hc
      have := hm j
      simp only [Item.left]
      rw [max_eq_right (by linarith)]
      exact ⟨by linarith, by linarith⟩
    · simp at hc
  | backward =>
    simp only [Item.next] at hc
    split at hc
    · rename_i hgt
      obtain ⟨j, hj, rfl⟩ := List.mem_map.mp hc
      have := hm j
      simp only [Item.left]
      rw [max_eq_right (by linarith)]
      exact ⟨by linarith, by linarith⟩
    · simp at hc

theorem search_ends (m : Map K) (ε : K) (hm : ∀ i, ε ≤ m.length i) : ∀ (n : Nat) (q : List (Item K)) (found : List (Part K)),
    (∀ i ∈ q, i.left m ≤ n * ε) → ∃ fuel parts, search m fuel q found = .ok parts
  | 0, q, found, h => by
    obtain ⟨f, hf⟩ := search_level m q [] found
    refine ⟨q.length + 0, f, ?_⟩
    have hf := hf 0
    rw [List.append_nil] at hf
    rw [hf]
    have : q.flatMap (Item.next m) = [] := by
      rw [List.flatMap_eq_nil_iff]
      intro i hi
      cases hn : i.next m with
      | nil => rfl
      | cons c l =>
        have := (next_left m ε hm i c (by simp [hn])).1
        have := h i hi
        simp at this
        linarith
    rw [this]
    simp [search]
  | n + 1, q, found, h => by
    obtain ⟨f, hf⟩ := search_level m q [] found
    have hn : ∀ c ∈ q.flatMap (Item.next m), c.left m ≤ n * ε := by
      intro c hc
      obtain ⟨i, hi, hc⟩ := List.mem_flatMap.mp hc
      have h1 := (next_left m ε hm i c hc).2
      have h2 := h i hi
      push_cast at h2
      linarith
    obtain ⟨fuel, parts, hp⟩ := search_ends m ε hm n _ f hn
    refine ⟨q.length + fuel, parts, ?_⟩
    have := hf fuel
    rw [List.append_nil] at this
    rw [this]
    exact hp

omit [IsStrictOrderedRing K] in
theorem search_more (m : Map K) : ∀ (fuel k : Nat) (q : List (Item K)) (found parts : List (Part K)),
    search m fuel q found = .ok parts → search m (fuel + k) q found = .ok parts
  | fuel, k, [], found, parts, h => by simpa [search] using h
  | 0, _, _ :: _, _, _, h => by simp [search] at h
  | fuel + 1, k, i :: q, found, parts, h => by
    rw [show fuel + 1 + k = (fuel + k) + 1 by omega, search]
    exact search_more m fuel k _ _ _ h

/-- If no lanelet is shorter than some length, the search ends, with the same parts however long it is
allowed to take, and also if the roads run in circles. -/
theorem C165_ends [Archimedean K] (m : Map K) (ε : K) (hε : 0 < ε) (hm : ∀ i, ε ≤ m.length i) (p : Pose K)
    (hp : p.id ∈ m.ids) (lo hi : K) (h : lo ≤ hi) :
    ∃ n parts, ∀ fuel, n ≤ fuel → lanesWithin m fuel p lo hi = .ok parts := by
  have hb : ∀ l : List (Item K), ∃ n : Nat, ∀ i ∈ l, i.left m ≤ n * ε := by
    intro l
    induction l with
    | nil => exact ⟨0, by simp⟩
    | cons i l ih =>
      obtain ⟨n, hn⟩ := ih
      obtain ⟨k, hk⟩ := Archimedean.arch (i.left m) hε
      refine ⟨n + k, fun j hj => ?_⟩
      have hkn : (0 : K) ≤ k * ε := mul_nonneg (Nat.cast_nonneg k) hε.le
      have hnn : (0 : K) ≤ n * ε := mul_nonneg (Nat.cast_nonneg n) hε.le
      rw [nsmul_eq_mul] at hk
      push_cast
      rcases List.mem_cons.mp hj with rfl | hj
      · linarith
      · have := hn j hj
        linarith
  obtain ⟨n, hn⟩ := hb ((origins m p).flatMap (both lo hi))
  obtain ⟨f, parts, hf⟩ := search_ends m ε hm n _ [] hn
  refine ⟨f, parts, fun fuel hfuel => ?_⟩
  obtain ⟨k, rfl⟩ := Nat.exists_eq_add_of_le hfuel
  simp only [lanesWithin, not_lt.mpr h, if_false, hp, if_true]
  exact search_more m f k _ _ _ hf

/-! ### Concrete maps -/

/-- The whole part of a square root. -/
def root (x : ℚ) : ℚ := (Nat.sqrt x.floor.toNat : ℚ)

theorem root_root (x : ℚ) (h : 0 ≤ x) : 0 ≤ root x ∧ root x * root x ≤ x := by
  refine ⟨Nat.cast_nonneg _, ?_⟩
  have h1 : ((x.floor.toNat.sqrt * x.floor.toNat.sqrt : Nat) : ℚ) ≤ (x.floor.toNat : ℚ) := by
    exact_mod_cast Nat.sqrt_le x.floor.toNat
  have h2 : (0 : ℤ) ≤ x.floor := Rat.le_floor_iff.mpr (by simpa using h)
  have h3 : ((x.floor.toNat : ℤ) : ℚ) ≤ x := by
    rw [Int.toNat_of_nonneg h2]
    exact Rat.le_floor_iff.mp le_rfl
  unfold root
  push_cast at h1 h3
  linarith

/-- A lanelet that follows itself. -/
def ring : Map ℚ where
  ids := [1]
  length := fun _ => 50
  following := fun _ => [1]
  previous := fun _ => [1]
  besides := fun _ => []
  opposite := fun _ => none
  route := fun i j => [i, j]
  place := fun p => ⟨p.s, 0, 0⟩
  sqrt := root

/-- Two lanes; that to the left of lanelet 1 is a short one, before lanelet 3. -/
def lanes : Map ℚ where
  ids := [1, 2, 3]
  length := fun i => if i = 2 then 10 else 100
  following := fun i => if i = 2 then [3] else []
  previous := fun i => if i = 3 then [2] else []
  besides := fun i => if i = 1 then [1, 2] else []
  opposite := fun _ => none
  route := fun i j => [i, j]
  place := fun p => ⟨p.s, 0, 0⟩
  sqrt := root

example : (∀ i, 0 < ring.length i) ∧ Fits ring ⟨1, 20⟩ ∧ Road ring ⟨1, 20⟩ ⟨1, 5⟩ 35 ∧
    lanesWithin ring 10 ⟨1, 20⟩ 10 60 = .ok [⟨1, 30, 50⟩, ⟨1, 0, 10⟩, ⟨1, 0, 30⟩, ⟨1, 10, 50⟩] := by
  refine ⟨fun _ => by norm_num [ring], ?_, .inl ?_, by decide +kernel⟩
  · intro o ho
    rcases ho with rfl | h | ⟨j, h, -⟩
    · norm_num [ring]
    · simp [ring] at h
    · simp [ring] at h
  · have h : Ahead ring ⟨1, 20⟩ ⟨1, 5⟩ (ring.length 1 - 20 + (5 - 0)) :=
      Ahead.on (by norm_num [ring]) (by simp [ring]) (Ahead.here (by norm_num) (by norm_num [ring]))
    norm_num [ring] at h
    exact h

/-- A place at least ten metres away may be the place itself, after one round. -/
theorem C165_ring_violated : ∃ parts, lanesWithin ring 10 ⟨1, 20⟩ 10 100 = .ok parts ∧
    ∃ r ∈ parts, r.Has ⟨1, 20⟩ :=
  ⟨[⟨1, 30, 50⟩, ⟨1, 0, 10⟩, ⟨1, 0, 50⟩, ⟨1, 0, 50⟩, ⟨1, 0, 20⟩, ⟨1, 20, 50⟩], by decide +kernel,
    ⟨1, 0, 50⟩, by simp, rfl, by norm_num, by norm_num⟩

/-- On a lane besides, places are found that are not on it: a short lanelet is searched as if it were
as long as that of the pose. -/
theorem C165_short_violated : ∃ parts, lanesWithin lanes 10 ⟨1, 60⟩ 10 100 = .ok parts ∧
    ∃ r ∈ parts, ∃ q, r.Has q ∧ lanes.length q.id < q.s :=
  ⟨[⟨1, 70, 100⟩, ⟨1, 0, 50⟩, ⟨2, 0, 50⟩, ⟨3, 60, 100⟩], by decide +kernel,
    ⟨2, 0, 50⟩, by simp, ⟨2, 45⟩, ⟨rfl, by norm_num, by norm_num⟩, by norm_num [lanes]⟩

omit [IsStrictOrderedRing K] in
/-- A search whose distances are the wrong way round is refused. -/
theorem C165_refused (m : Map K) (fuel : Nat) (p : Pose K) (lo hi : K) (h : hi < lo) :
    lanesWithin m fuel p lo hi = .error .minMax := by simp [lanesWithin, h]

end Verif.RandomTest
