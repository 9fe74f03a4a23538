import Verif.RandomTest.ExecutorSpec
import Mathlib.Tactic.Linarith
import Mathlib.Tactic.Positivity
import Mathlib.Tactic.Ring
import Mathlib.Tactic.FieldSimp
import Mathlib.Tactic.NormNum
/-
C167: a random test ends, with the errors that occurred.  C168: collisions and standstills are reported
as they happen.
-/
namespace Verif.RandomTest
variable {K : Type} [Field K] [LinearOrder K]

/-! ### Helpers -/

/-- The contacts after those vehicles have been touched, and the ones that are new. -/
def touch (c : List (String × Option K)) (t : Option K) : List String → List (String × Option K) × List String
  | [] => (c, [])
  | n :: ns =>
    let r := contact c n t
    let q := touch r.1 t ns
    (q.1, if r.2 then n :: q.2 else q.2)

theorem collide_foldl (touching : List String) : ∀ (npcs : List String) (s : State K),
    npcs.foldl (State.collide touching) s =
      { s with
        contacts := (touch s.contacts s.time (npcs.filter (fun n => decide (n ∈ touching)))).1
        reports := s.reports ++ (touch s.contacts s.time (npcs.filter (fun n => decide (n ∈ touching)))).2.map (fun n => .collision n s.time) }
  | [], s => by simp [touch]
  | n :: ns, s => by
    rw [List.foldl_cons, collide_foldl touching ns]
    by_cases h : n ∈ touching
    · simp only [State.collide, h, if_true, decide_true, List.filter_cons_of_pos, touch]
      have ht : ∀ c r, State.time { s with contacts := c, reports := r } = s.time := fun _ _ => rfl
      simp only [ht]
      cases (contact s.contacts n s.time).2 <;> simp
    · simp only [State.collide, h, if_false, decide_false, Bool.false_eq_true, not_false_eq_true, List.filter_cons_of_neg]

/-- What the standstill metric keeps and says. -/
def still (last : Option (Option K)) (stamp st : Option K) (speed : K) : Option (Option K) × Option K × Bool :=
  match last with
  | none => (some stamp, st, false)
  | some l =>
    if above (minus stamp l) 2 then (none, st, false)
    else
      let s := if speed < 1 / 100 then plus st (minus stamp l) else some 0
      (some stamp, s, above s 10)

theorem standing_eq (s : State K) (speed : K) : s.standing speed =
    ({ s with last := (still s.last s.stamp s.still speed).1, still := (still s.last s.stamp s.still speed).2.1 },
      (still s.last s.stamp s.still speed).2.2) := by
  unfold State.standing still
  cases s.last with
  | none => rfl
  | some l => simp only []; split <;> rfl

variable [IsStrictOrderedRing K]

theorem reached_iff (g : Setting K) (hg : g.Root) (s : State K) (p : Point K) (hp : s.goal = some p) (ego : Ego K) :
    s.reached g ego = true ↔ ego.At p := by
  have h1 : 0 ≤ squared ego.place p := by unfold squared; positivity
  have h0 : distance g.sqrt ego.place p = g.sqrt (squared ego.place p) := by
    unfold distance squared
    simp only [pow_two]
  unfold State.reached Ego.At
  rw [hp]
  simp only [decide_eq_true_eq, h0]
  exact hg _ h1

omit [IsStrictOrderedRing K] in
/-- The latter part of an update that is carried out. -/
theorem rest_done (g : Setting K) (s : State K) (f : Frame K) (b : K) (ego : Ego K) (hb : s.base = some b)
    (he : f.ego = some ego) (ho : f.outcome = .done) :
    ∃ r, s.rest g f = (r, none) ∧ r.now = s.now + g.step ∧ r.base = some b ∧ r.stamp = some (s.now - b + g.step) ∧
      r.last = (still s.last s.stamp s.still ego.speed).1 ∧ r.still = (still s.last s.stamp s.still ego.speed).2.1 ∧
      r.contacts = (touch s.contacts s.time (g.npcs.filter (fun n => decide (n ∈ f.touching)))).1 ∧ r.goal = s.goal ∧
      r.completed = (s.completed || (still s.last s.stamp s.still ego.speed).2.2) ∧
      r.reports = s.reports ++ (touch s.contacts s.time (g.npcs.filter (fun n => decide (n ∈ f.touching)))).2.map (fun n => .collision n s.time) ++
        (if (still s.last s.stamp s.still ego.speed).2.2 = true ∧ s.reached g ego = false then [.standStill] else []) := by
  unfold State.rest
  rw [collide_foldl, he]
  simp only [standing_eq, State.frame, ho]
  cases h : (still s.last s.stamp s.still ego.speed).2.2 with
  | false =>
    simp only [Bool.false_eq_true, if_false, State.time, minus, hb, Option.map_some, Option.bind_some]
    refine ⟨_, rfl, rfl, rfl, rfl, rfl, rfl, rfl, rfl, by simp, by simp⟩
  | true =>
    simp only [if_true, State.time, minus, hb, Option.map_some, Option.bind_some]
    refine ⟨_, rfl, rfl, rfl, rfl, rfl, rfl, rfl, rfl, by simp, ?_⟩
    have hr : ∀ s' : State K, s'.goal = s.goal → s'.reached g ego = s.reached g ego := by
      intro s' h'
      simp only [State.reached, h']
    simp only [hr, true_and]
    cases s.reached g ego <;> simp

omit [IsStrictOrderedRing K] in
/-- An update of a test that runs. -/
theorem update_done (g : Setting K) (s : State K) (f : Frame K) (b : K) (ego : Ego K) (hb : s.base = some b)
    (he : f.ego = some ego) (ho : f.outcome = .done) (ht : s.now - b < g.timeout) :
    (s.update g f).now = s.now + g.step ∧ (s.update g f).base = some b ∧ (s.update g f).stamp = some (s.now - b + g.step) ∧
      (s.update g f).last = (still s.last s.stamp s.still ego.speed).1 ∧
      (s.update g f).still = (still s.last s.stamp s.still ego.speed).2.1 ∧
      (s.update g f).contacts = (touch s.contacts s.time (g.npcs.filter (fun n => decide (n ∈ f.touching)))).1 ∧
      (s.update g f).goal = s.goal ∧
      (s.update g f).completed = (s.completed || s.reached g ego || (still s.last s.stamp s.still ego.speed).2.2) ∧
      (s.update g f).reports = s.reports ++ (touch s.contacts s.time (g.npcs.filter (fun n => decide (n ∈ f.touching)))).2.map (fun n => .collision n s.time) ++
        (if (still s.last s.stamp s.still ego.speed).2.2 = true ∧ s.reached g ego = false then [.standStill] else []) := by
  have h1 : s.tryStart f = (s, none) := by simp [State.tryStart, hb]
  have h2 : s.time = some (s.now - b) := by simp [State.time, minus, hb]
  unfold State.update State.body
  rw [h1]
  simp only [h2, he, not_le.mpr ht, if_false]
  cases hr : s.reached g ego with
  | false =>
    simp only [Bool.false_eq_true, if_false]
    obtain ⟨r, h, rest⟩ := rest_done g s f b ego hb he ho
    rw [h]
    simp only [handle]
    simpa [h2, hr] using rest
  | true =>
    simp only [if_true]
    obtain ⟨r, h, rest⟩ := rest_done g { s with completed := true } f b ego hb he ho
    rw [h]
    simp only [handle]
    have h3 : State.time { s with completed := true } = some (s.now - b) := h2
    have h4 : State.reached g { s with completed := true } ego = true := hr
    simpa [h3, h4] using rest

omit [IsStrictOrderedRing K] in
theorem update_start (g : Setting K) (s : State K) (f : Frame K) (hb : s.base = none) (hs : f.Smooth) :
    s.update g f = s.start.update g f := by
  obtain ⟨h1, h2, -⟩ := hs
  obtain ⟨ego, he⟩ := Option.isSome_iff_exists.mp h1
  have a : s.tryStart f = (s.start, none) := by simp [State.tryStart, hb, he, h2]
  have b : s.start.tryStart f = (s.start, none) := rfl
  unfold State.update State.body
  rw [a, b]

omit [IsStrictOrderedRing K] in
theorem contact_new (c : List (String × Option K)) (x : String) (t : Option K) :
    (contact c x t).2 = true ↔ ∀ u, (x, u) ∈ c → above (minus t u) (1 / 2) = true := by
  unfold contact
  simp only []
  split
  · rename_i h
    simp only [Bool.false_eq_true, false_iff]
    obtain ⟨⟨n, u⟩, h1, h2⟩ := List.any_eq_true.mp h
    rw [List.mem_filter] at h1
    simp only [beq_iff_eq] at h2
    subst h2
    intro hc
    have := hc u h1.1
    rw [this] at h1
    exact absurd h1.2 (by decide)
  · rename_i h
    simp only [true_iff]
    intro u hu
    by_contra hc
    refine h (List.any_eq_true.mpr ⟨(x, u), List.mem_filter.mpr ⟨hu, ?_⟩, by simp⟩)
    simpa using hc

omit [IsStrictOrderedRing K] in
theorem contact_mem (c : List (String × Option K)) (x n : String) (t u : Option K) :
    (n, u) ∈ (contact c x t).1 ↔ (n = x ∧ u = t) ∨ (n ≠ x ∧ (n, u) ∈ c ∧ above (minus t u) (1 / 2) = false) := by
  unfold contact
  simp only []
  split
  · rename_i h
    obtain ⟨⟨m, w⟩, h1, h2⟩ := List.any_eq_true.mp h
    simp only [beq_iff_eq] at h2
    subst h2
    simp only [List.mem_map]
    constructor
    · rintro ⟨⟨a, v⟩, ha, hav⟩
      simp only at hav
      split at hav
      · simp only [Prod.mk.injEq] at hav
        exact .inl ⟨hav.1.symm, hav.2.symm⟩
      · rename_i hne
        simp only [Prod.mk.injEq] at hav
        obtain ⟨rfl, rfl⟩ := hav
        rw [List.mem_filter] at ha
        exact .inr ⟨hne, ha.1, by simpa using ha.2⟩
    · rintro (⟨rfl, rfl⟩ | ⟨h3, h4, h5⟩)
      · exact ⟨_, h1, by simp⟩
      · exact ⟨(n, u), List.mem_filter.mpr ⟨h4, by rw [h5]; rfl⟩, by simp [h3]⟩
  · rename_i h
    rw [List.mem_append, List.mem_filter, List.mem_singleton, Prod.mk.injEq]
    constructor
    · rintro (⟨h1, h2⟩ | h1)
      · refine .inr ⟨?_, h1, by simpa using h2⟩
        rintro rfl
        exact h (List.any_eq_true.mpr ⟨(n, u), List.mem_filter.mpr ⟨h1, h2⟩, by simp⟩)
      · exact .inl h1
    · rintro (h1 | ⟨-, h2, h3⟩)
      · exact .inr h1
      · exact .inl ⟨h2, by rw [h3]; rfl⟩

theorem same_time (t : Option K) : above (minus t t) (1 / 2 : K) = false := by
  cases t with
  | none => rfl
  | some t =>
    simp only [minus, Option.map_some, Option.bind_some, sub_self, above, Option.any_some, decide_eq_false_iff_not, not_lt]
    positivity

theorem touch_mem (n : String) (t u : Option K) : ∀ (ns : List String) (c : List (String × Option K)),
    (n, u) ∈ (touch c t ns).1 ↔ (n ∈ ns ∧ u = t) ∨ (n ∉ ns ∧ (n, u) ∈ c ∧ (ns = [] ∨ above (minus t u) (1 / 2) = false))
  | [], c => by simp [touch]
  | x :: ns, c => by
    simp only [touch]
    rw [touch_mem n t u ns, contact_mem]
    have hs := same_time (K := K) t
    by_cases h1 : n = x <;> by_cases h2 : n ∈ ns <;> by_cases h3 : u = t <;> simp_all

theorem touch_new (n : String) (t : Option K) : ∀ (ns : List String) (c : List (String × Option K)),
    n ∈ (touch c t ns).2 ↔ n ∈ ns ∧ ∀ u, (n, u) ∈ c → above (minus t u) (1 / 2) = true
  | [], c => by simp [touch]
  | x :: ns, c => by
    simp only [touch]
    have ih := touch_new n t ns (contact c x t).1
    have hn := contact_new c x t
    have hm := fun u => contact_mem c x n t u
    have hs := same_time (K := K) t
    by_cases h1 : n = x
    · subst h1
      have h2 : n ∉ (touch (contact c n t).1 t ns).2 := by
        rw [ih]
        rintro ⟨-, hc⟩
        have := hc t ((hm t).mpr (.inl ⟨rfl, rfl⟩))
        rw [hs] at this
        exact absurd this (by decide)
      cases h : (contact c n t).2 with
      | false =>
        simp only [Bool.false_eq_true, if_false, h2, List.mem_cons, true_or, true_and, false_iff]
        rw [← hn, h]
        simp
      | true =>
        simp only [if_true, List.mem_cons, true_or, true_and, true_iff]
        exact hn.mp h
    · have h3 : n ∈ (if (contact c x t).2 = true then x :: (touch (contact c x t).1 t ns).2 else (touch (contact c x t).1 t ns).2) ↔
          n ∈ (touch (contact c x t).1 t ns).2 := by
        split <;> simp [h1]
      rw [h3, ih]
      simp only [List.mem_cons, h1, false_or]
      refine and_congr_right fun _ => forall_congr' fun u => ?_
      rw [hm]
      simp only [h1, false_and, ne_eq, not_false_eq_true, true_and, false_or]
      constructor
      · intro h hu
        by_contra hc
        exact hc (h ⟨hu, by simpa using hc⟩)
      · exact fun h hu => h hu.1

/-- The last number below `k` for which something holds. -/
theorem last_below (P : Nat → Prop) : ∀ (k j : Nat), j < k → P j → ∃ i, j ≤ i ∧ i < k ∧ P i ∧ ∀ l, i < l → l < k → ¬ P l
  | 0, j, h, _ => absurd h (by omega)
  | k + 1, j, h, hj => by
    by_cases hk : P k
    · exact ⟨k, by omega, by omega, hk, fun l h1 h2 => absurd h1 (by omega)⟩
    · have hjk : j < k := by
        rcases Nat.lt_or_ge j k with h' | h'
        · exact h'
        · exact absurd (by rwa [show k = j by omega]) hk
      obtain ⟨i, h1, h2, h3, h4⟩ := last_below P k j hjk hj
      refine ⟨i, h1, by omega, h3, fun l h5 h6 => ?_⟩
      rcases Nat.lt_or_ge l k with h' | h'
      · exact h4 l h5 h'
      · rwa [show l = k by omega]

/-- What holds of an executor after so many smooth frames, counted from `n`. -/
structure After (g : Setting K) (p : Point K) (n : K) (fs : List (Frame K)) (s : State K) : Prop where
  now : s.now = n + (fs.length : K) * g.step
  base : s.base = some n
  stamp : s.stamp = some ((fs.length : K) * g.step)
  goal : s.goal = some p
  first : fs = [] → s.last = none ∧ s.still = some 0
  last : ∀ k, fs.length = k + 1 → s.last = some (some ((k : K) * g.step)) ∧ ∃ m : Nat, m ≤ k ∧ s.still = some ((m : K) * g.step) ∧
    (∀ j, k < m + j → j ≤ k → Slow fs j) ∧ (m < k → ¬ Slow fs (k - m))
  known : ∀ x u, (x, u) ∈ s.contacts → ∃ i, i < fs.length ∧ u = some ((i : K) * g.step) ∧ Touch g fs x i
  kept : ∀ x i, i < fs.length → Touch g fs x i → (∀ j, i < j → j < fs.length → ¬ Touch g fs x j) →
    (x, some ((i : K) * g.step)) ∈ s.contacts ∨ 1 / 2 < ((fs.length : K) - i) * g.step
  completed : s.completed = true ↔ (∃ i, AtGoal fs p i) ∨ ∃ i m : Nat, i < fs.length ∧ m ≤ i ∧ 10 < (m : K) * g.step ∧
    ∀ j, i < m + j → j ≤ i → Slow fs j
  collisions : ∀ x t, .collision x t ∈ s.reports ↔ ∃ i, i < fs.length ∧ t = some ((i : K) * g.step) ∧ Touch g fs x i ∧
    ∀ j, j < i → Touch g fs x j → 1 / 2 < ((i : K) - j) * g.step
  standstills : .standStill ∈ s.reports ↔ ∃ i m : Nat, i < fs.length ∧ m ≤ i ∧ 10 < (m : K) * g.step ∧
    (∀ j, i < m + j → j ≤ i → Slow fs j) ∧ ¬ AtGoal fs p i
  others : .timeout ∉ s.reports ∧ ∀ e, .exception e ∉ s.reports

omit [Field K] [LinearOrder K] [IsStrictOrderedRing K] in
theorem touch_append (g : Setting K) (fs : List (Frame K)) (f : Frame K) (x : String) (i : Nat) :
    Touch g (fs ++ [f]) x i ↔ Touch g fs x i ∨ (i = fs.length ∧ x ∈ g.npcs ∧ x ∈ f.touching) := by
  unfold Touch
  rcases lt_trichotomy i fs.length with h | h | h
  · rw [List.getElem?_append_left h]
    simp [h.ne]
  · subst h
    simp
  · rw [List.getElem?_eq_none (by simp; omega), List.getElem?_eq_none (by omega)]
    simp [h.ne']

omit [IsStrictOrderedRing K] in
theorem slow_append (fs : List (Frame K)) (f : Frame K) (ego : Ego K) (he : f.ego = some ego) (i : Nat) :
    Slow (fs ++ [f]) i ↔ Slow fs i ∨ (i = fs.length ∧ ego.speed < 1 / 100) := by
  unfold Slow
  rcases lt_trichotomy i fs.length with h | h | h
  · rw [List.getElem?_append_left h]
    simp [h.ne]
  · subst h
    simp [he]
  · rw [List.getElem?_eq_none (by simp; omega), List.getElem?_eq_none (by omega)]
    simp [h.ne']

omit [IsStrictOrderedRing K] in
theorem goal_append (fs : List (Frame K)) (f : Frame K) (ego : Ego K) (he : f.ego = some ego) (p : Point K) (i : Nat) :
    AtGoal (fs ++ [f]) p i ↔ AtGoal fs p i ∨ (i = fs.length ∧ ego.At p) := by
  unfold AtGoal
  rcases lt_trichotomy i fs.length with h | h | h
  · rw [List.getElem?_append_left h]
    simp [h.ne]
  · subst h
    simp [he]
  · rw [List.getElem?_eq_none (by simp; omega), List.getElem?_eq_none (by omega)]
    simp [h.ne']

omit [Field K] [LinearOrder K] [IsStrictOrderedRing K] in
theorem lt_of_get (fs : List (Frame K)) (i : Nat) (f : Frame K) (h : fs[i]? = some f) : i < fs.length :=
  (List.getElem?_eq_some_iff.mp h).1

/-- The standstill metric after one more smooth frame. -/
theorem still_after (g : Setting K) (h2 : g.step ≤ 2) (p : Point K) (n : K) (fs : List (Frame K)) (s : State K)
    (h : After g p n fs s) (f : Frame K) (ego : Ego K) (he : f.ego = some ego) :
    ∃ m : Nat, m ≤ fs.length ∧ (still s.last s.stamp s.still ego.speed).1 = some (some ((fs.length : K) * g.step)) ∧
      (still s.last s.stamp s.still ego.speed).2.1 = some ((m : K) * g.step) ∧
      ((still s.last s.stamp s.still ego.speed).2.2 = true ↔ 10 < (m : K) * g.step) ∧
      (∀ j, fs.length < m + j → j ≤ fs.length → Slow (fs ++ [f]) j) ∧ (m < fs.length → ¬ Slow (fs ++ [f]) (fs.length - m)) := by
  cases hk : fs.length with
  | zero =>
    have hnil := List.length_eq_zero_iff.mp hk
    obtain ⟨a, b⟩ := h.first hnil
    refine ⟨0, le_rfl, ?_, ?_, ?_, fun j h1 h2 => absurd h1 (by omega), fun h1 => absurd h1 (by omega)⟩
    · simp [still, a, h.stamp, hk]
    · simp [still, a, b]
    · simp [still, a]
  | succ k =>
    obtain ⟨a, m, hm, b, c, d⟩ := h.last k hk
    have hd : minus s.stamp (some ((k : K) * g.step)) = some g.step := by
      rw [h.stamp, hk]
      simp only [minus, Option.map_some, Option.bind_some, Nat.cast_add, Nat.cast_one, Option.some.injEq]
      ring
    have hab : above (some g.step) (2 : K) = false := by simp [above, h2]
    simp only [still, a, hd, hab, Bool.false_eq_true, if_false]
    have hslow := fun i => slow_append fs f ego he i
    by_cases hv : ego.speed < 1 / 100
    · refine ⟨m + 1, by omega, by rw [h.stamp, hk], ?_, ?_, fun j h1 h2 => ?_, fun h1 => ?_⟩
      · simp only [hv, if_true, b, plus, Option.map_some, Option.bind_some, Option.some.injEq]
        push_cast
        ring
      · simp only [hv, if_true, b, plus, Option.map_some, Option.bind_some, above, Option.any_some, decide_eq_true_eq]
        push_cast
        rw [add_mul, one_mul]
      · rw [hslow]
        rcases Nat.lt_or_ge k j with h3 | h3
        · exact .inr ⟨by omega, hv⟩
        · exact .inl (c j (by omega) h3)
      · rw [hslow, show k + 1 - (m + 1) = k - m by omega]
        rintro (h3 | ⟨h3, -⟩)
        · exact d (by omega) h3
        · omega
    · refine ⟨0, by omega, by rw [h.stamp, hk], ?_, ?_, fun j h1 h2 => absurd h1 (by omega), fun h1 => ?_⟩
      · simp only [hv, if_false]
        simp
      · simp only [hv, if_false, above]
        simp
      · rw [hslow]
        rintro (⟨f', ego', h3, -⟩ | ⟨-, h3⟩)
        · have := lt_of_get _ _ _ h3
          omega
        · exact hv h3

theorem after_update (g : Setting K) (hg : g.Root) (h0 : 0 < g.step) (h2 : g.step ≤ 2) (p : Point K) (n : K) (fs : List (Frame K))
    (s : State K) (h : After g p n fs s) (f : Frame K) (hf : f.Smooth) (ht : (fs.length : K) * g.step < g.timeout) :
    After g p n (fs ++ [f]) (s.update g f) := by
  obtain ⟨h3, -, ho⟩ := hf
  obtain ⟨ego, he⟩ := Option.isSome_iff_exists.mp h3
  have htime : s.now - n = (fs.length : K) * g.step := by rw [h.now]; ring
  have hst : s.time = some ((fs.length : K) * g.step) := by simp [State.time, minus, h.base, htime]
  obtain ⟨a1, a2, a3, a4, a5, a6, a7, a8, a9⟩ := update_done g s f n ego h.base he ho (by rw [htime]; exact ht)
  obtain ⟨m, b1, b2, b3, b4, b5, b6⟩ := still_after g h2 p n fs s h f ego he
  have hlen : (fs ++ [f]).length = fs.length + 1 := by simp
  have hreach := reached_iff g hg s p h.goal ego
  have htouch := fun x i => touch_append g fs f x i
  have hslow := fun i => slow_append fs f ego he i
  have hgoal := fun i => goal_append fs f ego he p i
  have hlt : ∀ x i, Touch g fs x i → i < fs.length := by
    rintro x i ⟨f', h', -⟩
    exact lt_of_get _ _ _ h'
  have hltg : ∀ i, AtGoal fs p i → i < fs.length := by
    rintro i ⟨f', _, h', -⟩
    exact lt_of_get _ _ _ h'
  have hnames : ∀ x, x ∈ g.npcs.filter (fun n => decide (n ∈ f.touching)) ↔ x ∈ g.npcs ∧ x ∈ f.touching := by
    intro x
    simp [List.mem_filter]
  -- a standstill now
  have hnow : (still s.last s.stamp s.still ego.speed).2.2 = true ↔
      ∃ m' : Nat, m' ≤ fs.length ∧ 10 < (m' : K) * g.step ∧ ∀ j, fs.length < m' + j → j ≤ fs.length → Slow (fs ++ [f]) j := by
    rw [b4]
    constructor
    · exact fun h => ⟨m, b1, h, b5⟩
    · rintro ⟨m', c1, c2, c3⟩
      have : m' ≤ m := by
        by_contra hc
        exact b6 (by omega) (c3 (fs.length - m) (by omega) (by omega))
      have hcast : (m' : K) ≤ m := by exact_mod_cast this
      have := mul_le_mul_of_nonneg_right hcast h0.le
      linarith
  have hold : ∀ i m' : Nat, i < fs.length → ((∀ j, i < m' + j → j ≤ i → Slow (fs ++ [f]) j) ↔ ∀ j, i < m' + j → j ≤ i → Slow fs j) := by
    intro i m' hi
    refine forall_congr' fun j => imp_congr_right fun _ => imp_congr_right fun hj => ?_
    rw [hslow]
    exact ⟨fun h => h.resolve_right fun h => by omega, .inl⟩
  have hgold : ∀ i, i < fs.length → (AtGoal (fs ++ [f]) p i ↔ AtGoal fs p i) := by
    intro i hi
    rw [hgoal]
    exact ⟨fun h => h.resolve_right fun h => by omega, .inl⟩
  have hgnow : AtGoal (fs ++ [f]) p fs.length ↔ s.reached g ego = true := by
    rw [hgoal, hreach]
    exact ⟨fun h => h.elim (fun h => absurd (hltg _ h) (by omega)) (·.2), fun h => .inr ⟨rfl, h⟩⟩
  -- a collision now
  have hnew : ∀ x, x ∈ (touch s.contacts s.time (g.npcs.filter (fun n => decide (n ∈ f.touching)))).2 ↔
      (x ∈ g.npcs ∧ x ∈ f.touching) ∧ ∀ j, j < fs.length → Touch g fs x j → 1 / 2 < ((fs.length : K) - j) * g.step := by
    intro x
    rw [touch_new, hnames]
    refine and_congr_right fun _ => ⟨fun hc j hj htj => ?_, fun hc u hu => ?_⟩
    · obtain ⟨i, c1, c2, c3, c4⟩ := last_below (Touch g fs x) fs.length j hj htj
      have hcast : (j : K) ≤ i := by exact_mod_cast c1
      have hmono : ((fs.length : K) - i) * g.step ≤ ((fs.length : K) - j) * g.step :=
        mul_le_mul_of_nonneg_right (by linarith) h0.le
      refine lt_of_lt_of_le ?_ hmono
      rcases h.kept x i c2 c3 c4 with c5 | c5
      · have := hc _ c5
        simp only [hst, minus, Option.map_some, Option.bind_some, above, Option.any_some, decide_eq_true_eq] at this
        rw [sub_mul]
        exact this
      · exact c5
    · obtain ⟨i, c1, rfl, c2⟩ := h.known x u hu
      simp only [hst, minus, Option.map_some, Option.bind_some, above, Option.any_some, decide_eq_true_eq]
      rw [← sub_mul]
      exact hc i c1 c2
  refine ⟨?_, a2, ?_, by rw [a7, h.goal], fun hc => by simp at hc, ?_, ?_, ?_, ?_, ?_, ?_, ?_⟩
  · rw [a1, h.now, hlen]; push_cast; ring
  · rw [a3, htime, hlen]; push_cast; rw [add_mul, one_mul]
  · intro k hk
    obtain rfl : k = fs.length := by rw [hlen] at hk; omega
    exact ⟨by rw [a4, b2], m, b1, by rw [a5, b3], b5, b6⟩
  · intro x u hu
    rw [a6, touch_mem, hnames] at hu
    rcases hu with ⟨c1, c2⟩ | ⟨c1, c2, c3⟩
    · exact ⟨fs.length, by omega, by rw [c2, hst], (htouch x _).mpr (.inr ⟨rfl, c1⟩)⟩
    · obtain ⟨i, d1, d2, d3⟩ := h.known x u c2
      exact ⟨i, by omega, d2, (htouch x i).mpr (.inl d3)⟩
  · intro x i hi hti hlast
    rw [a6, touch_mem, hnames]
    rw [hlen] at hi hlast
    by_cases hx : x ∈ g.npcs ∧ x ∈ f.touching
    · have : i = fs.length := by
        by_contra hne
        exact hlast fs.length (by omega) (by omega) ((htouch x _).mpr (.inr ⟨rfl, hx⟩))
      subst this
      exact .inl (.inl ⟨hx, hst.symm⟩)
    · have hti' : Touch g fs x i := ((htouch x i).mp hti).resolve_right fun hc => hx hc.2
      have hi' := hlt x i hti'
      rcases h.kept x i hi' hti' (fun j h1 h2 h3 => hlast j h1 (by omega) ((htouch x j).mpr (.inl h3))) with hc | hc
      · by_cases hexp : 1 / 2 < ((fs.length : K) - i) * g.step
        · right
          rw [hlen]
          push_cast
          have : ((fs.length : K) - i) * g.step ≤ ((fs.length : K) + 1 - i) * g.step := mul_le_mul_of_nonneg_right (by linarith) h0.le
          linarith
        · left
          refine .inr ⟨hx, hc, .inr ?_⟩
          simp only [hst, minus, Option.map_some, Option.bind_some, above, Option.any_some, decide_eq_false_iff_not]
          rw [← sub_mul]
          exact hexp
      · right
        rw [hlen]
        push_cast
        have : ((fs.length : K) - i) * g.step ≤ ((fs.length : K) + 1 - i) * g.step := mul_le_mul_of_nonneg_right (by linarith) h0.le
        linarith
  · rw [a8, Bool.or_eq_true, Bool.or_eq_true, h.completed, hnow, hlen]
    constructor
    · rintro (((⟨i, hi⟩ | ⟨i, m', c1, c2, c3, c4⟩) | hr) | ⟨m', c1, c2, c3⟩)
      · exact .inl ⟨i, (hgold i (hltg i hi)).mpr hi⟩
      · exact .inr ⟨i, m', by omega, c2, c3, (hold i m' c1).mpr c4⟩
      · exact .inl ⟨_, hgnow.mpr hr⟩
      · exact .inr ⟨fs.length, m', by omega, c1, c2, c3⟩
    · rintro (⟨i, hi⟩ | ⟨i, m', c1, c2, c3, c4⟩)
      · rcases (hgoal i).mp hi with hi' | ⟨-, hi'⟩
        · exact .inl (.inl (.inl ⟨i, hi'⟩))
        · exact .inl (.inr (hreach.mpr hi'))
      · rcases Nat.lt_or_ge i fs.length with hi | hi
        · exact .inl (.inl (.inr ⟨i, m', hi, c2, c3, (hold i m' hi).mp c4⟩))
        · obtain rfl : i = fs.length := by omega
          exact .inr ⟨m', c2, c3, c4⟩
  · intro x t
    rw [a9, List.mem_append, List.mem_append, h.collisions, List.mem_map, hlen]
    have hno : ¬ (Report.collision x t ∈ (if (still s.last s.stamp s.still ego.speed).2.2 = true ∧ s.reached g ego = false then [Report.standStill] else [])) := by
      split <;> simp
    simp only [hno, or_false]
    constructor
    · rintro (⟨i, c1, c2, c3, c4⟩ | ⟨y, c1, c2⟩)
      · exact ⟨i, by omega, c2, (htouch x i).mpr (.inl c3), fun j hj hc =>
          c4 j hj (((htouch x j).mp hc).resolve_right fun hc => by omega)⟩
      · simp only [Report.collision.injEq] at c2
        obtain ⟨rfl, rfl⟩ := c2
        obtain ⟨d1, d2⟩ := (hnew y).mp c1
        exact ⟨fs.length, by omega, hst, (htouch y _).mpr (.inr ⟨rfl, d1⟩), fun j hj hc =>
          d2 j hj (((htouch y j).mp hc).resolve_right fun hc => by omega)⟩
    · rintro ⟨i, c1, c2, c3, c4⟩
      rcases (htouch x i).mp c3 with c5 | ⟨rfl, c5⟩
      · exact .inl ⟨i, hlt x i c5, c2, c5, fun j hj hc => c4 j hj ((htouch x j).mpr (.inl hc))⟩
      · exact .inr ⟨x, (hnew x).mpr ⟨c5, fun j hj hc => c4 j hj ((htouch x j).mpr (.inl hc))⟩, by rw [c2, hst]⟩
  · rw [a9, List.mem_append, List.mem_append, h.standstills, hlen]
    have hno : Report.standStill ∉ (touch s.contacts s.time (g.npcs.filter (fun n => decide (n ∈ f.touching)))).2.map (fun n => Report.collision n s.time) := by
      simp
    have hyes : Report.standStill ∈ (if (still s.last s.stamp s.still ego.speed).2.2 = true ∧ s.reached g ego = false then [(Report.standStill : Report K)] else []) ↔
        (still s.last s.stamp s.still ego.speed).2.2 = true ∧ ¬ AtGoal (fs ++ [f]) p fs.length := by
      rw [hgnow]
      split <;> rename_i hc <;> simp_all
    rw [hyes, hnow]
    simp only [hno, or_false]
    constructor
    · rintro (⟨i, m', c1, c2, c3, c4, c5⟩ | ⟨⟨m', c1, c2, c3⟩, c4⟩)
      · exact ⟨i, m', by omega, c2, c3, (hold i m' c1).mpr c4, fun hc => c5 ((hgold i c1).mp hc)⟩
      · exact ⟨fs.length, m', by omega, c1, c2, c3, c4⟩
    · rintro ⟨i, m', c1, c2, c3, c4, c5⟩
      rcases Nat.lt_or_ge i fs.length with hi | hi
      · exact .inl ⟨i, m', hi, c2, c3, (hold i m' hi).mp c4, fun hc => c5 ((hgold i hi).mpr hc)⟩
      · obtain rfl : i = fs.length := by omega
        exact .inr ⟨⟨m', c2, c3, c4⟩, c5⟩
  · rw [a9]
    obtain ⟨o1, o2⟩ := h.others
    refine ⟨?_, fun e => ?_⟩
    · rw [List.mem_append, List.mem_append]
      rintro ((hc | hc) | hc)
      · exact o1 hc
      · simp at hc
      · split at hc <;> simp at hc
    · rw [List.mem_append, List.mem_append]
      rintro ((hc | hc) | hc)
      · exact o2 e hc
      · simp at hc
      · split at hc <;> simp at hc

omit [LinearOrder K] [IsStrictOrderedRing K] in
theorem run_append [LinearOrder K] (g : Setting K) (s : State K) (fs fs' : List (Frame K)) : s.run g (fs ++ fs') = (s.run g fs).run g fs' := by
  simp [State.run]

theorem after_run (g : Setting K) (hg : g.Root) (h0 : 0 < g.step) (h2 : g.step ≤ 2) (p : Point K) (s : State K) (hs : s.Ready p)
    (fs : List (Frame K)) : (∀ f ∈ fs, f.Smooth) → (∀ i : Nat, i < fs.length → (i : K) * g.step < g.timeout) →
    After g p s.now fs (s.start.run g fs) := by
  induction fs using List.reverseRecOn with
  | nil =>
    intro _ _
    refine ⟨by simp [State.run, State.start], rfl, by simp [State.run, State.start], hs.goal, fun _ => ⟨hs.last, hs.still⟩, by simp, ?_, by simp, ?_, ?_, ?_, ?_⟩
    · simp [State.run, State.start, hs.contacts]
    · simp [State.run, State.start, hs.completed, AtGoal]
    · simp [State.run, State.start, hs.reports]
    · simp [State.run, State.start, hs.reports]
    · simp [State.run, State.start, hs.reports]
  | append_singleton fs f ih =>
    intro h1 h3
    rw [run_append]
    exact after_update g hg h0 h2 p s.now fs _ (ih (fun f hf => h1 f (by simp [hf])) (fun i hi => h3 i (by simp; omega))) f
      (h1 f (by simp)) (h3 fs.length (by simp))

omit [IsStrictOrderedRing K] in
theorem run_start (g : Setting K) (p : Point K) (s : State K) (hs : s.Ready p) (f : Frame K) (hf : f.Smooth) (fs : List (Frame K)) :
    s.run g (f :: fs) = s.start.run g (f :: fs) := by
  simp only [State.run, List.foldl_cons]
  rw [update_start g s f hs.base hf]

theorem after_ready (g : Setting K) (hg : g.Root) (h0 : 0 < g.step) (h2 : g.step ≤ 2) (p : Point K) (s : State K) (hs : s.Ready p)
    (fs : List (Frame K)) (hne : fs ≠ []) (hf : ∀ f ∈ fs, f.Smooth) (ht : ∀ i : Nat, i < fs.length → (i : K) * g.step < g.timeout) :
    After g p s.now fs (s.run g fs) := by
  cases fs with
  | nil => exact absurd rfl hne
  | cons f fs =>
    rw [run_start g p s hs f (hf f (by simp)) fs]
    exact after_run g hg h0 h2 p s hs (f :: fs) hf ht

/-- What an update does to the results, whatever happens in it. -/
structure Grows (g : Setting K) (f : Frame K) (s : State K) (r : State K × Option Exc) : Prop where
  goal : r.1.goal = s.goal
  completed : s.completed = true → r.1.completed = true
  reports : ∃ new, r.1.reports = s.reports ++ new ∧
    (r.1.completed = true → s.completed = true ∨ (∃ ego, f.ego = some ego ∧ s.reached g ego = true) ∨ new ≠ [])
  silent : ∀ e, r.2 = some e → f.Loud → ¬ e.Silent

omit [IsStrictOrderedRing K] in
theorem frame_grows (g : Setting K) (f : Frame K) (s : State K) : Grows g f s (s.frame g f) := by
  unfold State.frame
  cases h : s.time <;> cases ho : f.outcome <;> simp only [] <;>
    exact ⟨rfl, id, ⟨[], by simp, fun h => .inl h⟩, by
      intro e he hl
      first
        | (simp only [Option.some.injEq] at he; subst he; exact hl.2 _ ho)
        | simp at he⟩

omit [IsStrictOrderedRing K] in
theorem rest_grows (g : Setting K) (f : Frame K) (s : State K) : Grows g f s (s.rest g f) := by
  unfold State.rest
  rw [collide_foldl]
  simp only []
  cases he : f.ego with
  | none =>
    refine ⟨rfl, id, ⟨_, rfl, fun h => .inl h⟩, ?_⟩
    rintro e he' - hs
    simp only [Option.some.injEq] at he'
    subst he'
    rcases hs with h | h <;> simp at h
  | some ego =>
    simp only [standing_eq]
    cases h : (still s.last s.stamp s.still ego.speed).2.2 with
    | false =>
      simp only [Bool.false_eq_true, if_false]
      obtain ⟨a, b, ⟨new, c, d⟩, e⟩ := frame_grows g f { s with
        contacts := (touch s.contacts s.time (g.npcs.filter (fun n => decide (n ∈ f.touching)))).1
        reports := s.reports ++ (touch s.contacts s.time (g.npcs.filter (fun n => decide (n ∈ f.touching)))).2.map (fun n => .collision n s.time)
        last := (still s.last s.stamp s.still ego.speed).1
        still := (still s.last s.stamp s.still ego.speed).2.1 }
      refine ⟨a, b, ⟨_, c.trans (List.append_assoc _ _ _), fun h => ?_⟩, e⟩
      rcases d h with d | d | d
      · exact .inl d
      · exact .inr (.inl d)
      · exact .inr (.inr (by simp [d]))
    | true =>
      simp only [if_true]
      have hr : ∀ s' : State K, s'.goal = s.goal → s'.reached g ego = s.reached g ego := by
        intro s' h'
        simp only [State.reached, h']
      simp only [hr]
      obtain ⟨a, b, ⟨new, c, d⟩, e⟩ := frame_grows g f { s with
        contacts := (touch s.contacts s.time (g.npcs.filter (fun n => decide (n ∈ f.touching)))).1
        reports := (if s.reached g ego = true then s.reports ++ (touch s.contacts s.time (g.npcs.filter (fun n => decide (n ∈ f.touching)))).2.map (fun n => .collision n s.time)
          else s.reports ++ (touch s.contacts s.time (g.npcs.filter (fun n => decide (n ∈ f.touching)))).2.map (fun n => .collision n s.time) ++ [.standStill])
        last := (still s.last s.stamp s.still ego.speed).1
        still := (still s.last s.stamp s.still ego.speed).2.1
        completed := true }
      cases hre : s.reached g ego with
      | true =>
        simp only [hre, if_true] at a b c d e ⊢
        exact ⟨a, fun _ => b trivial, ⟨_, c.trans (List.append_assoc _ _ _), fun _ => .inr (.inl ⟨ego, he, hre⟩)⟩, e⟩
      | false =>
        simp only [hre, Bool.false_eq_true, if_false] at a b c d e ⊢
        exact ⟨a, fun _ => b trivial, ⟨_, c.trans ((congrArg (· ++ new) (List.append_assoc _ _ _)).trans (List.append_assoc _ _ _)), fun _ => .inr (.inr (by simp))⟩, e⟩

omit [IsStrictOrderedRing K] in
theorem body_grows (g : Setting K) (f : Frame K) (s : State K) : Grows g f s (s.body g f) := by
  have hstart : ∀ s' : State K, s'.goal = s.goal → s'.completed = s.completed → s'.reports = s.reports →
      ∀ r, Grows g f s' r → Grows g f s r := by
    intro s' h1 h2 h3 r h
    have hr : ∀ ego, s'.reached g ego = s.reached g ego := by
      intro ego
      simp only [State.reached, h1]
    obtain ⟨a, b, ⟨new, c, d⟩, e⟩ := h
    refine ⟨a.trans h1, h2 ▸ b, ⟨new, h3 ▸ c, ?_⟩, e⟩
    rw [← h2]
    simpa only [hr] using d
  have htry : ∃ s' e, s.tryStart f = (s', e) ∧ s'.goal = s.goal ∧ s'.completed = s.completed ∧ s'.reports = s.reports ∧
      ∀ x, e = some x → f.engaged = .error x := by
    unfold State.tryStart
    cases s.base with
    | some b => exact ⟨_, _, rfl, rfl, rfl, rfl, by simp⟩
    | none =>
      cases f.ego with
      | none => exact ⟨_, _, rfl, rfl, rfl, rfl, by simp⟩
      | some ego =>
        cases f.engaged with
        | error e => exact ⟨_, _, rfl, rfl, rfl, rfl, by simp⟩
        | ok b => cases b <;> exact ⟨_, _, rfl, rfl, rfl, rfl, by simp⟩
  obtain ⟨s', e, h0, h1, h2, h3, h4⟩ := htry
  refine hstart s' h1 h2 h3 _ ?_
  unfold State.body
  rw [h0]
  cases e with
  | some e =>
    refine ⟨rfl, id, ⟨[], by simp, fun h => .inl h⟩, fun x hx hl => ?_⟩
    simp only [Option.some.injEq] at hx
    subst hx
    exact hl.1 _ (h4 _ rfl)
  | none =>
    simp only []
    cases ht : s'.time with
    | none => exact rest_grows g f s'
    | some t =>
      simp only []
      cases he : f.ego with
      | none =>
        refine ⟨rfl, id, ⟨[], by simp, fun h => .inl h⟩, ?_⟩
        rintro x hx - hs
        simp only [Option.some.injEq] at hx
        subst hx
        rcases hs with h | h <;> simp at h
      | some ego =>
        simp only []
        cases hr : s'.reached g ego with
        | true =>
          have hr' : State.reached g { s' with completed := true } ego = true := hr
          simp only [if_true, hr']
          split
          · exact ⟨rfl, fun _ => rfl, ⟨[], by simp, fun _ => .inr (.inl ⟨ego, he, hr⟩)⟩, by simp⟩
          · obtain ⟨a, b, ⟨new, c, d⟩, e⟩ := rest_grows g f { s' with completed := true }
            exact ⟨a, fun _ => b rfl, ⟨new, c, fun _ => .inr (.inl ⟨ego, he, hr⟩)⟩, e⟩
        | false =>
          simp only [Bool.false_eq_true, if_false, hr]
          split
          · exact ⟨rfl, fun _ => rfl, ⟨[.timeout], rfl, fun _ => .inr (.inr (by simp))⟩, by simp⟩
          · exact rest_grows g f s'

omit [IsStrictOrderedRing K] in
theorem update_grows (g : Setting K) (f : Frame K) (s : State K) : (s.update g f).goal = s.goal ∧
    (s.completed = true → (s.update g f).completed = true) ∧ ∃ new, (s.update g f).reports = s.reports ++ new ∧
    (f.Loud → (s.update g f).completed = true → s.completed = true ∨ (∃ ego, f.ego = some ego ∧ s.reached g ego = true) ∨ new ≠ []) := by
  obtain ⟨a, b, ⟨new, c, d⟩, e⟩ := body_grows g f s
  unfold State.update handle
  generalize s.body g f = r at *
  rcases r with ⟨s', x⟩
  cases x with
  | none => exact ⟨a, b, new, c, fun _ => d⟩
  | some x =>
    cases x with
    | autoware => exact ⟨a, fun _ => rfl, new ++ [.exception .autoware], by simp [show s'.reports = s.reports ++ new from c], fun _ _ => .inr (.inr (by simp))⟩
    | simulator => exact ⟨a, fun _ => rfl, new ++ [.exception .simulator], by simp [show s'.reports = s.reports ++ new from c], fun _ _ => .inr (.inr (by simp))⟩
    | runtime => exact ⟨a, fun _ => rfl, new, c, fun hl => absurd (.inl rfl) (e .runtime rfl hl)⟩
    | unknown => exact ⟨a, fun _ => rfl, new, c, fun hl => absurd (.inr rfl) (e .unknown rfl hl)⟩

omit [IsStrictOrderedRing K] in
theorem run_grows (g : Setting K) (s : State K) : ∀ fs : List (Frame K), (s.run g fs).goal = s.goal ∧
    (s.completed = true → (s.run g fs).completed = true) ∧ s.reports <+: (s.run g fs).reports := by
  intro fs
  induction fs using List.reverseRecOn with
  | nil => exact ⟨rfl, id, List.prefix_rfl⟩
  | append_singleton fs f ih =>
    rw [run_append]
    obtain ⟨a, b, c⟩ := ih
    obtain ⟨d, e, new, h, -⟩ := update_grows g f (s.run g fs)
    exact ⟨d.trans a, fun h => e (b h), c.trans ⟨new, h.symm⟩⟩

/-! ### The end of a test -/

/-- A test without errors that is over has reached its goal, unless there was an exception of a kind that
is not in the results. -/
theorem C167_pass_partial (g : Setting K) (hg : g.Root) (p : Point K) (s : State K) (hs : s.Ready p) (fs : List (Frame K)) :
    (∀ f ∈ fs, f.Loud) → (s.run g fs).completed = true → (s.run g fs).reports = [] → ∃ i, AtGoal fs p i := by
  induction fs using List.reverseRecOn with
  | nil =>
    intro _ h
    simp [State.run, hs.completed] at h
  | append_singleton fs f ih =>
    intro hl hc hr
    rw [run_append] at hc hr
    obtain ⟨a, b, new, c, d⟩ := update_grows g f (s.run g fs)
    have hr' : (s.run g fs).reports ++ new = [] := c ▸ hr
    rw [List.append_eq_nil_iff] at hr'
    rcases d (hl f (by simp)) hc with d | ⟨ego, d1, d2⟩ | d
    · obtain ⟨i, hi⟩ := ih (fun f hf => hl f (by simp [hf])) d hr'.1
      obtain ⟨f', ego, h1, h2⟩ := hi
      exact ⟨i, f', ego, by rw [List.getElem?_append_left (lt_of_get _ _ _ h1)]; exact h1, h2⟩
    · exact ⟨fs.length, f, ego, by simp, d1, (reached_iff g hg _ p ((run_grows g s fs).1.trans hs.goal) ego).mp d2⟩
    · exact absurd hr'.2 d

omit [IsStrictOrderedRing K] in
/-- Errors stay in the results, and a test that is over stays over. -/
theorem C167_kept (g : Setting K) (s : State K) (fs fs' : List (Frame K)) :
    (s.run g fs).reports <+: (s.run g (fs ++ fs')).reports ∧
      ((s.run g fs).completed = true → (s.run g (fs ++ fs')).completed = true) := by
  rw [run_append]
  obtain ⟨-, b, c⟩ := run_grows g (s.run g fs) fs'
  exact ⟨c, b⟩

/-- Until its timeout, a test with an ego that is engaged and a simulator that goes on is over when the
ego has been at its goal, or has been slow for more than ten seconds. -/
theorem C167_over (g : Setting K) (hg : g.Root) (h0 : 0 < g.step) (h2 : g.step ≤ 2) (p : Point K) (s : State K) (hs : s.Ready p)
    (fs : List (Frame K)) (hf : ∀ f ∈ fs, f.Smooth) (ht : ∀ i : Nat, i < fs.length → (i : K) * g.step < g.timeout) :
    (s.run g fs).completed = true ↔ (∃ i, AtGoal fs p i) ∨ ∃ i m : Nat, i < fs.length ∧ m ≤ i ∧ 10 < (m : K) * g.step ∧
      ∀ j, i < m + j → j ≤ i → Slow fs j := by
  by_cases hne : fs = []
  · subst hne
    simp [State.run, hs.completed, AtGoal]
  · exact (after_ready g hg h0 h2 p s hs fs hne hf ht).completed

/-- With the frame at its timeout it is over, and there is an error if and only if the ego is not at its
goal. -/
theorem C167_timeout (g : Setting K) (hg : g.Root) (h0 : 0 < g.step) (h2 : g.step ≤ 2) (hp : 0 < g.timeout) (p : Point K) (s : State K) (hs : s.Ready p)
    (fs : List (Frame K)) (f : Frame K) (hf : ∀ f' ∈ fs ++ [f], f'.Smooth) (ht : ∀ i : Nat, i < fs.length → (i : K) * g.step < g.timeout)
    (hl : g.timeout ≤ (fs.length : K) * g.step) :
    (s.run g (fs ++ [f])).completed = true ∧
      ((s.run g (fs ++ [f])).reports = (s.run g fs).reports ∧ AtGoal (fs ++ [f]) p fs.length ∨
        (s.run g (fs ++ [f])).reports = (s.run g fs).reports ++ [.timeout] ∧ ¬ AtGoal (fs ++ [f]) p fs.length) := by
  have hne : fs ≠ [] := by
    rintro rfl
    simp at hl
    linarith
  have h := after_ready g hg h0 h2 p s hs fs hne (fun f hf' => hf f (by simp [hf'])) ht
  obtain ⟨h3, -, ho⟩ := hf f (by simp)
  obtain ⟨ego, he⟩ := Option.isSome_iff_exists.mp h3
  rw [run_append]
  generalize s.run g fs = s' at *
  have hst : s'.time = some ((fs.length : K) * g.step) := by
    simp only [State.time, minus, h.base, Option.map_some, Option.bind_some, h.now, Option.some.injEq]
    ring
  have htry : s'.tryStart f = (s', none) := by simp [State.tryStart, h.base]
  have hgn : AtGoal (fs ++ [f]) p fs.length ↔ s'.reached g ego = true := by
    rw [reached_iff g hg s' p h.goal, goal_append fs f ego he]
    exact ⟨fun h' => h'.elim (fun ⟨f', _, h1, _⟩ => absurd (lt_of_get _ _ _ h1) (by omega)) (·.2), fun h => .inr ⟨rfl, h⟩⟩
  have hup : s'.run g [f] = s'.update g f := rfl
  rw [hup, hgn]
  unfold State.update State.body
  rw [htry]
  simp only [hst, he, hl, if_true, handle]
  cases hr : s'.reached g ego with
  | true =>
    have hr' : State.reached g { s' with completed := true } ego = true := hr
    simp [hr']
  | false =>
    simp [hr]

/-- So every such test ends: no later than its timeout. -/
theorem C167_ends_partial (g : Setting K) (hg : g.Root) (h0 : 0 < g.step) (h2 : g.step ≤ 2) (hp : 0 < g.timeout) (p : Point K) (s : State K)
    (hs : s.Ready p) (fs : List (Frame K)) (hf : ∀ f ∈ fs, f.Smooth) (i : Nat) (hi : i < fs.length) (hl : g.timeout ≤ (i : K) * g.step) :
    (s.run g fs).completed = true := by
  induction i using Nat.strongRecOn with
  | ind i ih =>
    by_cases hfirst : ∃ j, j < i ∧ g.timeout ≤ (j : K) * g.step
    · obtain ⟨j, h1, h2⟩ := hfirst
      exact ih j h1 (by omega) h2
    · have hlen : (fs.take i).length = i := by simp; omega
      obtain ⟨f, hfi⟩ : ∃ f, fs[i]? = some f := ⟨fs[i], by simp [hi]⟩
      have hsplit : fs = (fs.take i ++ [f]) ++ fs.drop (i + 1) := by
        rw [List.append_assoc, List.singleton_append]
        conv_lhs => rw [← List.take_append_drop i fs]
        congr 1
        rw [List.drop_eq_getElem_cons hi]
        congr 1
        simpa [hi] using hfi
      have := (C167_timeout g hg h0 h2 hp p s hs (fs.take i) f (fun f' hf' => ?_) (fun j hj => ?_) (by rw [hlen]; exact hl)).1
      · rw [hsplit]
        exact (C167_kept g s _ _).2 this
      · rcases List.mem_append.mp hf' with h | h
        · exact hf f' (List.mem_of_mem_take h)
        · rw [List.mem_singleton] at h
          subst h
          exact hf f' (List.mem_of_getElem? hfi)
      · rw [hlen] at hj
        by_contra hc
        exact hfirst ⟨j, hj, not_lt.mp hc⟩

omit [IsStrictOrderedRing K] in
theorem rest_thrown (g : Setting K) (f : Frame K) (s : State K) {e : Exc} (h : f.outcome = .thrown e) :
    (s.rest g f).2 = some e ∨ (s.rest g f).2 = some .simulator := by
  unfold State.rest
  cases f.ego with
  | none => exact .inr rfl
  | some ego => left; simp only [State.frame, h]

omit [Field K] [LinearOrder K] [IsStrictOrderedRing K] in
theorem handle_loud (r : State K × Option Exc) {e : Exc} (h : r.2 = some e) (hl : ¬ e.Silent) :
    (handle r).completed = true ∧ (handle r).reports = r.1.reports ++ [.exception e] := by
  unfold handle
  cases e with
  | autoware => rw [h]; exact ⟨rfl, rfl⟩
  | simulator => rw [h]; exact ⟨rfl, rfl⟩
  | runtime => exact absurd (.inl rfl) hl
  | unknown => exact absurd (.inr rfl) hl

/-- If an error of Autoware or of the simulator ends a frame, the test is over, and there is an error in its
results, unless the ego is at its goal and the time is up. This holds in every state, also if the test
could not be set up. -/
theorem C167_thrown (g : Setting K) (hg : g.Root) (s : State K) (f : Frame K) (e : Exc) (hl : f.Loud) (h : f.outcome = .thrown e) :
    (s.update g f).completed = true ∧ (s.reports.length < (s.update g f).reports.length ∨
      ∃ p ego, s.goal = some p ∧ f.ego = some ego ∧ ego.At p) := by
  obtain ⟨-, -, ⟨new, c, -⟩, -⟩ := body_grows g f s
  have raised : ∀ x, (s.body g f).2 = some x → ¬ x.Silent →
      (s.update g f).completed = true ∧ s.reports.length < (s.update g f).reports.length := by
    intro x hx hs
    obtain ⟨h1, h2⟩ := handle_loud (s.body g f) hx hs
    refine ⟨h1, ?_⟩
    unfold State.update
    rw [h2, c]
    simp only [List.length_append, List.length_singleton]; omega
  have rested : ∀ q : State K, s.body g f = q.rest g f →
      (s.update g f).completed = true ∧ s.reports.length < (s.update g f).reports.length := by
    intro q hq
    rcases rest_thrown g f q h with h' | h'
    · exact raised e (by rw [hq, h']) (hl.2 e h)
    · exact raised .simulator (by rw [hq, h']) (by rintro (h | h) <;> cases h)
  have hgoal : (s.tryStart f).1.goal = s.goal ∧ (s.tryStart f).1.reports = s.reports := by
    unfold State.tryStart
    repeat' split
    all_goals exact ⟨rfl, rfl⟩
  rcases ht : s.tryStart f with ⟨s', x⟩
  rw [ht] at hgoal
  cases x with
  | some x =>
    have hx : f.engaged = .error x := by
      unfold State.tryStart at ht
      repeat' split at ht
      all_goals simp_all
    exact (raised x (by unfold State.body; rw [ht]) (hl.1 x hx)).imp id .inl
  | none =>
    cases htime : s'.time with
    | none => exact (rested s' (by unfold State.body; rw [ht]; simp only [htime])).imp id .inl
    | some t =>
      cases he : f.ego with
      | none => exact (raised .simulator (by unfold State.body; rw [ht]; simp only [htime, he]) (by rintro (h | h) <;> cases h)).imp id .inl
      | some ego =>
        by_cases hto : g.timeout ≤ t
        · have hb : s.update g f = { s' with reports := if s'.reached g ego then s'.reports else s'.reports ++ [.timeout], completed := true } := by
            unfold State.update State.body
            rw [ht]
            simp only [htime, he, if_pos hto]
            cases hr : s'.reached g ego with
            | true => simp [handle, State.reached] at hr ⊢; simp [hr]
            | false => simp [handle, hr]
          rw [hb]
          refine ⟨rfl, ?_⟩
          cases hr : s'.reached g ego with
          | true =>
            right
            cases hgo : s'.goal with
            | none => simp [State.reached, hgo] at hr
            | some p =>
              exact ⟨p, ego, by rw [← hgoal.1]; exact hgo, rfl, (reached_iff g hg s' p hgo ego).mp hr⟩
          | false => left; rw [← hgoal.2]; simp
        · exact (rested (if s'.reached g ego then { s' with completed := true } else s') (by
            unfold State.body; rw [ht]; simp only [htime, he, if_neg hto])).imp id .inl

omit [LinearOrder K] [IsStrictOrderedRing K] in
/-- If an error of Autoware or of the simulator ends the setup of a test, the test is over with that error. -/
theorem C167_setup (g : Setting K) (p : Point K) (carried : Bool) (e : Exc) (he : ¬ e.Silent) (u : Setup) (hu : u = .before e ∨ u = .after e) :
    (State.fresh.initialize g p carried u).completed = true ∧ (State.fresh.initialize g p carried u).reports = [.exception e] := by
  rcases hu with rfl | rfl <;> cases carried <;> cases e <;>
    first | exact ⟨rfl, rfl⟩ | exact absurd (.inl rfl) he | exact absurd (.inr rfl) he

/-! ### What is reported -/

/-- A collision is reported, with its time, when a vehicle touches the ego that has not touched it within
the last half second; and no other one is. -/
theorem C168_collision (g : Setting K) (hg : g.Root) (h0 : 0 < g.step) (h2 : g.step ≤ 2) (p : Point K) (s : State K) (hs : s.Ready p)
    (fs : List (Frame K)) (hf : ∀ f ∈ fs, f.Smooth) (ht : ∀ i : Nat, i < fs.length → (i : K) * g.step < g.timeout) (x : String) (t : Option K) :
    .collision x t ∈ (s.run g fs).reports ↔ ∃ i, i < fs.length ∧ t = some ((i : K) * g.step) ∧ Touch g fs x i ∧
      ∀ j, j < i → Touch g fs x j → 1 / 2 < ((i : K) - j) * g.step := by
  by_cases hne : fs = []
  · subst hne
    simp [State.run, hs.reports]
  · exact (after_ready g hg h0 h2 p s hs fs hne hf ht).collisions x t

/-- A standstill is reported when the ego has been slow for more than ten seconds in a row, and is not at
its goal; and only then. -/
theorem C168_standstill_partial (g : Setting K) (hg : g.Root) (h0 : 0 < g.step) (h2 : g.step ≤ 2) (p : Point K) (s : State K) (hs : s.Ready p)
    (fs : List (Frame K)) (hf : ∀ f ∈ fs, f.Smooth) (ht : ∀ i : Nat, i < fs.length → (i : K) * g.step < g.timeout) :
    .standStill ∈ (s.run g fs).reports ↔ ∃ i m : Nat, i < fs.length ∧ m ≤ i ∧ 10 < (m : K) * g.step ∧
      (∀ j, i < m + j → j ≤ i → Slow fs j) ∧ ¬ AtGoal fs p i := by
  by_cases hne : fs = []
  · subst hne
    simp [State.run, hs.reports]
  · exact (after_ready g hg h0 h2 p s hs fs hne hf ht).standstills

/-- Nothing else is reported before the timeout of such a test. -/
theorem C168_others (g : Setting K) (hg : g.Root) (h0 : 0 < g.step) (h2 : g.step ≤ 2) (p : Point K) (s : State K) (hs : s.Ready p)
    (fs : List (Frame K)) (hf : ∀ f ∈ fs, f.Smooth) (ht : ∀ i : Nat, i < fs.length → (i : K) * g.step < g.timeout) :
    .timeout ∉ (s.run g fs).reports ∧ ∀ e, .exception e ∉ (s.run g fs).reports := by
  by_cases hne : fs = []
  · subst hne
    simp [State.run, hs.reports]
  · exact (after_ready g hg h0 h2 p s hs fs hne hf ht).others

/-! ### What goes wrong -/

omit [LinearOrder K] [IsStrictOrderedRing K] in
theorem ready_initialize (g : Setting K) (p : Point K) (b : Bool) :
    (State.fresh.initialize g p b .ready).Ready p := by
  cases b <;> exact ⟨rfl, rfl, rfl, rfl, rfl, rfl, rfl, rfl⟩

omit [IsStrictOrderedRing K] in
/-- If the ego of the first test cannot be put on the map, the test is over without an error. -/
theorem C167_silent_violated (c : Case K) (carried : Bool) (t : Tick K) (h : t.ending = none) :
    ((Runner.start c [] carried .noEgo).update t).written = some [[]] := by
  simp [Runner.start, Runner.update, State.initialize, handle, h, State.fresh]

omit [IsStrictOrderedRing K] in
/-- In a later test there is an error about the ego that is missing. -/
theorem C167_missing (g : Setting K) (p : Point K) (carried : Bool) (f : Frame K) (h : f.ego = none) :
    ((State.fresh.initialize g p carried .noEgo).update g f).reports = [.exception .simulator] := by
  simp [State.update, State.body, State.initialize, handle, h, State.fresh, State.tryStart, State.start, State.time, minus]

/-- A test whose ego is never engaged does not end, whatever its timeout is. -/
theorem C167_waits_violated (g : Setting K) (p : Point K) (s : State K) (hs : s.Ready p) (fs : List (Frame K)) :
    (∀ f ∈ fs, f.ego.isSome = true ∧ f.engaged = .ok false ∧ f.outcome = .done) → (s.run g fs).completed = false := by
  have key : ∀ fs : List (Frame K), (∀ f ∈ fs, f.ego.isSome = true ∧ f.engaged = .ok false ∧ f.outcome = .done) →
      (s.run g fs).completed = false ∧ (s.run g fs).base = none ∧ (s.run g fs).stamp = none ∧
        ((s.run g fs).last = none ∨ (s.run g fs).last = some none) ∧ ((s.run g fs).still = some 0 ∨ (s.run g fs).still = none) := by
    intro fs
    induction fs using List.reverseRecOn with
    | nil => exact fun _ => ⟨hs.completed, hs.base, hs.stamp, .inl hs.last, .inl hs.still⟩
    | append_singleton fs f ih =>
      intro h
      obtain ⟨a, b, c, d, e⟩ := ih (fun f hf => h f (by simp [hf]))
      obtain ⟨h1, h2, h3⟩ := h f (by simp)
      obtain ⟨ego, he⟩ := Option.isSome_iff_exists.mp h1
      rw [run_append]
      generalize s.run g fs = s' at *
      have htry : s'.tryStart f = (s', none) := by simp [State.tryStart, b, he, h2]
      have htime : s'.time = none := by simp [State.time, minus, b]
      have hstill : (still s'.last s'.stamp s'.still ego.speed).2.2 = false ∧
          ((still s'.last s'.stamp s'.still ego.speed).1 = none ∨ (still s'.last s'.stamp s'.still ego.speed).1 = some none) ∧
          ((still s'.last s'.stamp s'.still ego.speed).2.1 = some 0 ∨ (still s'.last s'.stamp s'.still ego.speed).2.1 = none) := by
        rw [c]
        rcases d with d | d <;> rcases e with e | e <;> rw [d, e] <;> by_cases hv : ego.speed < 1 / 100 <;>
          simp only [still, minus, plus, above, hv, if_true, if_false, Option.bind_none, Option.bind_some, Option.map_none, Option.any_none,
            Option.any_some, Bool.false_eq_true, or_true, and_true, and_self, reduceCtorEq, or_false]
        all_goals simp
      have hup : s'.run g [f] = s'.update g f := rfl
      rw [hup]
      unfold State.update State.body
      rw [htry]
      simp only [htime]
      unfold State.rest
      rw [collide_foldl, he]
      have hframe : ∀ q : State K, q.base = none → q.frame g f = ({ q with now := q.now + g.step }, none) := by
        intro q hq
        simp [State.frame, State.time, minus, hq, h3]
      simp only [standing_eq, hstill.1, Bool.false_eq_true, if_false]
      rw [hframe]
      · exact ⟨a, b, c, hstill.2.1, hstill.2.2⟩
      · exact b
  exact fun h => (key fs h).1

/-- A test whose simulator refuses to go on does not end either: the executor does not look at that. -/
theorem C167_refused_violated (g : Setting K) (hg : g.Root) (hp : 0 < g.timeout) (p : Point K) (s : State K) (hs : s.Ready p) (fs : List (Frame K)) :
    (∀ f ∈ fs, ∃ ego, f.ego = some ego ∧ ¬ ego.At p ∧ f.engaged = .ok true ∧ f.outcome = .early) → (s.run g fs).completed = false := by
  have key : ∀ fs : List (Frame K), (∀ f ∈ fs, ∃ ego, f.ego = some ego ∧ ¬ ego.At p ∧ f.engaged = .ok true ∧ f.outcome = .early) →
      (s.start.run g fs).completed = false ∧ (s.start.run g fs).base = some s.now ∧ (s.start.run g fs).now = s.now ∧
        (s.start.run g fs).stamp = some 0 ∧ (s.start.run g fs).goal = some p ∧
        ((s.start.run g fs).last = none ∨ (s.start.run g fs).last = some (some 0)) ∧ (s.start.run g fs).still = some 0 := by
    intro fs
    induction fs using List.reverseRecOn with
    | nil => exact fun _ => ⟨hs.completed, rfl, rfl, rfl, hs.goal, .inl hs.last, hs.still⟩
    | append_singleton fs f ih =>
      intro h
      obtain ⟨a, b, n, c, go, d, e⟩ := ih (fun f hf => h f (by simp [hf]))
      obtain ⟨ego, he, h1, h2, h3⟩ := h f (by simp)
      rw [run_append]
      generalize s.start.run g fs = s' at *
      have htry : s'.tryStart f = (s', none) := by simp [State.tryStart, b]
      have htime : s'.time = some 0 := by simp [State.time, minus, b, n]
      have hreach : s'.reached g ego = false := by
        rw [Bool.eq_false_iff]
        exact fun hc => h1 ((reached_iff g hg s' p go ego).mp hc)
      have hstill : (still s'.last s'.stamp s'.still ego.speed).2.2 = false ∧
          ((still s'.last s'.stamp s'.still ego.speed).1 = none ∨ (still s'.last s'.stamp s'.still ego.speed).1 = some (some 0)) ∧
          (still s'.last s'.stamp s'.still ego.speed).2.1 = some 0 := by
        rw [c, e]
        rcases d with d | d <;> rw [d] <;> simp [still, minus, plus, above, not_lt.mpr (show (0 : K) ≤ 2 by norm_num)]
      have hup : s'.run g [f] = s'.update g f := rfl
      rw [hup]
      unfold State.update State.body
      rw [htry]
      simp only [htime, he, not_le.mpr hp, if_false, hreach, Bool.false_eq_true]
      unfold State.rest
      rw [collide_foldl, he]
      have hframe : ∀ q : State K, q.frame g f = (q, none) := by
        intro q
        simp [State.frame, h3]
      simp only [standing_eq, hstill.1, Bool.false_eq_true, if_false, hframe]
      exact ⟨a, b, n, c, go, hstill.2.1, hstill.2.2⟩
  intro h
  cases fs with
  | nil => exact hs.completed
  | cons f fs =>
    obtain ⟨ego, he, h1, h2, h3⟩ := h f (by simp)
    have : s.update g f = s.start.update g f := by
      have a : s.tryStart f = (s.start, none) := by simp [State.tryStart, hs.base, he, h2]
      have b : s.start.tryStart f = (s.start, none) := rfl
      unfold State.update State.body
      rw [a, b]
    have hrun : s.run g (f :: fs) = s.start.run g (f :: fs) := by
      simp only [State.run, List.foldl_cons, this]
    rw [hrun]
    exact (key (f :: fs) h).1

omit [IsStrictOrderedRing K] in
theorem update_still (g : Setting K) (s : State K) (f : Frame K) (b : K) (ego : Ego K) (hb : s.base = some b)
    (he : f.ego = some ego) (ho : f.outcome = .done) (hv : ego.speed < 1 / 100)
    (hbad : s.still = none ∨ s.last = some none) (hn : .standStill ∉ s.reports) :
    .standStill ∉ (s.update g f).reports ∧ (s.update g f).base = some b ∧
      ((s.update g f).still = none ∨ (s.update g f).last = some none) := by
  by_cases ht : s.now - b < g.timeout
  · obtain ⟨a1, a2, a3, a4, a5, a6, a7, a8, a9⟩ := update_done g s f b ego hb he ho ht
    have hst : (still s.last s.stamp s.still ego.speed).2.2 = false ∧ (still s.last s.stamp s.still ego.speed).2.1 = none := by
      rcases hbad with hbad | hbad
      · rw [hbad]
        unfold still
        cases s.last with
        | none => exact ⟨rfl, rfl⟩
        | some l =>
          simp only [hv, if_true]
          split
          · exact ⟨rfl, rfl⟩
          · exact ⟨rfl, rfl⟩
      · rw [hbad]
        have h1 : minus s.stamp none = none := by cases s.stamp <;> rfl
        have h2 : plus s.still none = none := by cases s.still <;> rfl
        unfold still
        simp only [hv, if_true, h1, h2]
        exact ⟨rfl, rfl⟩
    refine ⟨?_, a2, .inl (by rw [a5, hst.2])⟩
    rw [a9, hst.1]
    simp [hn]
  · have h1 : s.tryStart f = (s, none) := by simp [State.tryStart, hb]
    have h2 : s.time = some (s.now - b) := by simp [State.time, minus, hb]
    have hle := not_lt.mp ht
    refine ⟨?_, ?_, ?_⟩ <;> unfold State.update State.body <;> rw [h1] <;> simp only [h2, he, hle, if_true, handle]
    · split <;> (try split) <;> simp [hn]
    · split <;> exact hb
    · split <;> exact hbad

omit [IsStrictOrderedRing K] in
/-- If the ego is not engaged yet in the first frame, and never moves, then its standstill is not reported,
however long the test takes. -/
theorem C168_never_violated (g : Setting K) (p : Point K) (s : State K) (hs : s.Ready p) (f : Frame K) (fs : List (Frame K))
    (hf : f.ego.isSome = true ∧ f.engaged = .ok false ∧ f.outcome = .done) :
    (∀ f' ∈ fs, f'.Smooth ∧ ∃ ego, f'.ego = some ego ∧ ego.speed < 1 / 100) → .standStill ∉ (s.run g (f :: fs)).reports := by
  -- the first frame
  have h1 : (s.update g f).base = none ∧ (s.update g f).last = some none ∧ (s.update g f).stamp = none ∧
      .standStill ∉ (s.update g f).reports := by
    obtain ⟨a, b, c⟩ := hf
    obtain ⟨ego, he⟩ := Option.isSome_iff_exists.mp a
    have htry : s.tryStart f = (s, none) := by simp [State.tryStart, hs.base, he, b]
    have htime : s.time = none := by simp [State.time, minus, hs.base]
    have hstill : still s.last s.stamp s.still ego.speed = (some none, some 0, false) := by
      simp [still, hs.last, hs.stamp, hs.still]
    have hframe : ∀ q : State K, q.base = none → q.frame g f = ({ q with now := q.now + g.step }, none) := by
      intro q hq
      simp [State.frame, State.time, minus, hq, c]
    unfold State.update State.body
    rw [htry]
    simp only [htime]
    unfold State.rest
    rw [collide_foldl, he]
    simp only [standing_eq, hstill, Bool.false_eq_true, if_false]
    rw [hframe]
    · refine ⟨hs.base, rfl, hs.stamp, ?_⟩
      simp [handle, hs.reports]
    · exact hs.base
  obtain ⟨b1, b2, b3, b4⟩ := h1
  have hrun : s.run g (f :: fs) = (s.update g f).run g fs := rfl
  rw [hrun]
  generalize s.update g f = s1 at *
  intro h
  cases fs with
  | nil => exact b4
  | cons f1 fs =>
    have hstart : s1.run g (f1 :: fs) = s1.start.run g (f1 :: fs) := by
      simp only [State.run, List.foldl_cons]
      rw [update_start g s1 f1 b1 (h f1 (by simp)).1]
    rw [hstart]
    have key : ∀ fs : List (Frame K), (∀ f' ∈ fs, f'.Smooth ∧ ∃ ego, f'.ego = some ego ∧ ego.speed < 1 / 100) →
        .standStill ∉ (s1.start.run g fs).reports ∧ (s1.start.run g fs).base = some s1.now ∧
          ((s1.start.run g fs).still = none ∨ (s1.start.run g fs).last = some none) := by
      intro fs
      induction fs using List.reverseRecOn with
      | nil => exact fun _ => ⟨b4, rfl, .inr b2⟩
      | append_singleton fs f ih =>
        intro h
        obtain ⟨c1, c2, c3⟩ := ih (fun f hf => h f (by simp [hf]))
        obtain ⟨d1, ego, d2, d3⟩ := h f (by simp)
        rw [run_append]
        exact update_still g _ f s1.now ego c2 d2 d1.2.2 d3 c3 c1
    exact (key _ h).1

/-! ### The runner -/

omit [Field K] [LinearOrder K] [IsStrictOrderedRing K] in
theorem handle_completed (s : State K) (e : Option Exc) (h : s.completed = true) : (handle (s, e)).completed = true := by
  cases e with
  | none => exact h
  | some e => cases e <;> rfl

omit [IsStrictOrderedRing K] in
theorem runner_inv (c : Case K) (left : List (Case K)) (carried : Bool) (u : Setup) (ts : List (Tick K)) :
    let r := (Runner.start c left carried u).run ts
    (∀ s ∈ r.ended, s.completed = true) ∧
      (r.written = none → r.case :: r.left = (c :: left).drop r.ended.length) ∧
      (∀ w, r.written = some w → r.ended.length = left.length + 1 ∧ w = r.ended.map (·.reports)) := by
  induction ts using List.reverseRecOn with
  | nil => exact ⟨by simp [Runner.run, Runner.start], fun _ => rfl, by simp [Runner.run, Runner.start]⟩
  | append_singleton ts t ih =>
    simp only [Runner.run, List.foldl_append, List.foldl_cons, List.foldl_nil] at ih ⊢
    generalize ts.foldl Runner.update (Runner.start c left carried u) = r at *
    obtain ⟨a, b, d⟩ := ih
    unfold Runner.update
    cases hw : r.written with
    | some w => exact ⟨a, fun h => by simp [hw] at h, fun w' h => d w' h⟩
    | none =>
      simp only []
      split
      · rename_i hc
        have hold : ∀ s ∈ r.ended ++ [handle (r.current, t.ending)], s.completed = true := by
          intro s hs
          rcases List.mem_append.mp hs with hs | hs
          · exact a s hs
          · rw [List.mem_singleton] at hs
            subst hs
            exact handle_completed _ _ hc
        have hb := b hw
        cases hl : r.left with
        | nil =>
          rw [hl] at hb
          have hlen := congrArg List.length hb
          simp only [List.length_cons, List.length_nil, List.length_drop] at hlen
          refine ⟨hold, by simp, fun w h => ?_⟩
          simp only [Option.some.injEq] at h
          subst h
          exact ⟨by simp only [List.length_append, List.length_singleton]; omega, rfl⟩
        | cons c' left' =>
          refine ⟨hold, fun _ => ?_, by simp⟩
          rw [hl] at hb
          simp only [List.length_append, List.length_singleton]
          rw [← List.tail_drop, ← hb]
          rfl
      · exact ⟨a, fun _ => b hw, fun w h => by simp at h⟩

omit [IsStrictOrderedRing K] in
/-- The results are written once all tests are over, and there is an entry for each of them with its
errors. -/
theorem C167_written (c : Case K) (left : List (Case K)) (carried : Bool) (u : Setup) (ts : List (Tick K)) (w : List (List (Report K)))
    (h : ((Runner.start c left carried u).run ts).written = some w) :
    w.length = left.length + 1 ∧ w = ((Runner.start c left carried u).run ts).ended.map (·.reports) ∧
      ∀ s ∈ ((Runner.start c left carried u).run ts).ended, s.completed = true := by
  obtain ⟨a, -, d⟩ := runner_inv c left carried u ts
  obtain ⟨d1, d2⟩ := d w h
  exact ⟨by rw [d2, List.length_map, d1], d2, a⟩

omit [IsStrictOrderedRing K] in
/-- Tests run in the order in which they were made: the one that runs is the next after those that have
ended. -/
theorem C167_order (c : Case K) (left : List (Case K)) (carried : Bool) (u : Setup) (ts : List (Tick K))
    (h : ((Runner.start c left carried u).run ts).written = none) :
    ((Runner.start c left carried u).run ts).case :: ((Runner.start c left carried u).run ts).left =
      (c :: left).drop ((Runner.start c left carried u).run ts).ended.length :=
  (runner_inv c left carried u ts).2.1 h

omit [IsStrictOrderedRing K] in
/-- A test that is not over goes on with the next call; when it is over, its successor is initialized and
updated at once. -/
theorem C167_next (r : Runner K) (h : r.written = none) (t : Tick K) :
    (r.current.completed = false → r.update t = { r with current := r.current.update r.case.setting t.frame }) ∧
    (∀ c left, r.current.completed = true → r.left = c :: left → (r.update t).case = c ∧ (r.update t).left = left ∧
      (r.update t).current = (State.fresh.initialize c.setting c.goal t.carried t.setup).update c.setting t.frame) := by
  refine ⟨fun hc => ?_, fun c left hc hl => ?_⟩
  · simp [Runner.update, h, hc]
  · simp [Runner.update, h, hc, hl]

/-! ### Concrete tests -/

/-- Steps of one second, a minute, one vehicle. -/
def setting : Setting ℚ := ⟨60, 1, ["npc0"], fun x => if x < 9 then 0 else 3⟩

theorem setting_root : setting.Root := by
  intro x _
  simp only [setting]
  by_cases h : x < 9
  · simp only [h, if_true]
    norm_num
    exact h
  · simp only [h, if_false]
    norm_num
    exact not_lt.mp h

/-- The ego at a place on the road with a speed, engaged or not, and touched or not. -/
def seen (x speed : ℚ) (engaged touched : Bool) : Frame ℚ :=
  ⟨some ⟨⟨x, 0, 0⟩, speed⟩, .ok engaged, if touched then ["npc0"] else [], .done⟩

def ready : State ℚ := State.fresh.initialize setting ⟨100, 0, 0⟩ true .ready

theorem ready_ready : ready.Ready ⟨100, 0, 0⟩ := ready_initialize _ _ _

theorem seen_smooth (x v : ℚ) (b : Bool) : (seen x v true b).Smooth := ⟨rfl, rfl, rfl⟩

-- a drive to the goal with a collision of two frames and one more, two seconds later
example : (∀ f ∈ [seen 0 10 true false, seen 10 10 true true, seen 20 10 true true, seen 50 30 true false, seen 100 30 true true], f.Smooth) ∧
    (ready.run setting [seen 0 10 true false, seen 10 10 true true, seen 20 10 true true, seen 50 30 true false, seen 100 30 true true]).reports =
      [.collision "npc0" (some 1), .collision "npc0" (some 2), .collision "npc0" (some 4)] ∧
    (ready.run setting [seen 0 10 true false, seen 10 10 true true, seen 20 10 true true, seen 50 30 true false, seen 100 30 true true]).completed = true := by
  refine ⟨?_, by decide +kernel, by decide +kernel⟩
  simp only [List.mem_cons, List.not_mem_nil, or_false]
  rintro f (rfl | rfl | rfl | rfl | rfl) <;> exact seen_smooth _ _ _

-- an ego that does not move, and one that is not there in time
example : (ready.run setting (List.replicate 12 (seen 0 0 true false))).reports = [.standStill] ∧
    (ready.run setting (List.replicate 61 (seen 0 1 true false))).reports = [.timeout] := by decide +kernel

/-- `C167_thrown` and `C167_setup`: a test that could not be set up before its goal was known, and then a simulator that fails. -/
example : (State.fresh.initialize setting ⟨100, 0, 0⟩ true (.before .autoware)).reports = [.exception .autoware] ∧
    ((State.fresh.initialize setting ⟨100, 0, 0⟩ true (.before .autoware)).update setting { seen 0 1 true false with outcome := .thrown .simulator }).reports =
      [.exception .autoware, .exception .simulator] := by decide +kernel

/-- An ego that drives backwards is reported as standing still. -/
theorem C168_backwards_violated : ∃ fs : List (Frame ℚ), (∀ f ∈ fs, f.Smooth ∧ ∀ ego, f.ego = some ego → ego.speed = -5) ∧
    .standStill ∈ (ready.run setting fs).reports := by
  refine ⟨List.replicate 12 (seen 0 (-5) true false), fun f hf => ?_, by decide +kernel⟩
  rw [List.mem_replicate] at hf
  obtain ⟨-, rfl⟩ := hf
  refine ⟨seen_smooth _ _ _, fun ego he => ?_⟩
  simp only [seen, Option.some.injEq] at he
  subst he
  rfl

/-- A collision is not reported if the vehicle has touched the ego before it was engaged, even seconds
after that. -/
theorem C168_before_violated : ∃ fs : List (Frame ℚ), Touch setting fs "npc0" 6 ∧ (∀ i, 0 < i → i < 6 → ¬ Touch setting fs "npc0" i) ∧
    (ready.run setting fs).reports = [.collision "npc0" none] := by
  refine ⟨[seen 0 0 false true, seen 0 1 true false, seen 1 1 true false, seen 2 1 true false, seen 3 1 true false, seen 4 1 true false,
    seen 5 1 true true], ⟨_, rfl, by simp [setting], by simp [seen]⟩, fun i h1 h2 => ?_, by decide +kernel⟩
  rintro ⟨f, hf, -, ht⟩
  obtain rfl | rfl | rfl | rfl | rfl : i = 1 ∨ i = 2 ∨ i = 3 ∨ i = 4 ∨ i = 5 := by omega
  all_goals
    simp only [List.getElem?_cons_succ, List.getElem?_cons_zero, Option.some.injEq] at hf
    subst hf
    simp [seen] at ht

example : ∃ w, ((Runner.start ⟨setting, ⟨100, 0, 0⟩⟩ [⟨setting, ⟨0, 0, 0⟩⟩] true .ready).run
    [⟨none, true, .ready, seen 99 1 true false⟩, ⟨none, true, .ready, seen 9 1 true true⟩, ⟨none, true, .ready, seen 1 1 true false⟩,
      ⟨none, true, .ready, seen 1 1 true false⟩]).written = some w ∧ w = [[], [.collision "npc0" (some 0)]] := by
  exact ⟨_, by decide +kernel, rfl⟩

end Verif.RandomTest
