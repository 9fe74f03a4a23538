import Verif.Monitor.Spec
/-!
What the monitor says about the threads, and the end of the process.
-/

namespace Verif.Monitor
open Verif.Monitor.Spec

/-! ### The statuses -/

/-- The status of a thread. -/
def lookup (m : Statuses) (t : Tid) : Option Status := match m with
  | [] => none
  | (u, s) :: m => if u = t then some s else lookup m t

theorem lookup_touch (m : Statuses) (t u : Tid) (name : String) (now : Int) :
    lookup (touch m t name now) u = if u = t then some (match lookup m t with | some s => s.access now | none => .new name now) else lookup m u := by
  induction m with
  | nil =>
    by_cases h : u = t
    · subst h
      simp [touch, lookup]
    · simp [touch, lookup, h, Ne.symm h]
  | cons p m ih =>
    obtain ⟨v, s⟩ := p
    rw [touch]
    by_cases hv : v = t
    · rw [if_pos hv]
      subst hv
      by_cases h : u = v
      · subst h
        simp [lookup]
      · simp [lookup, h, Ne.symm h]
    · rw [if_neg hv, lookup, ih]
      by_cases hu : v = u
      · subst hu
        simp [lookup, hv]
      · simp only [lookup, hu, hv, if_false]

theorem lookup_exit (m : Statuses) (t u : Tid) :
    lookup (markAsExited m t) u = (lookup m u).map fun s => if u = t then { s with exited := true } else s := by
  induction m with
  | nil => rfl
  | cons p m ih =>
    obtain ⟨v, s⟩ := p
    unfold markAsExited at ih ⊢
    simp only [List.map_cons]
    by_cases hv : v = t
    · simp only [hv, if_true, lookup]
      by_cases h : t = u
      · simp [h]
      · simp only [h, if_false]
        exact ih
    · simp only [hv, if_false, lookup]
      by_cases h : v = u
      · subst h
        simp [hv]
      · simp only [h, if_false]
        exact ih

theorem times_append (t : Nat) (a b : List Event) : times t (a ++ b) = times t a ++ times t b := by
  induction a with
  | nil => rfl
  | cons e a ih =>
    cases e with
    | touch u name now =>
      simp only [List.cons_append, times, ih]
      split <;> rfl
    | exit u => simp only [List.cons_append, times, ih]

theorem names_append (t : Nat) (a b : List Event) : names t (a ++ b) = names t a ++ names t b := by
  induction a with
  | nil => rfl
  | cons e a ih =>
    cases e with
    | touch u name now =>
      simp only [List.cons_append, names, ih]
      split <;> rfl
    | exit u => simp only [List.cons_append, names, ih]

theorem names_times (t : Nat) (l : List Event) : (names t l).length = (times t l).length := by
  induction l with
  | nil => rfl
  | cons e l ih =>
    cases e with
    | touch u name now =>
      simp only [names, times]
      split <;> simp [ih]
    | exit u => simpa only [names, times] using ih

theorem gaps_snoc (l : List Int) (a b : Int) : gaps (l ++ [a] ++ [b]) = gaps (l ++ [a]) ++ [b - a] := by
  match l with
  | [] => rfl
  | [c] => rfl
  | c :: d :: l =>
    have := gaps_snoc (d :: l) a b
    simp only [List.cons_append, gaps] at this ⊢
    rw [this]

theorem isLeast_snoc {l : List Int} {o : Option Int} (h : IsLeast l o) (b : Int) : IsLeast (l ++ [b]) (least o b) := by
  cases o with
  | none =>
    simp only [IsLeast] at h
    subst h
    simp [IsLeast, least]
  | some x =>
    simp only [IsLeast] at h
    simp only [IsLeast, least, List.mem_append, List.mem_singleton]
    by_cases hb : b < x
    · rw [if_pos hb]
      refine ⟨.inr rfl, fun y hy => ?_⟩
      rcases hy with hy | rfl
      · have := h.2 y hy; omega
      · omega
    · rw [if_neg hb]
      refine ⟨.inl h.1, fun y hy => ?_⟩
      rcases hy with hy | rfl
      · exact h.2 y hy
      · omega

theorem isGreatest_snoc {l : List Int} {o : Option Int} (h : IsGreatest l o) (b : Int) : IsGreatest (l ++ [b]) (greatest o b) := by
  cases o with
  | none =>
    simp only [IsGreatest] at h
    subst h
    simp [IsGreatest, greatest]
  | some x =>
    simp only [IsGreatest] at h
    simp only [IsGreatest, greatest, List.mem_append, List.mem_singleton]
    by_cases hb : x < b
    · rw [if_pos hb]
      refine ⟨.inr rfl, fun y hy => ?_⟩
      rcases hy with hy | rfl
      · have := h.2 y hy; omega
      · omega
    · rw [if_neg hb]
      refine ⟨.inl h.1, fun y hy => ?_⟩
      rcases hy with hy | rfl
      · exact h.2 y hy
      · omega

/-- What the status of a thread says, in terms of what has happened. -/
def Right (t : Tid) (l : List Event) (o : Option Status) : Prop := match o with
  | none => times t l = []
  | some s => (∃ a, times t l = a ++ [s.last]) ∧ IsLeast (gaps (times t l)) s.minimum ∧ IsGreatest (gaps (times t l)) s.maximum ∧ (s.exited = true ↔ Ended t l) ∧ ∃ a, names t l = s.name :: a

theorem not_ended {t : Tid} {l : List Event} (h : times t l = []) : ¬ Ended t l := by
  rintro ⟨a, b, rfl, hne⟩
  rw [times_append] at h
  exact hne (List.append_eq_nil_iff.1 h).1

theorem ended_touch {t u : Tid} {l : List Event} {name : String} {now : Int} : Ended t (l ++ [.touch u name now]) ↔ Ended t l := by
  constructor
  · rintro ⟨a, b, h, hne⟩
    rcases List.eq_nil_or_concat b with rfl | ⟨b, x, rfl⟩
    · have := List.append_inj_right' h rfl
      simp at this
    · rw [List.concat_eq_append, ← List.cons_append, ← List.append_assoc] at h
      exact ⟨a, b, List.append_inj_left' h rfl, hne⟩
  · rintro ⟨a, b, rfl, hne⟩
    exact ⟨a, b ++ [.touch u name now], by simp, hne⟩

theorem ended_exit {t u : Tid} {l : List Event} : Ended t (l ++ [.exit u]) ↔ Ended t l ∨ u = t ∧ times t l ≠ [] := by
  constructor
  · rintro ⟨a, b, h, hne⟩
    rcases List.eq_nil_or_concat b with rfl | ⟨b, x, rfl⟩
    · have h1 := List.append_inj_right' h rfl
      have h2 := List.append_inj_left' h rfl
      simp only [List.cons.injEq, Event.exit.injEq, and_true] at h1
      subst h2
      exact .inr ⟨h1, hne⟩
    · rw [List.concat_eq_append, ← List.cons_append, ← List.append_assoc] at h
      exact .inl ⟨a, b, List.append_inj_left' h rfl, hne⟩
  · rintro (⟨a, b, rfl, hne⟩ | ⟨rfl, hne⟩)
    · exact ⟨a, b ++ [.exit u], by simp, hne⟩
    · exact ⟨l, [], rfl, hne⟩

theorem right_step (t : Tid) (l : List Event) (m : Statuses) (h : Right t l (lookup m t)) (e : Event) : Right t (l ++ [e]) (lookup (e.apply m) t) := by
  cases e with
  | touch u name now =>
    simp only [Event.apply, lookup_touch]
    by_cases hu : t = u
    · subst hu
      have ht : times t (l ++ [.touch t name now]) = times t l ++ [now] := by simp [times_append, times]
      simp only [if_true]
      cases hl : lookup m t with
      | none =>
        simp only [hl, Right] at h
        have hn : names t l = [] := List.eq_nil_of_length_eq_zero (by rw [names_times, h]; rfl)
        refine ⟨⟨[], by rw [ht, h]; rfl⟩, ?_, ?_, ?_, [], by simp [names_append, names, hn, Status.new]⟩
        · rw [ht, h]; rfl
        · rw [ht, h]; rfl
        · rw [ended_touch]
          simp [Status.new, not_ended h]
      | some s =>
        simp only [hl, Right] at h
        obtain ⟨⟨a, ha⟩, h1, h2, h3, b, hb⟩ := h
        refine ⟨⟨times t l, by rw [ht]; rfl⟩, ?_, ?_, ?_, b ++ [name], by simp [names_append, names, hb, Status.access]⟩
        · rw [ht]
          rw [ha] at h1 ⊢
          rw [gaps_snoc]
          exact isLeast_snoc h1 _
        · rw [ht]
          rw [ha] at h2 ⊢
          rw [gaps_snoc]
          exact isGreatest_snoc h2 _
        · rw [ended_touch, ← h3]
          rfl
    · have ht : times t (l ++ [.touch u name now]) = times t l := by simp [times_append, times, Ne.symm hu]
      have hn : names t (l ++ [.touch u name now]) = names t l := by simp [names_append, names, Ne.symm hu]
      rw [if_neg hu]
      cases hl : lookup m t with
      | none =>
        simp only [hl, Right] at h ⊢
        rw [ht, h]
      | some s =>
        simp only [hl, Right] at h ⊢
        rw [ht, hn, ended_touch]
        exact h
  | exit u =>
    have ht : times t (l ++ [.exit u]) = times t l := by simp [times_append, times]
    have hn : names t (l ++ [.exit u]) = names t l := by simp [names_append, names]
    simp only [Event.apply, lookup_exit]
    cases hl : lookup m t with
    | none =>
      simp only [hl, Right] at h
      simp only [Option.map_none, Right, ht, h]
    | some s =>
      simp only [hl, Right] at h
      obtain ⟨⟨a, ha⟩, h1, h2, h3, h4⟩ := h
      have hne : times t l ≠ [] := by rw [ha]; simp
      simp only [Option.map_some, Right, ht, hn, ended_exit]
      by_cases hu : t = u
      · subst hu
        simp only [if_true]
        exact ⟨⟨a, ha⟩, h1, h2, by simp [hne], h4⟩
      · simp only [hu, if_false]
        refine ⟨⟨a, ha⟩, h1, h2, h3.trans ?_, h4⟩
        simp [Ne.symm hu]

theorem right_all (t : Tid) (l : List Event) : Right t l (lookup (l.foldl Event.apply []) t) := by
  have key : ∀ (l k : List Event) (m : Statuses), Right t k (lookup m t) → Right t (k ++ l) (lookup (l.foldl Event.apply m) t) := by
    intro l
    induction l with
    | nil => intro k m h; simpa using h
    | cons e l ih =>
      intro k m h
      have := ih (k ++ [e]) (e.apply m) (right_step t k m h e)
      simpa using this
  simpa using key l [] [] (by simp [lookup, Right, times])

/-- The threads of the statuses are different. -/
def Distinct (m : Statuses) : Prop := (m.map (·.1)).Nodup

theorem mem_touch (m : Statuses) (t : Tid) (name : String) (now : Int) (u : Tid) : u ∈ (touch m t name now).map (·.1) ↔ u = t ∨ u ∈ m.map (·.1) := by
  induction m with
  | nil => simp [touch]
  | cons p m ih =>
    obtain ⟨v, s⟩ := p
    rw [touch]
    by_cases hv : v = t
    · rw [if_pos hv]
      simp [hv]
    · rw [if_neg hv, List.map_cons, List.mem_cons, ih, List.map_cons, List.mem_cons]
      constructor
      · rintro (h | h | h)
        · exact .inr (.inl h)
        · exact .inl h
        · exact .inr (.inr h)
      · rintro (h | h | h)
        · exact .inr (.inl h)
        · exact .inl h
        · exact .inr (.inr h)

theorem distinct_touch {m : Statuses} (h : Distinct m) (t : Tid) (name : String) (now : Int) : Distinct (touch m t name now) := by
  induction m with
  | nil => simp [touch, Distinct]
  | cons p m ih =>
    obtain ⟨v, s⟩ := p
    unfold Distinct at h ih ⊢
    simp only [List.map_cons, List.nodup_cons] at h
    rw [touch]
    by_cases hv : v = t
    · rw [if_pos hv]
      subst hv
      simpa using h
    · rw [if_neg hv]
      simp only [List.map_cons, List.nodup_cons, mem_touch]
      exact ⟨fun hc => hc.elim hv h.1, ih h.2⟩

theorem distinct_all (l : List Event) (m : Statuses) (h : Distinct m) : Distinct (l.foldl Event.apply m) := by
  induction l generalizing m with
  | nil => exact h
  | cons e l ih =>
    refine ih _ ?_
    cases e with
    | touch t name now => exact distinct_touch h t name now
    | exit t =>
      unfold Distinct at h ⊢
      have : (markAsExited m t).map (·.1) = m.map (·.1) := by
        unfold markAsExited
        rw [List.map_map]
        apply List.map_congr_left
        intro p _
        simp only [Function.comp]
        split <;> rfl
      simp only [Event.apply, this]
      exact h

theorem mem_lookup {m : Statuses} (h : Distinct m) (t : Tid) (s : Status) : (t, s) ∈ m ↔ lookup m t = some s := by
  induction m with
  | nil => simp [lookup]
  | cons p m ih =>
    obtain ⟨v, r⟩ := p
    unfold Distinct at h ih
    simp only [List.map_cons, List.nodup_cons] at h
    rw [lookup]
    by_cases hv : v = t
    · subst hv
      simp only [List.mem_cons, Prod.mk.injEq, true_and, if_true, Option.some.injEq]
      constructor
      · rintro (rfl | hm)
        · rfl
        · exact absurd (List.mem_map.2 ⟨_, hm, rfl⟩) h.1
      · rintro rfl
        exact .inl rfl
    · rw [if_neg hv, ← ih h.2]
      simp only [List.mem_cons, Prod.mk.injEq]
      constructor
      · rintro (⟨rfl, _⟩ | hm)
        · exact absurd rfl hv
        · exact hm
      · exact .inr

/-- What is written: all threads that were ever active, each once, with the name it gave first, the
time since it was active last, read from the clock, and the least and the greatest time between two of its activities. -/
theorem C157_entries (l : List Event) (threshold : Int) (clock : Nat → Int) :
    (∀ t, (∃ e ∈ (write (l.foldl Event.apply []) threshold clock).threads, e.thread = t) ↔ times t l ≠ []) ∧
    ((write (l.foldl Event.apply []) threshold clock).threads.map (·.thread)).Nodup ∧
    ∀ e ∈ (write (l.foldl Event.apply []) threshold clock).threads,
      IsLeast (gaps (times e.thread l)) e.minimum ∧ IsGreatest (gaps (times e.thread l)) e.maximum ∧ (∃ a, names e.thread l = e.name :: a) ∧
        ∃ a last i, times e.thread l = a ++ [last] ∧ e.since = clock i - last := by
  have hd := distinct_all l [] (by simp [Distinct])
  have hr := fun t => right_all t l
  generalize hm : l.foldl Event.apply [] = m at hd hr
  have hmap : ∀ (m : Statuses) (n : Nat), (entries threshold clock m n).map (·.thread) = m.map (·.1) := by
    intro m
    induction m with
    | nil => intro n; rfl
    | cons p m ih => intro n; simp [entries, ih]
  have hmem : ∀ (m : Statuses) (n : Nat) (e : Entry), e ∈ entries threshold clock m n → ∃ s, (e.thread, s) ∈ m ∧ e.minimum = s.minimum ∧ e.maximum = s.maximum ∧
      e.name = s.name ∧ ∃ i, e.since = clock i - s.last := by
    intro m
    induction m with
    | nil => intro n e h; simp [entries] at h
    | cons p m ih =>
      obtain ⟨v, r⟩ := p
      intro n e h
      simp only [entries, List.mem_cons] at h
      rcases h with rfl | h
      · exact ⟨r, by simp, rfl, rfl, rfl, n + 1, rfl⟩
      · obtain ⟨s, h1, h2⟩ := ih _ e h
        exact ⟨s, List.mem_cons_of_mem _ h1, h2⟩
  refine ⟨fun t => ?_, ?_, fun e he => ?_⟩
  · have h1 : (∃ e ∈ (write m threshold clock).threads, e.thread = t) ↔ t ∈ m.map (·.1) := by
      rw [← hmap m 0]
      simp [write]
    rw [h1]
    have h2 := hr t
    constructor
    · intro h hn
      obtain ⟨⟨v, s⟩, hp, rfl⟩ := List.mem_map.1 h
      rw [(mem_lookup hd _ s).1 hp] at h2
      obtain ⟨⟨a, ha⟩, _⟩ := h2
      rw [ha] at hn
      simp at hn
    · intro h
      cases hl : lookup m t with
      | none =>
        rw [hl] at h2
        exact absurd h2 h
      | some s => exact List.mem_map.2 ⟨_, (mem_lookup hd t s).2 hl, rfl⟩
  · simp only [write, hmap]
    exact hd
  · obtain ⟨s, h1, h2, h3, h4, i, h5⟩ := hmem m 0 e he
    have := hr e.thread
    rw [(mem_lookup hd _ s).1 h1] at this
    obtain ⟨⟨a, ha⟩, g1, g2, _, g3⟩ := this
    rw [h2, h3, h4]
    exact ⟨g1, g2, g3, a, s.last, i, ha, h5⟩

/-- If the clock stands still while the report is written, it says that all is well exactly if every thread that was ever active
has ended, as far as the monitor is told, or was active less than the threshold ago. Missing: the clock does not stand still,
see `C157_clock` and `C157_clock_violated`. -/
theorem C157_good_partial (l : List Event) (threshold now : Int) :
    (write (l.foldl Event.apply []) threshold fun _ => now).good = true ↔
      ∀ t a last, times t l = a ++ [last] → Ended t l ∨ now - last < threshold := by
  have hd := distinct_all l [] (by simp [Distinct])
  have hr := fun t => right_all t l
  generalize hm : l.foldl Event.apply [] = m at hd hr
  have hall : ∀ (m : Statuses) (n : Nat), allGood threshold (fun _ => now) m n = true ↔ ∀ p ∈ m, p.2.good threshold now = true := by
    intro m
    induction m with
    | nil => intro n; simp [allGood]
    | cons p m ih =>
      intro n
      simp [allGood, ih]
  simp only [write, hall]
  constructor
  · intro h t a last ht
    have h2 := hr t
    cases hl : lookup m t with
    | none =>
      rw [hl] at h2
      simp only [Right] at h2
      rw [h2] at ht
      simp at ht
    | some s =>
      rw [hl] at h2
      obtain ⟨⟨b, hb⟩, _, _, h3, _⟩ := h2
      rw [hb] at ht
      have := List.append_inj_right' ht rfl
      simp only [List.cons.injEq, and_true] at this
      have hg := h _ ((mem_lookup hd t s).2 hl)
      simp only [Status.good, Bool.or_eq_true, decide_eq_true_eq, this, h3] at hg
      exact hg
  · rintro h ⟨t, s⟩ hp
    have h2 := hr t
    rw [(mem_lookup hd t s).1 hp] at h2
    obtain ⟨⟨b, hb⟩, _, _, h3, _⟩ := h2
    simp only [Status.good, Bool.or_eq_true, decide_eq_true_eq, h3]
    exact h t b s.last hb

/-- As the clock goes on while the report is written, a report that says that all is well says so about each thread. -/
theorem C157_clock (m : Statuses) (threshold : Int) (clock : Nat → Int) (hc : ∀ i j, i ≤ j → clock i ≤ clock j)
    (h : (write m threshold clock).good = true) : ∀ e ∈ (write m threshold clock).threads, e.good = true ∧ e.logged = false := by
  have key : ∀ (m : Statuses) (n k : Nat), n + 3 * m.length ≤ k → allGood threshold clock m k = true →
      ∀ e ∈ entries threshold clock m n, e.good = true ∧ e.logged = false := by
    intro m
    induction m with
    | nil => intro n k _ _ e he; simp [entries] at he
    | cons p m ih =>
      obtain ⟨v, s⟩ := p
      intro n k hk hg e he
      simp only [List.length_cons] at hk
      simp only [allGood, Bool.and_eq_true] at hg
      simp only [entries, List.mem_cons] at he
      rcases he with rfl | he
      · have hmono : ∀ i, i ≤ k → s.good threshold (clock i) = true := by
          intro i hi
          have h1 := hc i k hi
          have h2 := hg.1
          simp only [Status.good, Bool.or_eq_true, decide_eq_true_eq] at h2 ⊢
          rcases h2 with h2 | h2
          · exact .inl h2
          · exact .inr (by omega)
        exact ⟨hmono n (by omega), by simp [hmono (n + 2) (by omega)]⟩
      · exact ih (n + 3) (k + 1) (by omega) hg.2 e he
  exact key m 0 (3 * m.length) (by omega) h

/-- It may say that something is wrong, and that every thread is well. -/
theorem C157_clock_violated : ∃ (m : Statuses) (clock : Nat → Int), (∀ i j, i ≤ j → clock i ≤ clock j) ∧
    (write m 10 clock).good = false ∧ ∀ e ∈ (write m 10 clock).threads, e.good = true ∧ e.logged = false := by
  refine ⟨[(1, .new "a" 0)], fun i => if i < 3 then 9 else 10, fun i j h => ?_, by decide, by decide⟩
  simp only
  split <;> split <;> omega

/-- A thread that has ended, but not with the destructor of a monitor, is soon said to be unresponsive, for ever. -/
theorem C157_ended_violated (l : List Event) (t : Tid) (a : List Int) (last threshold now : Int) (ht : times t l = a ++ [last]) (he : ¬ Ended t l)
    (hn : last + threshold ≤ now) : (write (l.foldl Event.apply []) threshold fun _ => now).good = false := by
  cases hg : (write (l.foldl Event.apply []) threshold fun _ => now).good with
  | false => rfl
  | true =>
    rcases (C157_good_partial l threshold now).1 hg t a last ht with h | h
    · exact absurd h he
    · omega

example : (write ([.touch 1 "a" 0, .touch 2 "b" 3, .touch 1 "x" 5, .touch 1 "y" 7, .exit 2].foldl Event.apply []) 10 fun _ => 14) =
    ⟨[⟨1, "a", true, 7, some 2, some 5, false⟩, ⟨2, "b", true, 11, none, none, false⟩], true, 10⟩ := by decide
example : (write ([.touch 1 "a" 0, .touch 2 "b" 3, .touch 1 "x" 5, .touch 1 "y" 7].foldl Event.apply []) 10 fun _ => 14).good = false := by decide

/-! ### Thresholds -/

/-- A thread that overrides the threshold leaves it as it was, also if it does so again meanwhile. -/
theorem C157_restored_partial (t : Tid) (l : List Override) (h : Nested t l) (s : Thresholds) :
    (l.foldl Override.apply s).threshold = s.threshold ∧ (l.foldl Override.apply s).saved = s.saved := by
  induction h generalizing s with
  | nil => exact ⟨rfl, rfl⟩
  | @one a b x _ _ iha ihb =>
    rw [List.foldl_cons, List.foldl_append, List.foldl_cons]
    have h1 := iha (Override.apply s (.enter t x))
    generalize a.foldl Override.apply (Override.apply s (.enter t x)) = s1 at h1
    have h2 : Override.apply s1 (.leave t) = s := by
      have hs : s1.saved t = s.threshold :: s.saved t := by rw [h1.2]; simp [Override.apply]
      simp only [Override.apply, hs]
      cases s with
      | mk th sv =>
        congr 1
        funext u
        by_cases hu : u = t
        · simp [hu]
        · simp [hu, h1.2, Override.apply]
    rw [h2]
    exact ihb s

/-- While it is overridden the threshold is the one given. -/
theorem C157_overridden (t : Tid) (l : List Override) (h : Nested t l) (x : Int) (s : Thresholds) :
    (l.foldl Override.apply (Override.apply s (.enter t x))).threshold = x :=
  (C157_restored_partial t l h _).1

example : Nested 1 [.enter 1 30, .enter 1 60, .leave 1, .leave 1, .enter 1 5, .leave 1] :=
  .one (a := [.enter 1 60, .leave 1]) 30 (.one (a := []) 60 .nil .nil) (.one (a := []) 5 .nil .nil)

/-- Two threads that override it at the same time may leave the threshold of one of them behind. -/
theorem C157_restored_violated : ∃ l : List Override, Nested 1 (l.filter fun o => o = .enter 1 30 ∨ o = .leave 1) ∧
    Nested 2 (l.filter fun o => o = .enter 2 60 ∨ o = .leave 2) ∧ ∀ s : Thresholds, (l.foldl Override.apply s).threshold = 30 :=
  ⟨[.enter 1 30, .enter 2 60, .leave 1, .leave 2], .one (a := []) 30 .nil .nil, .one (a := []) 60 .nil .nil, fun s => by
    simp [Override.apply]⟩

/-! ### The end of the process -/

/-- What holds in every state. -/
structure Sound (p : Process) : Prop where
  lock : p.lock = some .main ↔ p.main = .locked ∨ p.main = .join
  dog : p.dog = .write ↔ p.lock = some .dog
  terminating : p.terminating = true ↔ p.main = .join
  ended : p.dog = .ended → p.main = .join ∨ p.main = .ended
  count : p.main = .before ∨ p.main = .locked → 0 < p.count
  last : p.main = .ended → p.dog = .ended

theorem sound_step {p q : Process} (h : Sound p) (st : Step p q) : Sound q := by
  obtain ⟨h1, h2, h3, h4, h5, h6⟩ := h
  cases p with
  | mk dog main lock terminating count =>
    simp only at *
    cases st with
    | leave hd ht => simp only at *; subst hd; constructor <;> simp_all
    | again hd ht => simp only at *; subst hd; constructor <;> simp_all
    | take hd hl => simp only at *; subst hd hl; constructor <;> simp_all
    | give hd => simp only at *; subst hd; constructor <;> simp_all
    | wake hd => simp only at *; subst hd; constructor <;> simp_all
    | begin hm hl hc => simp only at *; subst hm hl; constructor <;> simp_all
    | next hm hc => simp only at *; subst hm; constructor <;> simp_all <;> omega
    | last hm hc => simp only at *; subst hm; constructor <;> simp_all
    | join hm hd => simp only at *; subst hm hd; constructor <;> simp_all
    | acquire t hl => simp only at *; subst hl; constructor <;> simp_all
    | release t hl => simp only at *; subst hl; constructor <;> simp_all

theorem sound_run {n : Nat} {p q : Process} (h : Sound p) (r : Run n p q) : Sound q := by
  induction r with
  | nil => exact h
  | cons st _ ih => exact ih (sound_step h st)

theorem sound_start {n : Nat} (h : 0 < n) : Sound (.start n) := by
  constructor <;> simp [Process.start, h]

theorem run_append {m n : Nat} {p q r : Process} (h1 : Run m p q) (h2 : Run n q r) : Run (m + n) p r := by
  induction h1 with
  | nil => simpa using h2
  | @cons k a b c st _ ih =>
    have := Run.cons st (ih h2)
    rwa [show k + 1 + n = k + n + 1 by omega]

/-- The only state in which nothing goes on and the process has not ended: the last monitor waits for the watchdog, with the lock
that the watchdog waits for. -/
theorem C158_stuck (n : Nat) (hn : 0 < n) (k : Nat) (p : Process) (h : Run k (.start n) p) (hs : ∀ q, ¬ Step p q) :
    p.main = .join ∧ p.dog = .wait ∧ p.lock = some .main := by
  obtain ⟨h1, h2, h3, h4, h5, h6⟩ := sound_run (sound_start hn) h
  have hw : p.dog = .wait ∨ p.dog = .ended := by
    cases hd : p.dog with
    | check =>
      cases ht : p.terminating with
      | true => exact absurd (.leave p hd ht) (hs _)
      | false => exact absurd (.again p hd ht) (hs _)
    | wait => exact .inl rfl
    | write => exact absurd (.give p hd) (hs _)
    | sleep => exact absurd (.wake p hd) (hs _)
    | ended => exact .inr rfl
  have hl : p.lock = some .main := by
    match hlk : p.lock with
    | none => exact absurd (.acquire p 0 hlk) (hs _)
    | some .dog =>
      rw [h2.2 hlk] at hw
      rcases hw with hw | hw <;> cases hw
    | some .main => rfl
    | some (.other t) => exact absurd (.release p t hlk) (hs _)
  have hm : p.main = .join := by
    rcases h1.1 hl with hm | hm
    · by_cases hc : p.count - 1 = 0
      · exact absurd (.last p hm hc) (hs _)
      · exact absurd (.next p hm hc) (hs _)
    · exact hm
  refine ⟨hm, ?_, hl⟩
  rcases hw with hw | hw
  · exact hw
  · exact absurd (.join p hm hw) (hs _)

/-- The state can be reached, with any number of monitors: the process never ends. -/
theorem C158_deadlock_violated (n : Nat) (hn : 0 < n) : ∃ k p, Run k (.start n) p ∧ p.main ≠ .ended ∧ ∀ q, ¬ Step p q := by
  have loop : ∀ m : Nat, ∃ k, Run k (.start (m + 1)) (.start 1) := by
    intro m
    induction m with
    | zero => exact ⟨0, .nil _⟩
    | succ m ih =>
      obtain ⟨k, hk⟩ := ih
      refine ⟨k + 1 + 1, .cons (.begin _ rfl rfl (Nat.succ_pos _)) (.cons (.next _ rfl ?_) ?_)⟩
      · simp [Process.start]
      · exact hk
  obtain ⟨m, rfl⟩ : ∃ m, n = m + 1 := ⟨n - 1, by omega⟩
  obtain ⟨k, hk⟩ := loop m
  refine ⟨_, ⟨.wait, .join, some .main, true, 0⟩, run_append hk (.cons (.again _ rfl rfl) (.cons (.begin _ rfl rfl (by decide)) (.cons (.last _ rfl rfl) (.nil _)))),
    by simp, ?_⟩
  intro q st
  cases st <;> simp_all

/-- If the watchdog does not wait for the lock when the last monitor begins to wait for the watchdog, then the process ends, in at
most three steps, whatever the threads do. -/
theorem C158_ends_partial (n : Nat) (hn : 0 < n) (k : Nat) (p : Process) (h : Run k (.start n) p) (hm : p.main = .join) (hd : p.dog ≠ .wait) :
    Ends 3 p := by
  have hp := sound_run (sound_start hn) h
  have hl : p.lock = some .main := hp.lock.2 (.inr hm)
  have ht : p.terminating = true := hp.terminating.2 hm
  have e1 : ∀ (q : Process) (j : Nat), q.main = .join → q.lock = some .main → q.dog = .ended → Ends (j + 1) q := by
    intro q j h1 h2 h3
    refine .later ⟨_, .join q h1 h3⟩ fun r st => ?_
    cases st <;> first | exact .now rfl | simp_all
  have e2 : ∀ (q : Process) (j : Nat), q.main = .join → q.lock = some .main → q.terminating = true → q.dog = .check → Ends (j + 2) q := by
    intro q j h1 h2 h3 h4
    refine .later ⟨_, .leave q h4 h3⟩ fun r st => ?_
    cases st <;> first | exact e1 _ _ h1 h2 rfl | simp_all
  have e3 : ∀ (q : Process), q.main = .join → q.lock = some .main → q.terminating = true → q.dog = .sleep → Ends 3 q := by
    intro q h1 h2 h3 h4
    refine .later ⟨_, .wake q h4⟩ fun r st => ?_
    cases st <;> first | exact e2 _ _ h1 h2 h3 rfl | simp_all
  cases hdog : p.dog with
  | check => exact e2 p 1 hm hl ht hdog
  | wait => exact absurd hdog hd
  | write =>
    have := hp.dog.1 hdog
    rw [hl] at this
    cases this
  | sleep => exact e3 p hm hl ht hdog
  | ended => exact e1 p 2 hm hl hdog

/-- Such states are reached. -/
example : ∃ p, Run 5 (.start 1) p ∧ p.main = .join ∧ p.dog = .sleep :=
  ⟨_, .cons (.again _ rfl rfl) (.cons (.take _ rfl rfl) (.cons (.give _ rfl) (.cons (.begin _ rfl rfl (by decide)) (.cons (.last _ rfl rfl) (.nil _))))), rfl, rfl⟩

/-- The process does not end before the watchdog has ended, and ends after the last monitor only. -/
theorem C158_order (n : Nat) (hn : 0 < n) (k : Nat) (p : Process) (h : Run k (.start n) p) (he : p.main = .ended) : p.dog = .ended ∧ p.count = 0 := by
  have key : ∀ (k : Nat) (p q : Process), Sound p → (p.main = .join ∨ p.main = .ended → p.count = 0) → Run k p q → (q.main = .join ∨ q.main = .ended → q.count = 0) := by
    intro k p q hs hc r
    induction r with
    | nil => exact hc
    | cons st _ ih =>
      refine ih (sound_step hs st) ?_
      cases st <;> simp_all
  exact ⟨(sound_run (sound_start hn) h).last he, key k _ _ (sound_start hn) (by simp [Process.start]) h (.inr he)⟩

end Verif.Monitor
