import Verif.Action.Spec
/-
Helper lemmas for the theorems about actions.
-/
namespace Verif.Action

theorem InTurn.mono {P : Nat → Entity → Prop} {a a' b : Nat} {l : List Entity} (h : InTurn P a l b) (ha : a' ≤ a) :
    InTurn P a' l b := by
  cases h with
  | nil hab => exact .nil (Nat.le_trans ha hab)
  | cons ham hp ht => exact .cons (Nat.le_trans ha ham) hp ht

theorem InTurn.le {P : Nat → Entity → Prop} {a b : Nat} {l : List Entity} (h : InTurn P a l b) : a ≤ b := by
  induction h with
  | nil h => exact h
  | cons h _ _ ih => exact Nat.le_trans h ih

theorem InTurn.later {P : Nat → Entity → Prop} {a b b' : Nat} {l : List Entity} (h : InTurn P a l b) (hb : b ≤ b') :
    InTurn P a l b' := by
  induction h with
  | nil h => exact .nil (Nat.le_trans h hb)
  | cons h hp _ ih => exact .cons h hp (ih hb)

theorem InTurn.shift {P : Nat → Entity → Prop} : ∀ {l : List Entity} {a b : Nat},
    InTurn P (a + 1) l (b + 1) ↔ InTurn (fun m => P (m + 1)) a l b
  | [], a, b => ⟨fun h => by cases h with | nil h => exact .nil (by omega), fun h => by
      cases h with | nil h => exact .nil (by omega)⟩
  | e :: l, a, b => by
    constructor
    · intro h
      cases h with
      | @cons _ m _ _ _ ha hp ht =>
        obtain ⟨k, rfl⟩ : ∃ k, m = k + 1 := ⟨m - 1, by omega⟩
        exact .cons (by omega) hp (InTurn.shift.mp ht)
    · intro h
      cases h with
      | cons ha hp ht => exact .cons (by omega) hp (InTurn.shift.mpr ht)

theorem InTurn.mem {P : Nat → Entity → Prop} {a b : Nat} {l : List Entity} (h : InTurn P a l b) :
    ∀ e ∈ l, ∃ m, a ≤ m ∧ m ≤ b ∧ P m e := by
  induction h with
  | nil => simp
  | cons ha hp ht ih =>
    intro x hx
    rcases List.mem_cons.mp hx with rfl | hx
    · exact ⟨_, ha, ht.le, hp⟩
    · obtain ⟨k, h1, h2, h3⟩ := ih x hx
      exact ⟨k, Nat.le_trans ha h1, h2, h3⟩

theorem InTurn.together {P : Nat → Entity → Prop} {a n : Nat} (ha : a ≤ n) : ∀ {l : List Entity},
    (∀ e ∈ l, P n e) → InTurn P a l n
  | [], _ => .nil ha
  | _ :: _, h => .cons ha (h _ List.mem_cons_self)
      (InTurn.together (Nat.le_refl n) fun x hx => h x (List.mem_cons_of_mem _ hx))

/-- The accomplishments while the actors in `done` have accomplished and those in `rest` have not. -/
def accomplishments (done rest : List Entity) : List (Entity × Bool) :=
  done.map (fun e => (e, true)) ++ rest.map (fun e => (e, false))

theorem poll_accomplishments (c : Entity → Bool) : ∀ done rest : List Entity,
    poll c (accomplishments done rest) =
      (rest.all c, accomplishments (done ++ rest.takeWhile c) (rest.dropWhile c))
  | [], [] => rfl
  | [], e :: l => by
    have ih := poll_accomplishments c [] l
    simp only [accomplishments, List.map_nil, List.nil_append] at ih
    simp only [accomplishments, List.map_nil, List.map_cons, List.nil_append, poll, Bool.false_or, ih]
    cases h : c e <;> simp [h]
  | d :: done, rest => by
    have ih := poll_accomplishments c done rest
    simp only [accomplishments] at ih
    simp only [accomplishments, List.map_cons, List.cons_append, poll, Bool.true_or, if_true, ih]

theorem inTurn_step (c : Entity → Bool) (P : Nat → Entity → Prop) (hP : ∀ e, P 0 e ↔ c e = true) (n : Nat) :
    ∀ l : List Entity, InTurn P 0 l (n + 1) ↔ InTurn (fun m => P (m + 1)) 0 (l.dropWhile c) n
  | [] => ⟨fun _ => .nil (Nat.zero_le _), fun _ => .nil (Nat.zero_le _)⟩
  | e :: l => by
    have ih := inTurn_step c P hP n l
    cases h : c e with
    | true =>
      rw [List.dropWhile_cons_of_pos h, ← ih]
      constructor
      · intro ht
        cases ht with
        | cons ha hp ht => exact ht.mono (Nat.zero_le _)
      · intro ht
        exact .cons (Nat.le_refl 0) ((hP e).mpr h) ht
    | false =>
      rw [List.dropWhile_cons_of_neg (by simp [h])]
      have h0 : ¬ P 0 e := by rw [hP]; simp [h]
      constructor
      · intro ht
        cases ht with
        | @cons _ m _ _ _ ha hp ht =>
          obtain ⟨k, rfl⟩ : ∃ k, m = k + 1 := ⟨m - 1, by
            cases m with
            | zero => exact absurd hp h0
            | succ m => rfl⟩
          exact .cons (Nat.zero_le _) hp (InTurn.shift.mp ht)
      · intro ht
        cases ht with
        | cons ha hp ht => exact .cons (Nat.zero_le _) hp (InTurn.shift.mpr ht)

theorem inTurn_zero (c : Entity → Bool) (P : Nat → Entity → Prop) (hP : ∀ e, P 0 e ↔ c e = true) :
    ∀ l : List Entity, InTurn P 0 l 0 ↔ l.all c = true
  | [] => ⟨fun _ => rfl, fun _ => .nil (Nat.le_refl 0)⟩
  | e :: l => by
    have ih := inTurn_zero c P hP l
    rw [List.all_cons, Bool.and_eq_true, ← ih, ← hP]
    constructor
    · intro h
      cases h with
      | @cons _ m _ _ _ ha hp ht =>
        have : m = 0 := by have := ht.le; omega
        subst this
        exact ⟨hp, ht⟩
    · exact fun ⟨h1, h2⟩ => .cons (Nat.le_refl 0) h1 h2

/-- The check of frame `n` holds for the actor. -/
def Checked (checks : List (Entity → Bool)) (n : Nat) (e : Entity) : Prop := ∃ c, checks[n]? = some c ∧ c e = true

theorem ends_accomplishments : ∀ (checks : List (Entity → Bool)) (done rest : List Entity) (n : Nat), n < checks.length →
    ((∃ m, m ≤ n ∧ ends (accomplishments done rest) checks = some m) ↔ InTurn (Checked checks) 0 rest n)
  | [], _, _, n, h => absurd h (Nat.not_lt_zero n)
  | c :: cs, done, rest, n, hn => by
    have hP : ∀ e, Checked (c :: cs) 0 e ↔ c e = true := fun e => by simp [Checked]
    have he : ends (accomplishments done rest) (c :: cs) =
        if rest.all c then some 0
        else (ends (accomplishments (done ++ rest.takeWhile c) (rest.dropWhile c)) cs).map (· + 1) := by
      rw [ends, poll_accomplishments]
    rw [he]
    cases ha : rest.all c with
    | true =>
      simp only [if_true]
      exact ⟨fun _ => ((inTurn_zero c _ hP rest).mpr ha).later (Nat.zero_le n), fun _ => ⟨0, Nat.zero_le n, rfl⟩⟩
    | false =>
      simp only [Bool.false_eq_true, if_false]
      cases n with
      | zero =>
        constructor
        · rintro ⟨m, hm, h⟩
          rw [Option.map_eq_some_iff] at h
          obtain ⟨k, _, rfl⟩ := h
          omega
        · intro h
          have := (inTurn_zero c _ hP rest).mp h
          rw [ha] at this
          cases this
      | succ n =>
        have ih := ends_accomplishments cs (done ++ rest.takeWhile c) (rest.dropWhile c) n
          (by simp only [List.length_cons] at hn; omega)
        rw [inTurn_step c _ hP n rest]
        have hs : (fun m => Checked (c :: cs) (m + 1)) = Checked cs := by
          funext m e
          simp [Checked]
        rw [hs, ← ih]
        constructor
        · rintro ⟨m, hm, h⟩
          rw [Option.map_eq_some_iff] at h
          obtain ⟨k, hk, rfl⟩ := h
          exact ⟨k, by omega, hk⟩
        · rintro ⟨k, hk, h⟩
          exact ⟨k + 1, by omega, by rw [h]; rfl⟩

theorem ends_lt : ∀ (checks : List (Entity → Bool)) (acc : List (Entity × Bool)) (n : Nat),
    ends acc checks = some n → n < checks.length
  | [], _, n, h => by simp [ends] at h
  | c :: cs, acc, n, h => by
    rw [ends] at h
    by_cases hr : (poll c acc).1 = true
    · simp only [hr, if_true, Option.some.injEq] at h
      simp [← h]
    · simp only [hr, if_false, Option.map_eq_some_iff, Bool.false_eq_true] at h
      obtain ⟨k, hk, rfl⟩ := h
      have := ends_lt cs _ k hk
      simp only [List.length_cons]
      omega

theorem initial_eq (order : List Entity) : initial order = accomplishments [] order := by
  simp [initial, accomplishments]

/-- An action that polls its actors ends in the first frame by which they have met the check one after the other. -/
theorem ends_initial (checks : List (Entity → Bool)) (order : List Entity) (n : Nat) :
    ends (initial order) checks = some n ↔
      n < checks.length ∧ First (fun m => InTurn (Checked checks) 0 order m) n := by
  rw [initial_eq]
  constructor
  · intro h
    have hn := ends_lt _ _ _ h
    refine ⟨hn, (ends_accomplishments checks [] order n hn).mp ⟨n, Nat.le_refl n, h⟩, fun m hm hc => ?_⟩
    obtain ⟨k, hk, he⟩ := (ends_accomplishments checks [] order m (by omega)).mpr hc
    rw [h] at he
    cases he
    omega
  · rintro ⟨hn, h1, h2⟩
    obtain ⟨m, hm, he⟩ := (ends_accomplishments checks [] order n hn).mpr h1
    by_cases hmn : m = n
    · rw [← hmn]; exact he
    · have := h2 m (by omega) ((ends_accomplishments checks [] order m (by omega)).mp ⟨m, Nat.le_refl m, he⟩)
      exact this.elim

/-! ### Speeds -/

theorem distance_lt (a b : Rat) : distance a b < epsilon ↔ a - b < 1 / 2 ^ 52 ∧ b - a < 1 / 2 ^ 52 := by
  have he : epsilon = 1 / 2 ^ 52 := by decide +kernel
  have hpos : (0 : Rat) < 1 / 2 ^ 52 := by decide +kernel
  unfold distance
  rw [he]
  generalize (1 / 2 ^ 52 : Rat) = d at hpos
  by_cases h : a ≤ b
  · rw [if_pos h]
    constructor
    · intro hb; exact ⟨by grind, hb⟩
    · exact fun hb => hb.2
  · rw [if_neg h]
    constructor
    · intro hb; exact ⟨hb, by grind⟩
    · exact fun hb => hb.1

theorem equalTo_some (a b : Option Rat) : equalTo a b = true ↔
    ∃ x y, a = some x ∧ b = some y ∧ x - y < 1 / 2 ^ 52 ∧ y - x < 1 / 2 ^ 52 := by
  cases a <;> cases b <;> simp [equalTo, distance_lt]

theorem check_iff (a : SpeedAction) (s : Speeds) (e : Entity) :
    a.check s e = true ↔ ∀ o ∈ e.objects, AtTarget a.target s o := by
  unfold SpeedAction.check
  rw [List.all_eq_true]
  refine forall_congr' fun o => forall_congr' fun _ => ?_
  rw [equalTo_some]
  unfold AtTarget
  constructor
  · rintro ⟨x, y, h1, h2, h3, h4⟩
    refine ⟨y, x, h2, ?_, h4, h3⟩
    cases ht : a.target with
    | absolute v => simp [Target.now, ht] at h1; exact h1.symm
    | relative r t v c =>
      cases t <;> simp only [Target.now, ht, Option.map_eq_some_iff] at h1 <;>
        · obtain ⟨z, hz, rfl⟩ := h1
          exact ⟨z, hz, rfl⟩
  · rintro ⟨y, x, h2, h1, h4, h3⟩
    refine ⟨x, y, ?_, h2, h3, h4⟩
    cases ht : a.target with
    | absolute v => simp only [ht] at h1; simp [Target.now, h1]
    | relative r t v c =>
      cases t <;> simp only [ht] at h1 <;>
        · obtain ⟨z, hz, rfl⟩ := h1
          simp [Target.now, hz]

theorem checked_speed (a : SpeedAction) (frames : List Speeds) (n : Nat) (e : Entity) :
    Checked (frames.map a.check) n e ↔ ReachedAt a.target frames n e := by
  unfold Checked ReachedAt
  rw [List.getElem?_map]
  constructor
  · rintro ⟨c, h, hc⟩
    rw [Option.map_eq_some_iff] at h
    obtain ⟨s, hs, rfl⟩ := h
    exact ⟨s, hs, (check_iff a s e).mp hc⟩
  · rintro ⟨s, hs, h⟩
    exact ⟨a.check s, by rw [hs]; rfl, (check_iff a s e).mpr h⟩

/-! ### Speed profiles -/

theorem reaches_iff (reference : Option Obj) (s : Speeds) (e : Entity) (entry : Entry) :
    reaches reference s e entry = true ↔ ∀ o ∈ e.objects, ∃ v w, s o = some v ∧
      (match reference with
        | none => w = entry.speed
        | some r => ∃ y, s r = some y ∧ w = entry.speed + y) ∧
      v - w < 1 / 2 ^ 52 ∧ w - v < 1 / 2 ^ 52 := by
  unfold reaches
  rw [List.all_eq_true]
  refine forall_congr' fun o => forall_congr' fun _ => ?_
  rw [equalTo_some]
  refine exists_congr fun v => exists_congr fun w => and_congr_right fun _ => ?_
  refine and_congr_left fun _ => ?_
  cases reference with
  | none => simp only [Option.some.injEq]; exact eq_comm
  | some r =>
    simp only [Option.map_eq_some_iff]
    exact ⟨fun ⟨y, h, e⟩ => ⟨y, h, e.symm⟩, fun ⟨y, h, e⟩ => ⟨y, h, e.symm⟩⟩

/-- `run` for one actor, over the frames. -/
def profileOne (reference : Option Obj) (e : Entity) : Nat → List Entry → List Speeds → List Entry × List Request
  | _, l, [] => (l, [])
  | n, l, s :: ss =>
    let x := profileRun reference s n e l
    let y := profileOne reference e (n + 1) x.1 ss
    (y.1, x.2 ++ y.2)

theorem profileRun_actor (reference : Option Obj) (s : Speeds) (n : Nat) (e : Entity) (l : List Entry) :
    ∀ r ∈ (profileRun reference s n e l).2, r.actor = e := by
  unfold profileRun
  split
  · simp
  · split
    · split <;> simp
    · simp

theorem profileRunAll_fst (reference : Option Obj) (s : Speeds) (n : Nat) : ∀ l : List (Entity × List Entry),
    (profileRunAll reference s n l).1 = l.map fun x => (x.1, (profileRun reference s n x.1 x.2).1)
  | [] => rfl
  | x :: r => by simp [profileRunAll, profileRunAll_fst reference s n r]

theorem profileRunAll_snd (reference : Option Obj) (s : Speeds) (n : Nat) : ∀ l : List (Entity × List Entry),
    (profileRunAll reference s n l).2 = l.flatMap fun x => (profileRun reference s n x.1 x.2).2
  | [] => rfl
  | x :: r => by simp [profileRunAll, profileRunAll_snd reference s n r]

theorem filter_flatMap_actor (f : Entity × List Entry → List Request) (hf : ∀ x, ∀ r ∈ f x, r.actor = x.1) (e : Entity) :
    ∀ l : List (Entity × List Entry), (l.map Prod.fst).Nodup → ∀ entries, (e, entries) ∈ l →
      (l.flatMap f).filter (fun r => r.actor = e) = f (e, entries)
  | [], _, _, h => by simp at h
  | x :: r, hd, entries, h => by
    simp only [List.map_cons, List.nodup_cons] at hd
    rw [List.flatMap_cons, List.filter_append]
    rcases List.mem_cons.mp h with rfl | h
    · rw [List.filter_eq_self.mpr (fun a ha => by simpa using hf _ a ha)]
      rw [List.filter_eq_nil_iff.mpr, List.append_nil]
      intro a ha
      rw [List.mem_flatMap] at ha
      obtain ⟨y, hy, ha⟩ := ha
      have := hf y a ha
      intro hc
      simp only [decide_eq_true_eq] at hc
      exact hd.1 (List.mem_map.mpr ⟨y, hy, by rw [← this, hc]⟩)
    · rw [List.filter_eq_nil_iff.mpr, List.nil_append, filter_flatMap_actor f hf e r hd.2 entries h]
      intro a ha hc
      simp only [decide_eq_true_eq] at hc
      have := hf x a ha
      exact hd.1 (List.mem_map.mpr ⟨(e, entries), h, by rw [← this, hc]⟩)

theorem profileFrames_eq (reference : Option Obj) : ∀ (ss : List Speeds) (n : Nat) (l : List (Entity × List Entry)),
    (l.map Prod.fst).Nodup →
    (profileFrames reference n l ss).1 = l.map (fun x => (x.1, (profileOne reference x.1 n x.2 ss).1)) ∧
      ∀ e entries, (e, entries) ∈ l →
        (profileFrames reference n l ss).2.filter (fun r => r.actor = e) = (profileOne reference e n entries ss).2
  | [], n, l, _ => by simp [profileFrames, profileOne]
  | s :: ss, n, l, hd => by
    have hd' : (((profileRunAll reference s n l).1).map Prod.fst).Nodup := by
      rw [profileRunAll_fst, List.map_map]
      exact hd
    have ih := profileFrames_eq reference ss (n + 1) (profileRunAll reference s n l).1 hd'
    constructor
    · simp only [profileFrames, profileOne]
      rw [ih.1, profileRunAll_fst, List.map_map]
      rfl
    · intro e entries he
      simp only [profileFrames, profileOne]
      rw [List.filter_append, ih.2 e (profileRun reference s n e entries).1 (by
        rw [profileRunAll_fst]
        exact List.mem_map.mpr ⟨(e, entries), he, rfl⟩)]
      rw [profileRunAll_snd, filter_flatMap_actor (fun x => (profileRun reference s n x.1 x.2).2)
        (fun x => profileRun_actor reference s n x.1 x.2) e l hd entries he]

/-- The requests that follow from the times at which entries were reached. -/
def requestsAt (e : Entity) : List Nat → List Entry → List Request
  | [], _ => []
  | _ :: _, [] => []
  | t :: ts, x :: xs => ⟨t, e, x⟩ :: requestsAt e ts xs

theorem passes_imp {R R' : Nat → Entry → Prop} {n n' a a' : Nat} {l : List Entry} {ts : List Nat}
    (h : ∀ m x, R m x ↔ R' m x) (hn : n = n') (ha : a = a') : Passes R n a l ts ↔ Passes R' n' a' l ts := by
  subst hn ha
  have : R = R' := by funext m x; exact propext (h m x)
  rw [this]

theorem profileOne_passes (reference : Option Obj) (e : Entity) (all : List Speeds) :
    ∀ (ss : List Speeds) (n : Nat) (l : List Entry), all.drop n = ss → n + ss.length = all.length →
      ∃ times, Passes (HasSpeed reference all e) all.length n l times ∧
        (profileOne reference e n l ss).1 = l.drop times.length ∧
        (profileOne reference e n l ss).2 = requestsAt e times l.tail
  | [], n, l, _, hn => by
    refine ⟨[], ?_, rfl, rfl⟩
    simp only [List.length_nil, Nat.add_zero] at hn
    cases l with
    | nil => exact .finished
    | cons x l => exact .waiting fun m h1 h2 => by omega
  | s :: ss, n, l, hd, hn => by
    have hs : all[n]? = some s := by
      have : (all.drop n)[0]? = some s := by rw [hd]; rfl
      simpa using this
    have hd' : all.drop (n + 1) = ss := by
      rw [← List.drop_drop, hd]; rfl
    have hn' : n + 1 + ss.length = all.length := by simp only [List.length_cons] at hn; omega
    cases l with
    | nil =>
      obtain ⟨ts, h1, h2, h3⟩ := profileOne_passes reference e all ss (n + 1) [] hd' hn'
      cases h1
      exact ⟨[], .finished, by simpa [profileOne, profileRun] using h2, by simpa [profileOne, profileRun] using h3⟩
    | cons x l =>
      by_cases hx : reaches reference s e x = true
      · have hsp : HasSpeed reference all e n x := ⟨s, hs, (reaches_iff reference s e x).mp hx⟩
        obtain ⟨ts, h1, h2, h3⟩ := profileOne_passes reference e all ss (n + 1) l hd' hn'
        refine ⟨n :: ts, .next (Nat.le_refl n) (by omega) hsp (fun k h1 h2 => by omega) h1, ?_, ?_⟩
        · simp only [profileOne, profileRun, hx, if_true, List.length_cons, List.drop_succ_cons]
          cases l with
          | nil => exact h2
          | cons y l => exact h2
        · simp only [profileOne, profileRun, hx, if_true, List.tail_cons]
          cases l with
          | nil => simp only [List.nil_append, requestsAt]; rw [h3]; cases ts <;> rfl
          | cons y l => simp only [requestsAt, List.cons_append, List.nil_append]; rw [h3]; rfl
      · have hsp : ¬ HasSpeed reference all e n x := by
          rintro ⟨s', hs', h⟩
          rw [hs] at hs'
          cases hs'
          exact hx ((reaches_iff reference s e x).mpr h)
        obtain ⟨ts, h1, h2, h3⟩ := profileOne_passes reference e all ss (n + 1) (x :: l) hd' hn'
        have e1 : profileOne reference e n (x :: l) (s :: ss) = profileOne reference e (n + 1) (x :: l) ss := by
          simp only [profileOne, profileRun, hx, if_false, List.nil_append, Bool.false_eq_true]
        refine ⟨ts, ?_, by rw [e1, h2], by rw [e1, h3]⟩
        cases h1 with
        | waiting hw =>
          refine .waiting fun m hm1 hm2 => ?_
          by_cases hmn : m = n
          · rw [hmn]; exact hsp
          · exact hw m (by omega) hm2
        | next ha hm hr hb ht =>
          refine .next (by omega) hm hr (fun k hk1 hk2 => ?_) ht
          by_cases hmn : k = n
          · rw [hmn]; exact hsp
          · exact hb k (by omega) hk2

theorem requestsAt_eq (e : Entity) : ∀ (ts : List Nat) (xs : List Entry),
    requestsAt e ts xs = List.zipWith (fun t x => ⟨t, e, x⟩) ts xs
  | [], _ => rfl
  | _ :: _, [] => rfl
  | t :: ts, x :: xs => by simp [requestsAt, requestsAt_eq e ts xs]

theorem Passes.length_le {R : Nat → Entry → Prop} {n a : Nat} {l : List Entry} {ts : List Nat} (h : Passes R n a l ts) :
    ts.length ≤ l.length := by
  induction h with
  | finished => exact Nat.le_refl 0
  | waiting => exact Nat.zero_le _
  | next _ _ _ _ _ ih => simpa using ih

theorem Passes.unique {R : Nat → Entry → Prop} {n a : Nat} {l : List Entry} {ts ts' : List Nat}
    (h : Passes R n a l ts) (h' : Passes R n a l ts') : ts = ts' := by
  induction h generalizing ts' with
  | finished => cases h'; rfl
  | waiting hw =>
    cases h' with
    | waiting => rfl
    | next h1 h2 h3 h4 h5 => exact (hw _ h1 h2 h3).elim
  | @next a m e l times h1 h2 h3 h4 h5 ih =>
    cases h' with
    | waiting hw => exact (hw _ h1 h2 h3).elim
    | @next _ m' _ _ times' k1 k2 k3 k4 k5 =>
      have hm : m = m' := by
        rcases Nat.lt_trichotomy m m' with h | h | h
        · exact (k4 m h1 h h3).elim
        · exact h
        · exact (h4 m' k1 h k3).elim
      subst hm
      rw [ih k5]

theorem Passes.congr {R R' : Nat → Entry → Prop} {n a : Nat} {l : List Entry} {ts : List Nat}
    (h : ∀ m x, m < n → (R m x ↔ R' m x)) (hp : Passes R n a l ts) : Passes R' n a l ts := by
  induction hp with
  | finished => exact .finished
  | waiting hw => exact .waiting fun m h1 h2 hc => hw m h1 h2 ((h m _ h2).mpr hc)
  | next h1 h2 h3 h4 _ ih =>
    exact .next h1 h2 ((h _ _ h2).mp h3) (fun k k1 k2 hc => h4 k k1 k2 ((h k _ (by omega)).mpr hc)) ih

theorem hasSpeed_take (reference : Option Obj) (frames : List Speeds) (e : Entity) (k m : Nat) (x : Entry) (h : m < k) :
    HasSpeed reference (frames.take k) e m x ↔ HasSpeed reference frames e m x := by
  unfold HasSpeed
  rw [List.getElem?_take, if_pos h]

theorem profileFrames_take (reference : Option Obj) : ∀ (ss : List Speeds) (n m : Nat) (l : List (Entity × List Entry)),
    profileEndsFrom reference n l ss = some m ↔
      ∃ k, m = n + k ∧ k < ss.length ∧
        First (fun j => profileAccomplished (profileFrames reference n l (ss.take (j + 1))).1 = true) k
  | [], n, m, l => by simp [profileEndsFrom]
  | s :: ss, n, m, l => by
    rw [profileEndsFrom]
    have h0 : (profileFrames reference n l ((s :: ss).take (0 + 1))).1 = (profileRunAll reference s n l).1 := by
      simp [profileFrames]
    have hs : ∀ j, (profileFrames reference n l ((s :: ss).take (j + 1 + 1))).1 =
        (profileFrames reference (n + 1) (profileRunAll reference s n l).1 (ss.take (j + 1))).1 := by
      intro j
      rw [List.take_succ_cons]
      simp [profileFrames]
    have ih := profileFrames_take reference ss (n + 1) m (profileRunAll reference s n l).1
    by_cases ha : profileAccomplished (profileRunAll reference s n l).1 = true
    · simp only [ha, if_true, Option.some.injEq]
      constructor
      · rintro rfl
        exact ⟨0, rfl, by simp, by simpa only [h0] using ha, fun j hj => by omega⟩
      · rintro ⟨k, rfl, _, _, h2⟩
        cases k with
        | zero => rfl
        | succ k =>
          exact (h2 0 (by omega) ((congrArg (fun x => profileAccomplished x = true) h0).mpr ha)).elim
    · simp only [ha, if_false, Bool.false_eq_true]
      rw [ih]
      constructor
      · rintro ⟨k, rfl, hk, h1, h2⟩
        refine ⟨k + 1, by omega, by simp only [List.length_cons]; omega, (congrArg (fun x => profileAccomplished x = true) (hs k)).mpr h1, fun j hj hc => ?_⟩
        cases j with
        | zero => rw [h0] at hc; exact ha hc
        | succ j => rw [hs] at hc; exact h2 j (by omega) hc
      · rintro ⟨k, rfl, hk, h1, h2⟩
        cases k with
        | zero => rw [h0] at h1; exact (ha h1).elim
        | succ k =>
          refine ⟨k, by omega, by simp only [List.length_cons] at hk; omega, by rw [hs] at h1; exact h1, fun j hj hc => ?_⟩
          exact h2 (j + 1) (by omega) ((congrArg (fun x => profileAccomplished x = true) (hs j)).mpr hc)

theorem profileStart_nodup {entries : List Entry} {order : List Entity} (h : order.Nodup) :
    ((profileStart entries order).map Prod.fst).Nodup := by
  rw [profileStart, List.map_map, show (Prod.fst ∘ fun e : Entity => (e, entries)) = id from rfl, List.map_id]
  exact h

theorem profileAccomplished_iff (reference : Option Obj) (entries : List Entry) {order : List Entity} (ho : order.Nodup)
    (frames : List Speeds) :
    profileAccomplished (profileFrames reference 0 (profileStart entries order) frames).1 = true ↔
      ∀ e ∈ order, Completed (HasSpeed reference frames e) entries frames.length := by
  rw [(profileFrames_eq reference frames 0 _ (profileStart_nodup ho)).1]
  unfold profileAccomplished
  rw [List.all_eq_true]
  simp only [profileStart, List.map_map, List.mem_map, Function.comp]
  constructor
  · intro h e he
    have := h _ ⟨e, he, rfl⟩
    obtain ⟨ts, h1, h2, h3⟩ := profileOne_passes reference e frames frames 0 entries rfl (by simp)
    simp only [h2, List.isEmpty_iff, List.drop_eq_nil_iff] at this
    exact ⟨ts, h1, Nat.le_antisymm h1.length_le this⟩
  · rintro h x ⟨e, he, rfl⟩
    obtain ⟨ts', k1, k2⟩ := h e he
    obtain ⟨ts, h1, h2, h3⟩ := profileOne_passes reference e frames frames 0 entries rfl (by simp)
    rw [Passes.unique k1 h1] at k2
    simp [h2, k2]

/-! ### Trajectories -/

theorem foldl_applyTrajectory {P : Type} (pose : Obj → P) (before : List (List (Vertex P))) :
    ∀ (os : List Obj) (w : List (Vertex P)) (f : Obj → Option Nat),
      os.foldl (applyTrajectory pose before.length) { trajectories := before ++ [w], follows := f } =
        { trajectories := before ++ [(os.map fun o => ⟨none, pose o⟩).reverse ++ w],
          follows := fun x => if x ∈ os then some before.length else f x }
  | [], w, f => by simp
  | o :: os, w, f => by
    have h : applyTrajectory pose before.length { trajectories := before ++ [w], follows := f } o =
        { trajectories := before ++ [⟨none, pose o⟩ :: w],
          follows := fun x => if x = o then some before.length else f x } := by
      simp only [applyTrajectory, Memory.mk.injEq, and_true]
      apply List.ext_getElem?
      intro i
      rw [List.getElem?_modify]
      rcases Nat.lt_trichotomy i before.length with h | h | h
      · rw [List.getElem?_append_left h, List.getElem?_append_left h]
        simp [show before.length ≠ i by omega]
      · subst h; simp
      · rw [List.getElem?_eq_none (by simp; omega), List.getElem?_eq_none (by simp; omega)]
        rfl
    rw [List.foldl_cons, h, foldl_applyTrajectory pose before os]
    simp only [Memory.mk.injEq, List.map_cons, List.reverse_cons, List.append_assoc, List.cons_append, List.nil_append,
      true_and, List.mem_cons]
    funext x
    by_cases h1 : x ∈ os <;> by_cases h2 : x = o <;> simp [h1, h2]

theorem startTrajectory_eq {P : Type} (pose : Obj → P) (w : List (Vertex P)) (m : Memory P) (e : Entity) :
    startTrajectory pose w m e =
      { trajectories := m.trajectories ++ [(e.objects.map fun o => ⟨none, pose o⟩).reverse ++ w],
        follows := fun x => if x ∈ e.objects then some m.trajectories.length else m.follows x } := by
  rw [startTrajectory, foldl_applyTrajectory]

theorem foldl_startTrajectory_keeps {P : Type} (pose : Obj → P) (w : List (Vertex P)) (o : Obj) :
    ∀ (actors : List Entity) (m : Memory P), (∀ e ∈ actors, o ∉ e.objects) → ∀ t, m.trajectoryOf o = some t →
      (actors.foldl (startTrajectory pose w) m).trajectoryOf o = some t
  | [], m, _, t, h => h
  | e :: actors, m, hn, t, h => by
    rw [List.foldl_cons]
    refine foldl_startTrajectory_keeps pose w o actors _ (fun x hx => hn x (List.mem_cons_of_mem _ hx)) t ?_
    rw [startTrajectory_eq, Memory.trajectoryOf]
    have : o ∉ e.objects := hn e List.mem_cons_self
    simp only [this, if_false]
    rw [Memory.trajectoryOf] at h
    rw [Option.bind_eq_some_iff] at h ⊢
    obtain ⟨i, h1, h2⟩ := h
    refine ⟨i, h1, ?_⟩
    have hi : i < m.trajectories.length := by
      rcases Nat.lt_or_ge i m.trajectories.length with hi | hi
      · exact hi
      · rw [List.getElem?_eq_none hi] at h2; cases h2
    rw [List.getElem?_append_left hi]
    exact h2

theorem foldl_startTrajectory {P : Type} (pose : Obj → P) (w : List (Vertex P)) :
    ∀ (actors : List Entity) (m : Memory P), Disjoint actors → ∀ e ∈ actors, ∀ o ∈ e.objects,
      (actors.foldl (startTrajectory pose w) m).trajectoryOf o =
        some ((e.objects.map fun o => ⟨none, pose o⟩).reverse ++ w)
  | [], _, _, e, he, _, _ => by simp at he
  | a :: actors, m, hd, e, he, o, ho => by
    rw [Disjoint, List.flatMap_cons, List.nodup_append] at hd
    rw [List.foldl_cons]
    rcases List.mem_cons.mp he with rfl | he
    · refine foldl_startTrajectory_keeps pose w o actors _ (fun x hx hc => ?_) _ ?_
      · exact hd.2.2 o ho o (List.mem_flatMap.mpr ⟨x, hx, hc⟩) rfl
      · rw [startTrajectory_eq, Memory.trajectoryOf]
        simp [ho]
    · exact foldl_startTrajectory pose w actors _ hd.2.1 e he o ho

end Verif.Action
