import Verif.Signal.Spec
/-
The controllers alone: what an operation that ends normally does to the controllers and the log.
-/
namespace Verif.Signal
set_option linter.unusedSectionVars false
open Light

variable {T : Type} [Time T] {m : RoadMap} {prog : List (Decl T)}

abbrev Core (T : Type) := (Nat → Ctl T) × List (Event T)

/-- The controllers after controller `i` changed to `next`. -/
def changed (prog : List (Decl T)) (i : Nat) (d : Decl T) (next : Option Nat) (now : T)
    (ctl : Nat → Ctl T) : Nat → Ctl T :=
  let c := if next = d.begin then notifyObservers prog i now ctl else ctl
  upd c i { c i with startedAt := now, current := next }

inductive Step (prog : List (Decl T)) : Core T → Core T → Prop
  | quiet {ctl log} (i d now) (hd : prog[i]? = some d) (h1 : (shouldBegin d (ctl i) now).1 = false)
      (h2 : exceeded d (ctl i) now = false) : Step prog (ctl, log) (ctl, .evaluated i now :: log)
  | start {ctl log} (i d now) (hd : prog[i]? = some d) (h1 : (shouldBegin d (ctl i) now).1 = true) :
      Step prog (ctl, log) (changed prog i d d.begin now (upd ctl i (shouldBegin d (ctl i) now).2),
        .entered i d.begin now :: .evaluated i now :: log)
  | next {ctl log} (i d now) (hd : prog[i]? = some d) (h1 : (shouldBegin d (ctl i) now).1 = false)
      (h2 : exceeded d (ctl i) now = true) :
      Step prog (ctl, log) (changed prog i d (circularNext d.phases.length (ctl i).current) now ctl,
        .entered i (circularNext d.phases.length (ctl i).current) now :: .evaluated i now :: log)
  | command {ctl log} (i d p now) (hd : prog[i]? = some d) (hp : p < d.phases.length) :
      Step prog (ctl, log) (changed prog i d (some p) now ctl,
        .entered i (some p) now :: .commanded i now :: log)

inductive Steps (prog : List (Decl T)) : Core T → Core T → Prop
  | refl (c) : Steps prog c c
  | tail {a b c} : Steps prog a b → Step prog b c → Steps prog a c

theorem Steps.trans {a b c : Core T} (h : Steps prog a b) (h' : Steps prog b c) : Steps prog a c := by
  induction h' with
  | refl => exact h
  | tail _ s ih => exact ih.tail s

def core (w : World T) : Core T := (w.ctl, w.log)

theorem withLights_ok {f : Lights → Lights × Bool} {k : World T → World T × Out} {w : World T}
    (h : (withLights f k w).2 = .ok) :
    (f w.lights).2 = true ∧ withLights f k w = k { w with lights := (f w.lights).1 } := by
  unfold withLights at h ⊢
  dsimp only at h ⊢
  split
  · rename_i e; exact ⟨e, rfl⟩
  · rename_i e; rw [if_neg e] at h; cases h

theorem enterPhase_core {i d next now} {w : World T} (h : (enterPhase m i d next now w).2 = .ok) :
    core (enterPhase m i d next now w).1 =
      (upd w.ctl i { w.ctl i with startedAt := now, current := next }, w.log) := by
  unfold enterPhase at h ⊢
  dsimp only at h ⊢
  revert h
  split
  · intro h; cases h
  · intro h
    rw [(withLights_ok h).2]; rfl

theorem changePhaseTo_core {i d next now} {w : World T}
    (h : (changePhaseTo m prog i d next now w).2 = .ok) :
    core (changePhaseTo m prog i d next now w).1 =
      (changed prog i d next now w.ctl, .entered i next now :: w.log) := by
  have h1 := withLights_ok h
  have h2 : changePhaseTo m prog i d next now w = _ := h1.2
  rw [h2] at h ⊢
  rw [enterPhase_core h]; rfl

theorem upd_self {α} (f : Id → α) (i : Id) : upd f i (f i) = f := by
  funext j; simp only [upd]; split
  · rename_i e; rw [e]
  · rfl

theorem shouldBegin_false {d : Decl T} {c : Ctl T} {now : T} (h : (shouldBegin d c now).1 = false) :
    (shouldBegin d c now).2 = c := by
  unfold shouldBegin at h ⊢
  split
  · rfl
  · split
    · split
      · rename_i e1 _ _ e2 e3; simp [e1, e2, e3] at h
      · rfl
    · rfl

theorem evaluate_core {i d now} {w : World T} (hd : prog[i]? = some d)
    (h : (evaluate m prog i d now w).2 = .ok) :
    Step prog (core w) (core (evaluate m prog i d now w).1) := by
  unfold evaluate at h ⊢
  dsimp only at h ⊢
  by_cases h1 : (shouldBegin d (w.ctl i) now).1 = true
  · rw [if_pos h1] at h ⊢
    rw [changePhaseTo_core h]
    exact .start i d now hd h1
  · have h1' : (shouldBegin d (w.ctl i) now).1 = false := by simpa using h1
    rw [if_neg h1] at h ⊢
    have e := shouldBegin_false h1'
    rw [e, upd_self] at h ⊢
    by_cases h2 : exceeded d (w.ctl i) now = true
    · rw [if_pos h2] at h ⊢
      rw [changePhaseTo_core h]
      exact .next i d now hd h1' h2
    · rw [if_neg h2] at h ⊢
      exact .quiet i d now hd h1' (by simpa using h2)

theorem evaluateFrom_core {now : T} (ds : List (Decl T)) (i : Nat) {w : World T}
    (hds : ∀ k, ds[k]? = prog[i + k]?)
    (h : (evaluateFrom m prog now i ds w).2 = .ok) :
    Steps prog (core w) (core (evaluateFrom m prog now i ds w).1) := by
  induction ds generalizing i w with
  | nil => exact .refl _
  | cons d ds ih =>
    unfold evaluateFrom at h ⊢
    dsimp only at h ⊢
    have h0 : prog[i]? = some d := by have := hds 0; simpa using this.symm
    by_cases h1 : (evaluate m prog i d now w).2 = .ok
    · rw [if_pos h1] at h ⊢
      refine Steps.trans ((Steps.refl _).tail (evaluate_core h0 h1)) (ih (i + 1) ?_ h)
      intro k
      have := hds (k + 1)
      rw [List.getElem?_cons_succ] at this
      rw [this]; congr 1; omega
    · rw [if_neg h1] at h; exact absurd h h1

theorem apply_core {o : Op T} {w : World T} (h : (o.apply m prog w).2 = .ok) :
    Steps prog (core w) (core (o.apply m prog w).1) := by
  cases o with
  | tick now => exact evaluateFrom_core prog 0 (fun k => by simp) h
  | lights l => exact .refl _
  | action i name now =>
    simp only [Op.apply, changePhaseByName] at h ⊢
    revert h
    split
    · intro h; cases h
    · rename_i d hd
      split
      · intro h; cases h
      · rename_i p hp
        intro h
        rw [changePhaseTo_core h]
        refine (Steps.refl _).tail (.command i d p now hd ?_)
        exact (List.findIdx?_eq_some_iff_findIdx_eq.1 hp).1

theorem run_core {os : List (Op T)} {w w' : World T} (h : run m prog os w = some w') :
    Steps prog (core w) (core w') := by
  induction os generalizing w with
  | nil => cases h; exact .refl _
  | cons o os ih =>
    simp only [run] at h
    split at h
    · rename_i ho; exact (apply_core ho).trans (ih h)
    · cases h

/-! ### The current phase and the pending begin follow from the log -/

/-- The pending begin of controller `i` with reference `j` and delay `d`. -/
def pend (i j : Nat) (d : T) : List (Event T) → Option T
  | [] => none
  | .entered k p b :: r => if k = j ∧ p = some 0 then some (Time.add b d) else pend i j d r
  | .evaluated k t :: r =>
    if k = i then (pend i j d r).bind fun x => if Time.lt x t then none else some x else pend i j d r
  | .commanded _ _ :: r => pend i j d r

theorem pend_iff {i j : Nat} {d x : T} (log : List (Event T)) : pend i j d log = some x ↔
    ∃ newer older b, log = newer ++ .entered j (some 0) b :: older ∧
      (∀ s, Event.entered j (some 0) s ∉ newer) ∧ x = Time.add b d ∧
      ∀ s, Event.evaluated i s ∈ newer → Time.lt x s = false := by
  induction log with
  | nil => simp [pend]
  | cons e log ih =>
    have lift : ∀ e : Event T, (∀ s, e ≠ .entered j (some 0) s) →
        ((∃ newer older b, e :: log = newer ++ .entered j (some 0) b :: older ∧
          (∀ s, Event.entered j (some 0) s ∉ newer) ∧ x = Time.add b d ∧
          ∀ s, Event.evaluated i s ∈ newer → Time.lt x s = false) ↔
        (pend i j d log = some x ∧ ∀ s, e = .evaluated i s → Time.lt x s = false)) := by
      intro e he
      rw [ih]
      constructor
      · rintro ⟨newer, older, b, h1, h2, h3, h4⟩
        cases newer with
        | nil => simp only [List.nil_append, List.cons.injEq] at h1; exact absurd h1.1 (he b)
        | cons e' newer =>
          simp only [List.cons_append, List.cons.injEq] at h1
          refine ⟨⟨newer, older, b, h1.2, fun s hs => h2 s (List.mem_cons_of_mem _ hs), h3,
            fun s hs => h4 s (List.mem_cons_of_mem _ hs)⟩, fun s hs => h4 s ?_⟩
          rw [← h1.1, hs]; exact List.mem_cons_self
      · rintro ⟨⟨newer, older, b, h1, h2, h3, h4⟩, h5⟩
        refine ⟨e :: newer, older, b, by rw [h1]; rfl, ?_, h3, ?_⟩
        · intro s hs
          rcases List.mem_cons.1 hs with hs | hs
          · exact he s hs.symm
          · exact h2 s hs
        · intro s hs
          rcases List.mem_cons.1 hs with hs | hs
          · exact h5 s hs.symm
          · exact h4 s hs
    cases e with
    | entered k p b =>
      by_cases hk : k = j ∧ p = some 0
      · obtain ⟨rfl, rfl⟩ := hk
        simp only [pend, and_self, if_true, Option.some.injEq]
        constructor
        · rintro rfl; exact ⟨[], log, b, rfl, by simp, rfl, by simp⟩
        · rintro ⟨newer, older, b', h1, h2, h3, -⟩
          cases newer with
          | nil =>
            simp only [List.nil_append, List.cons.injEq, Event.entered.injEq, true_and] at h1
            rw [h3, h1.1]
          | cons e' newer =>
            simp only [List.cons_append, List.cons.injEq] at h1
            exact absurd (by rw [← h1.1]; exact List.mem_cons_self) (h2 b)
      · rw [lift _ (by rintro s ⟨rfl, rfl⟩; exact hk ⟨rfl, rfl⟩)]
        simp [pend, hk]
    | evaluated k t =>
      rw [lift _ (by simp)]
      by_cases hk : k = i
      · subst hk
        cases hp : pend k j d log with
        | none => simp [pend, hp]
        | some y =>
          simp only [pend, hp, if_true, Option.bind_some]
          cases hl : Time.lt y t with
          | true =>
            simp only [if_true, Option.some.injEq, Event.evaluated.injEq, true_and]
            constructor
            · rintro ⟨⟩
            · rintro ⟨rfl, h⟩; rw [h t rfl] at hl; cases hl
          | false =>
            simp only [Bool.false_eq_true, if_false, Option.some.injEq, Event.evaluated.injEq, true_and]
            constructor
            · rintro rfl; exact ⟨rfl, by rintro s rfl; exact hl⟩
            · exact fun h => h.1
      · have hk' : ∀ s, Event.evaluated k t ≠ Event.evaluated i s := by
          intro s hs; cases hs; exact hk rfl
        simp [pend, hk]
    | commanded k t =>
      rw [lift _ (by simp)]
      simp [pend]

theorem due_iff {i j : Nat} {d t : T} {log : List (Event T)} :
    Due i j d log t ↔ ∃ x, pend i j d log = some x ∧ Time.lt x t = true := by
  constructor
  · rintro ⟨newer, older, b, h1, h2, h3, h4⟩
    exact ⟨_, (pend_iff log).2 ⟨newer, older, b, h1, h2, rfl, h4⟩, h3⟩
  · rintro ⟨x, h, hx⟩
    obtain ⟨newer, older, b, h1, h2, rfl, h4⟩ := (pend_iff log).1 h
    exact ⟨newer, older, b, h1, h2, hx, h4⟩

/-- The latest change of controller `i`. -/
def last (i : Nat) : List (Event T) → Option (Option Nat × T)
  | [] => none
  | .entered k p b :: r => if k = i then some (p, b) else last i r
  | _ :: r => last i r

theorem noEntry_of_last {i : Nat} {log : List (Event T)} : NoEntry i log ↔ last i log = none := by
  induction log with
  | nil => simp [NoEntry, last]
  | cons e log ih =>
    cases e with
    | entered k p b =>
      simp only [NoEntry, List.mem_cons, not_or, last] at ih ⊢
      by_cases hk : k = i
      · subst hk; simp only [if_true, reduceCtorEq, iff_false]; intro h; exact (h p b).1 rfl
      · rw [if_neg hk, ← ih]
        exact ⟨fun h q s => (h q s).2, fun h q s => ⟨fun hc => by cases hc; exact hk rfl, h q s⟩⟩
    | evaluated k t => simpa [NoEntry, last] using ih
    | commanded k t => simpa [NoEntry, last] using ih

theorem lastEntry_iff {i : Nat} {p : Option Nat} {t : T} (log : List (Event T)) :
    LastEntry i log p t ↔ last i log = some (p, t) := by
  induction log with
  | nil => simp [LastEntry, last]
  | cons e log ih =>
    have lift : (∀ q s, e ≠ .entered i q s) → (LastEntry i (e :: log) p t ↔ LastEntry i log p t) := by
      intro he
      constructor
      · rintro ⟨newer, older, h1, h2⟩
        cases newer with
        | nil => simp only [List.nil_append, List.cons.injEq] at h1; exact absurd h1.1 (he _ _)
        | cons e' newer =>
          simp only [List.cons_append, List.cons.injEq] at h1
          exact ⟨newer, older, h1.2, fun q s hs => h2 q s (List.mem_cons_of_mem _ hs)⟩
      · rintro ⟨newer, older, h1, h2⟩
        refine ⟨e :: newer, older, by rw [h1]; rfl, fun q s hs => ?_⟩
        rcases List.mem_cons.1 hs with hs | hs
        · exact he _ _ hs.symm
        · exact h2 q s hs
    cases e with
    | entered k q b =>
      by_cases hk : k = i
      · subst hk
        simp only [last, if_true, Option.some.injEq, Prod.mk.injEq]
        constructor
        · rintro ⟨newer, older, h1, h2⟩
          cases newer with
          | nil =>
            simp only [List.nil_append, List.cons.injEq, Event.entered.injEq, true_and] at h1
            exact h1.1
          | cons e' newer =>
            simp only [List.cons_append, List.cons.injEq] at h1
            exact absurd (by rw [← h1.1]; exact List.mem_cons_self) (h2 q b)
        · rintro ⟨rfl, rfl⟩; exact ⟨[], log, rfl, by simp⟩
      · rw [lift (by rintro _ _ ⟨rfl, rfl⟩; exact hk rfl), ih]; simp [last, hk]
    | evaluated k s => rw [lift (by simp), ih]; simp [last]
    | commanded k s => rw [lift (by simp), ih]; simp [last]

/-- How an evaluation of controller `i` has to be answered. -/
structure Reaction (i : Nat) (d : Decl T) (newer older : List (Event T)) (t : T) : Prop where
  due : ∀ j, d.reference = some j → Due i j d.delay older t → Changes newer i d.begin t
  first : d.reference = none → NoEntry i older → Changes newer i d.begin t
  wait : ∀ j, d.reference = some j → ¬ Due i j d.delay older t → NoEntry i older → NoChange newer
  go : (∀ j, d.reference = some j → ¬ Due i j d.delay older t) → ∀ q ph s,
    LastEntry i older (some q) s → d.phases[q]? = some ph → Time.le ph.duration (Time.sub t s) = true →
    Changes newer i (some ((q + 1) % d.phases.length)) t
  stay : (∀ j, d.reference = some j → ¬ Due i j d.delay older t) → ∀ q ph s,
    LastEntry i older (some q) s → d.phases[q]? = some ph → Time.le ph.duration (Time.sub t s) = false →
    NoChange newer

structure Inv (i : Nat) (d : Decl T) (c : Core T) : Prop where
  cur : (c.1 i).current = (last i c.2).bind Prod.fst
  since : ∀ p s, last i c.2 = some (p, s) → (c.1 i).startedAt = s
  valid : ∀ p s, Event.entered i p s ∈ c.2 → ∃ q, p = some q ∧ q < d.phases.length
  pending : ∀ j, d.reference = some j → (c.1 i).changeToBegin = pend i j d.delay c.2
  hist : ∀ newer older t, c.2 = newer ++ .evaluated i t :: older → Reaction i d newer older t

theorem Reaction.extend {i : Nat} {d : Decl T} {newer older : List (Event T)} {t : T}
    (h : Reaction i d newer older t) (more : List (Event T))
    (hm : ∀ rest i p t, more ≠ rest ++ [Event.entered i p t]) : Reaction i d (more ++ newer) older t := by
  have hc : ∀ p, Changes newer i p t → Changes (more ++ newer) i p t := by
    rintro p ⟨rest, rfl⟩; exact ⟨more ++ rest, by simp⟩
  have hn : NoChange newer → NoChange (more ++ newer) := by
    intro h rest k p s e
    rcases List.eq_nil_or_concat newer with rfl | ⟨r, x, rfl⟩
    · simp only [List.append_nil] at e; exact hm _ _ _ _ e
    · rw [List.concat_eq_append, ← List.append_assoc] at e
      have := List.append_inj' e rfl
      exact h r k p s (by rw [List.concat_eq_append, this.2])
  exact ⟨fun j h1 h2 => hc _ (h.due j h1 h2), fun h1 h2 => hc _ (h.first h1 h2),
    fun j h1 h2 h3 => hn (h.wait j h1 h2 h3), fun h1 q ph s h2 h3 h4 => hc _ (h.go h1 q ph s h2 h3 h4),
    fun h1 q ph s h2 h3 h4 => hn (h.stay h1 q ph s h2 h3 h4)⟩

theorem circularNext_eq {n q : Nat} (h : q < n) : circularNext n (some q) = some ((q + 1) % n) := by
  simp only [circularNext]
  by_cases e : q + 1 = n
  · rw [if_pos e, if_neg (by omega), e, Nat.mod_self]
  · rw [if_neg e, Nat.mod_eq_of_lt (by omega)]

theorem hist_block {i : Nat} {d : Decl T} {log : List (Event T)}
    (h : ∀ newer older t, log = newer ++ .evaluated i t :: older → Reaction i d newer older t)
    (a b : Event T) (hb : ∀ k p t, b ≠ .entered k p t)
    (hab : ∀ t, a ≠ .evaluated i t)
    (hr : ∀ t, b = .evaluated i t → Reaction i d [a] log t) :
    ∀ newer older t, a :: b :: log = newer ++ .evaluated i t :: older → Reaction i d newer older t := by
  intro newer older t e
  cases newer with
  | nil => simp only [List.nil_append, List.cons.injEq] at e; exact absurd e.1 (hab t)
  | cons x newer =>
    simp only [List.cons_append, List.cons.injEq] at e
    obtain ⟨rfl, e⟩ := e
    cases newer with
    | nil =>
      simp only [List.nil_append, List.cons.injEq] at e
      rw [← e.2]; exact hr t e.1
    | cons y newer =>
      simp only [List.cons_append, List.cons.injEq] at e
      obtain ⟨rfl, e⟩ := e
      refine (h newer older t e).extend [a, b] ?_
      intro rest k p s he
      have := List.append_inj' (s₁ := [a]) he rfl
      simp only [List.cons.injEq, and_true] at this
      exact hb _ _ _ this.2

theorem hist_quiet {i : Nat} {d : Decl T} {log : List (Event T)}
    (h : ∀ newer older t, log = newer ++ .evaluated i t :: older → Reaction i d newer older t)
    (b : Event T) (hb : ∀ k p t, b ≠ .entered k p t)
    (hr : ∀ t, b = .evaluated i t → Reaction i d [] log t) :
    ∀ newer older t, b :: log = newer ++ .evaluated i t :: older → Reaction i d newer older t := by
  intro newer older t e
  cases newer with
  | nil =>
    simp only [List.nil_append, List.cons.injEq] at e
    rw [← e.2]; exact hr t e.1
  | cons y newer =>
    simp only [List.cons_append, List.cons.injEq] at e
    obtain ⟨rfl, e⟩ := e
    refine (h newer older t e).extend [b] ?_
    intro rest k p s he
    have := List.append_inj' (s₁ := []) he rfl
    simp only [List.cons.injEq, and_true] at this
    exact hb _ _ _ this.2

theorem changed_other {i k : Nat} {d : Decl T} {next now} {ctl : Nat → Ctl T} (h : k ≠ i) :
    ((changed prog i d next now ctl) k).current = (ctl k).current ∧
    ((changed prog i d next now ctl) k).startedAt = (ctl k).startedAt := by
  simp only [changed, upd, h, if_false]
  split
  · simp only [notifyObservers]; split
    · split <;> exact ⟨rfl, rfl⟩
    · exact ⟨rfl, rfl⟩
  · exact ⟨rfl, rfl⟩

theorem changed_self {i : Nat} {d : Decl T} {next now} {ctl : Nat → Ctl T} :
    ((changed prog i d next now ctl) i).current = next ∧
    ((changed prog i d next now ctl) i).startedAt = now := by
  simp [changed, upd]

theorem changed_pending {i k j : Nat} {d e : Decl T} {next now} {ctl : Nat → Ctl T}
    (he : prog[k]? = some e) (hj : e.reference = some j) :
    ((changed prog i d next now ctl) k).changeToBegin =
      if i = j ∧ next = d.begin then some (Time.add now e.delay) else (ctl k).changeToBegin := by
  have base : ((if next = d.begin then notifyObservers prog i now ctl else ctl) k).changeToBegin =
      if i = j ∧ next = d.begin then some (Time.add now e.delay) else (ctl k).changeToBegin := by
    by_cases h1 : next = d.begin
    · simp only [if_pos h1, notifyObservers, he, hj, Option.some.injEq]
      by_cases h2 : j = i
      · simp [h1, h2]
      · have : ¬ i = j := fun h => h2 h.symm
        simp [h2, this]
    · simp [h1]
  simp only [changed, upd]
  split
  · rename_i hk; subst hk; exact base
  · exact base

theorem begin_some {d : Decl T} (h : d.phases ≠ []) : d.begin = some 0 := by
  simp only [Decl.begin]
  rw [if_neg (by simpa using h)]

theorem Inv.step {i : Nat} {d : Decl T} (hd : prog[i]? = some d) (hne : d.phases ≠ [])
    (href : ∀ j e, d.reference = some j → prog[j]? = some e → e.phases ≠ [])
    {a b : Core T} (h : Inv i d a) (s : Step prog a b) : Inv i d b := by
  have hlen : 0 < d.phases.length := List.length_pos_iff.2 hne
  have current_lt : ∀ ctl log, Inv i d (ctl, log) → ∀ q, (ctl i).current = some q →
      q < d.phases.length ∧ ∃ s, last i log = some (some q, s) ∧ (ctl i).startedAt = s := by
    intro ctl log h q hq
    have hc := h.cur
    dsimp only at hc
    rw [hq] at hc
    cases hl : last i log with
    | none => rw [hl] at hc; cases hc
    | some x =>
      obtain ⟨p, s⟩ := x
      rw [hl] at hc
      simp only [Option.bind_some] at hc
      subst hc
      obtain ⟨newer, older, e, -⟩ := (lastEntry_iff log).2 hl
      obtain ⟨q', hq', hlt⟩ := h.valid (some q) s (by dsimp only; rw [e]; simp)
      cases hq'
      exact ⟨hlt, s, rfl, h.since _ _ hl⟩
  cases s with
  | @quiet ctl log k e now hk h1 h2 =>
    by_cases hki : k = i
    · subst hki
      have : e = d := by rw [hd] at hk; exact (Option.some.inj hk).symm
      subst this
      refine ⟨h.cur, h.since, ?_, ?_, ?_⟩
      · intro p s hp
        simp only [List.mem_cons, reduceCtorEq, false_or] at hp
        exact h.valid p s hp
      · intro j hj
        have hp := h.pending j hj
        dsimp only at hp ⊢
        simp only [pend, if_true, ← hp]
        simp only [shouldBegin, hj] at h1
        cases hc : (ctl k).changeToBegin with
        | none => rfl
        | some x =>
          simp only [hc] at h1
          by_cases hx : Time.lt x now = true
          · simp [hx] at h1
          · simp [hx]
      · refine hist_quiet h.hist _ (by simp) ?_
        intro t ht
        simp only [Event.evaluated.injEq, true_and] at ht
        subst ht
        have nodue : ∀ j, e.reference = some j → ¬ Due k j e.delay log now := by
          intro j hj hdue
          obtain ⟨x, hx, hlt⟩ := due_iff.1 hdue
          have hp := h.pending j hj
          dsimp only at hp
          simp [shouldBegin, hj, hp, hx, hlt] at h1
        have nochange : NoChange ([] : List (Event T)) := by
          intro rest k p s hc; simp at hc
        refine ⟨fun j h3 h4 => absurd h4 (nodue j h3), ?_, fun _ _ _ _ => nochange, ?_, fun _ _ _ _ _ _ _ => nochange⟩
        · intro h3 h4
          have hc := h.cur
          dsimp only at hc
          rw [noEntry_of_last.1 h4] at hc
          simp [shouldBegin, h3, hc] at h1
        · intro _ q ph s h4 h5 h6
          have hl := (lastEntry_iff log).1 h4
          have hc := h.cur
          have hs := h.since _ _ hl
          dsimp only at hc hs
          rw [hl] at hc
          simp only [Option.bind_some] at hc
          simp [exceeded, Decl.phase?, hc, h5, hs, h6] at h2
    · refine ⟨?_, ?_, ?_, ?_, ?_⟩
      · exact h.cur
      · exact h.since
      · intro p s hp
        simp only [List.mem_cons, reduceCtorEq, false_or] at hp
        exact h.valid p s hp
      · intro j hj
        have hp := h.pending j hj
        simpa [pend, hki] using hp
      · refine hist_quiet h.hist _ (by simp) ?_
        intro t ht; simp only [Event.evaluated.injEq] at ht; exact absurd ht.1 hki
  | @start ctl log k e now hk h1 =>
    have hpend : ∀ j, d.reference = some j → ∀ c : Nat → Ctl T,
        ((changed prog k e e.begin now c) i).changeToBegin =
        if k = j ∧ e.begin = some 0 then some (Time.add now d.delay) else (c i).changeToBegin := by
      intro j hj c
      rw [changed_pending hd hj]
      by_cases hkj : k = j
      · subst hkj; simp [begin_some (href _ e hj hk)]
      · simp [hkj]
    by_cases hki : k = i
    · subst hki
      have : e = d := by rw [hd] at hk; exact (Option.some.inj hk).symm
      subst this
      refine ⟨?_, ?_, ?_, ?_, ?_⟩
      · simp [changed_self, last]
      · intro p s hl; simp only [last, if_true, Option.some.injEq, Prod.mk.injEq] at hl
        rw [← hl.2]; exact changed_self.2
      · intro p s hp
        simp only [List.mem_cons, reduceCtorEq, false_or, Event.entered.injEq, true_and] at hp
        rcases hp with ⟨rfl, -⟩ | hp
        · exact ⟨0, begin_some hne, hlen⟩
        · exact h.valid p s hp
      · intro j hj
        dsimp only
        rw [hpend j hj]
        simp only [pend]
        split
        · rfl
        · have hp := h.pending j hj
          dsimp only at hp
          simp only [upd, if_true, shouldBegin, hj] at h1 ⊢
          rw [hp] at h1 ⊢
          cases hx : pend k j e.delay log with
          | none => simp [hx] at h1
          | some x =>
            simp only [hx] at h1
            by_cases hl : Time.lt x now = true
            · simp [hl]
            · simp [hl] at h1
      · refine hist_block h.hist _ _ (by simp) (by simp) ?_
        intro t ht
        simp only [Event.evaluated.injEq, true_and] at ht
        subst ht
        have hch : Changes [Event.entered k e.begin now] k e.begin now := ⟨[], rfl⟩
        have hdue : ∀ j, e.reference = some j → Due k j e.delay log now := by
          intro j hj
          have hp := h.pending j hj
          dsimp only at hp
          simp only [shouldBegin, hj, hp] at h1
          cases hx : pend k j e.delay log with
          | none => simp [hx] at h1
          | some x =>
            simp only [hx] at h1
            by_cases hl : Time.lt x now = true
            · exact due_iff.2 ⟨x, hx, hl⟩
            · simp [hl] at h1
        have hnone : e.reference = none → last k log = none := by
          intro hr
          simp only [shouldBegin, hr, Option.isNone_iff_eq_none] at h1
          have hc := h.cur
          dsimp only at hc
          rw [h1] at hc
          cases hl : last k log with
          | none => rfl
          | some x =>
            obtain ⟨p, s⟩ := x
            rw [hl] at hc
            simp only [Option.bind_some] at hc
            subst hc
            obtain ⟨newer, older, e', -⟩ := (lastEntry_iff log).2 hl
            obtain ⟨q', hq', -⟩ := h.valid none s (by dsimp only; rw [e']; simp)
            cases hq'
        refine ⟨fun _ _ _ => hch, fun _ _ => hch, fun j h3 h4 => absurd (hdue j h3) h4, ?_, ?_⟩
        · intro h3 q ph s h4 _ _
          cases hr : e.reference with
          | none => rw [(lastEntry_iff log).1 h4] at hnone; cases hnone hr
          | some j => exact absurd (hdue j hr) (h3 j hr)
        · intro h3 q ph s h4 _ _
          cases hr : e.reference with
          | none => rw [(lastEntry_iff log).1 h4] at hnone; cases hnone hr
          | some j => exact absurd (hdue j hr) (h3 j hr)
    · have hik : i ≠ k := fun hc => hki hc.symm
      have hu : upd ctl k (shouldBegin e (ctl k) now).2 i = ctl i := by simp [upd, hik]
      refine ⟨?_, ?_, ?_, ?_, ?_⟩
      · dsimp only; rw [(changed_other hik).1, hu, h.cur]; simp [last, hki]
      · intro p s hl; dsimp only at hl ⊢; rw [(changed_other hik).2, hu]
        exact h.since p s (by simpa [last, hki] using hl)
      · intro p s hp
        simp only [List.mem_cons, reduceCtorEq, false_or, Event.entered.injEq] at hp
        rcases hp with ⟨hc, -⟩ | hp
        · exact absurd hc hik
        · exact h.valid p s hp
      · intro j hj
        dsimp only
        rw [hpend j hj, hu, h.pending j hj]
        simp [pend, hki]
      · refine hist_block h.hist _ _ (by simp) (by simp) ?_
        intro t ht; simp only [Event.evaluated.injEq] at ht; exact absurd ht.1 hki
  | @next ctl log k e now hk h1 h2 =>
    have hpend : ∀ j, d.reference = some j → ∀ nx, ∀ c : Nat → Ctl T,
        ((changed prog k e nx now c) i).changeToBegin =
        if k = j ∧ nx = some 0 then some (Time.add now d.delay) else (c i).changeToBegin := by
      intro j hj nx c
      rw [changed_pending hd hj]
      by_cases hkj : k = j
      · subst hkj; simp [begin_some (href _ e hj hk)]
      · simp [hkj]
    by_cases hki : k = i
    · subst hki
      have : e = d := by rw [hd] at hk; exact (Option.some.inj hk).symm
      subst this
      obtain ⟨q, hq⟩ : ∃ q, (ctl k).current = some q := by
        cases hc : (ctl k).current with
        | none => simp [exceeded, Decl.phase?, hc] at h2
        | some q => exact ⟨q, rfl⟩
      obtain ⟨hlt, s0, hl0, hs0⟩ := current_lt ctl log h q hq
      have hnx := circularNext_eq hlt
      rw [hq, hnx]
      have hnodue : ∀ j, e.reference = some j → ¬ Due k j e.delay log now := by
        intro j hj hdue
        obtain ⟨x, hx, hlt⟩ := due_iff.1 hdue
        have hp := h.pending j hj
        dsimp only at hp
        simp [shouldBegin, hj, hp, hx, hlt] at h1
      refine ⟨?_, ?_, ?_, ?_, ?_⟩
      · simp [changed_self, last]
      · intro p s hl; simp only [last, if_true, Option.some.injEq, Prod.mk.injEq] at hl
        rw [← hl.2]; exact changed_self.2
      · intro p s hp
        simp only [List.mem_cons, reduceCtorEq, false_or, Event.entered.injEq, true_and] at hp
        rcases hp with ⟨rfl, -⟩ | hp
        · exact ⟨_, rfl, Nat.mod_lt _ hlen⟩
        · exact h.valid p s hp
      · intro j hj
        dsimp only
        rw [hpend j hj, h.pending j hj]
        simp only [pend]
        split
        · rfl
        · rw [if_pos trivial]
          cases hx : pend k j e.delay log with
          | none => rfl
          | some x =>
            by_cases hl : Time.lt x now = true
            · exact absurd (due_iff.2 ⟨x, hx, hl⟩) (hnodue j hj)
            · simp [hl]
      · refine hist_block h.hist _ _ (by simp) (by simp) ?_
        intro t ht
        simp only [Event.evaluated.injEq, true_and] at ht
        subst ht
        refine ⟨fun j h3 h4 => absurd h4 (hnodue j h3), ?_, ?_, ?_, ?_⟩
        · intro _ h4; rw [noEntry_of_last.1 h4] at hl0; cases hl0
        · intro _ _ _ h4; rw [noEntry_of_last.1 h4] at hl0; cases hl0
        · intro _ q' ph s h4 _ _
          have := (lastEntry_iff log).1 h4
          rw [hl0] at this; cases this
          exact ⟨[], rfl⟩
        · intro _ q' ph s h4 h5 h6
          have := (lastEntry_iff log).1 h4
          rw [hl0] at this; cases this
          simp [exceeded, Decl.phase?, hq, h5, hs0, h6] at h2
    · have hik : i ≠ k := fun hc => hki hc.symm
      refine ⟨?_, ?_, ?_, ?_, ?_⟩
      · dsimp only; rw [(changed_other hik).1, h.cur]; simp [last, hki]
      · intro p s hl; dsimp only at hl ⊢; rw [(changed_other hik).2]
        exact h.since p s (by simpa [last, hki] using hl)
      · intro p s hp
        simp only [List.mem_cons, reduceCtorEq, false_or, Event.entered.injEq] at hp
        rcases hp with ⟨hc, -⟩ | hp
        · exact absurd hc hik
        · exact h.valid p s hp
      · intro j hj
        dsimp only
        rw [hpend j hj, h.pending j hj]
        simp [pend, hki]
      · refine hist_block h.hist _ _ (by simp) (by simp) ?_
        intro t ht; simp only [Event.evaluated.injEq] at ht; exact absurd ht.1 hki
  | @command ctl log k e p0 now hk hp0 =>
    have hpend : ∀ j, d.reference = some j → ∀ nx, ∀ c : Nat → Ctl T,
        ((changed prog k e nx now c) i).changeToBegin =
        if k = j ∧ nx = some 0 then some (Time.add now d.delay) else (c i).changeToBegin := by
      intro j hj nx c
      rw [changed_pending hd hj]
      by_cases hkj : k = j
      · subst hkj; simp [begin_some (href _ e hj hk)]
      · simp [hkj]
    refine ⟨?_, ?_, ?_, ?_, ?_⟩
    · dsimp only
      by_cases hki : k = i
      · subst hki; simp [changed_self, last]
      · rw [(changed_other (fun hc => hki hc.symm)).1, h.cur]; simp [last, hki]
    · intro p s hl
      dsimp only at hl ⊢
      by_cases hki : k = i
      · subst hki
        simp only [last, if_true, Option.some.injEq, Prod.mk.injEq] at hl
        rw [← hl.2]; exact changed_self.2
      · rw [(changed_other (fun hc => hki hc.symm)).2]
        exact h.since p s (by simpa [last, hki] using hl)
    · intro p s hp
      simp only [List.mem_cons, reduceCtorEq, false_or, Event.entered.injEq] at hp
      rcases hp with ⟨rfl, rfl, -⟩ | hp
      · have : e = d := by rw [hd] at hk; exact (Option.some.inj hk).symm
        subst this
        exact ⟨_, rfl, hp0⟩
      · exact h.valid p s hp
    · intro j hj
      dsimp only
      rw [hpend j hj, h.pending j hj]
      simp [pend]
    · exact hist_block h.hist _ _ (by simp) (by simp) (by simp)

theorem Inv.steps {i : Nat} {d : Decl T} (hd : prog[i]? = some d) (hne : d.phases ≠ [])
    (href : ∀ j e, d.reference = some j → prog[j]? = some e → e.phases ≠ [])
    {a b : Core T} (h : Inv i d a) (s : Steps prog a b) : Inv i d b := by
  induction s with
  | refl => exact h
  | tail _ s ih => exact ih.step hd hne href s

theorem Inv.initial (i : Nat) (d : Decl T) (t0 : T) : Inv i d (core (World.initial t0)) :=
  ⟨rfl, (by intro p s h; cases h), (by intro p s h; cases h), fun _ _ => rfl, by
    intro newer older t h
    have : ([] : List (Event T)) = _ := h
    simp at this⟩

end Verif.Signal
