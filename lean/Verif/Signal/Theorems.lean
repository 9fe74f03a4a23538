import Verif.Signal.Cycle
import Verif.Signal.Effects
import Verif.Signal.Predict
/-
C15-C18: traffic signal controllers.
-/
namespace Verif.Signal
open Light

variable {T : Type} [Time T]

/-! ### Concrete times for the examples: half seconds, `none` is infinity -/

abbrev Half := Option Int

instance : Time Half where
  add a b := a.bind fun a => b.map fun b => a + b
  sub a b := a.bind fun a => b.map fun b => a - b
  le | _, none => true | none, some _ => false | some a, some b => a ≤ b
  lt | none, _ => false | some _, none => true | some a, some b => a < b
  isInf a := a.isNone
  toInt a := a.map (·.tdiv 2)
  ofInt c := some (2 * c)

/-- Every id is a traffic light of its own. -/
def exRoad : RoadMap := ⟨fun i => some [i], fun _ => false⟩

def st (i : Id) (c : Channel) (s : String) : SignalState := ⟨i, c, false, s.toList⟩

/-- green 2 s, yellow 1 s, red 2 s -/
def exMain : Decl Half :=
  ⟨[⟨"green", some 4, [st 1 .conventional "green", st 2 .conventional "red", st 2 .conventional "green left"]⟩,
    ⟨"yellow", some 2, [st 1 .conventional "yellow"]⟩, ⟨"red", some 4, [st 1 .v2i "red", st 3 .conventional "red"]⟩], none, none⟩

/-- Follows `exMain` after one second. -/
def exFollower : Decl Half :=
  ⟨[⟨"a", some 6, [st 5 .conventional "green"]⟩, ⟨"b", some 4, [st 5 .conventional "red"]⟩], some 0, some 2⟩

def exProg : List (Decl Half) := [exMain, exFollower]

def ticks (n : Nat) : List (Op Half) := (List.range n).map fun (k : Nat) => .tick (some (k : Int))

/-! ### C15 -/

/-- **C15.** A controller without reference that is not commanded enters a phase at the evaluations
described by `Visits`: the phases cyclically in order, each left at the first evaluation at which its
duration has elapsed, one change per evaluation. The current phase and its begin, as reported, are
those of the last entry. -/
theorem C15_cycle (m : RoadMap) (prog : List (Decl T)) (i : Nat) (d : Decl T) (hd : prog[i]? = some d)
    (hr : d.reference = none) (hne : d.phases ≠ []) (dur : Nat → T)
    (hdur : ∀ q p, d.phases[q]? = some p → dur q = p.duration)
    (os : List (Op T)) (hf : ∀ o ∈ os, Free i o) (ht : tickTimes os ≠ []) (t0 : T) (w' : World T)
    (hw : run m prog os (World.initial t0) = some w') :
    ∃ e a, Visits d.phases.length dur (tickTimes os) e ∧ e.getLast? = some a ∧
      (w'.ctl i).current = some ((e.length - 1) % d.phases.length) ∧
      (tickTimes os)[a]? = some (w'.ctl i).startedAt := by
  have h := run_cyc hd hr hne hdur hf (ts := []) (Or.inl ⟨rfl, rfl⟩) hw
  rw [List.nil_append] at h
  rcases h with ⟨h, -⟩ | h
  · exact absurd h ht
  · exact h

example : ((run exRoad exProg (ticks 11) (World.initial (some 0))).map fun w =>
    ((w.ctl 0).current, (w.ctl 0).startedAt, (w.ctl 1).current, (w.ctl 1).startedAt)) =
    some (some 0, some 10, some 1, some 9) := by decide +kernel

/-- **C15, with commands.** Every evaluation of a controller without reference in any run, with any
commands: the first one enters the first phase unless a command came before, a later one enters the
next phase iff the duration of the phase entered last, by evaluation or command, has elapsed. -/
theorem C15_evaluation (m : RoadMap) (prog : List (Decl T)) (i : Nat) (d : Decl T)
    (hd : prog[i]? = some d) (hr : d.reference = none) (hne : d.phases ≠ [])
    (os : List (Op T)) (t0 : T) (w' : World T) (hw : run m prog os (World.initial t0) = some w')
    (newer older : List (Event T)) (t : T) (hl : w'.log = newer ++ .evaluated i t :: older) :
    (NoEntry i older → Changes newer i (some 0) t) ∧
    ∀ q ph s, LastEntry i older (some q) s → d.phases[q]? = some ph →
      (Time.le ph.duration (Time.sub t s) = true → Changes newer i (some ((q + 1) % d.phases.length)) t) ∧
      (Time.le ph.duration (Time.sub t s) = false → NoChange newer) := by
  have h := ((Inv.initial i d t0).steps hd hne (by intro j e hj; rw [hr] at hj; cases hj) (run_core hw)).hist
    newer older t hl
  refine ⟨fun hn => begin_some hne ▸ h.first hr hn, fun q ph s h1 h2 => ⟨fun h3 => ?_, fun h3 => ?_⟩⟩
  · exact h.go (by intro j hj; rw [hr] at hj; cases hj) q ph s h1 h2 h3
  · exact h.stay (by intro j hj; rw [hr] at hj; cases hj) q ph s h1 h2 h3

/-- **C15.** Every phase change, whatever its cause, is to a declared phase, and the reported phase
and begin time are those of the latest change. -/
theorem C15_reported (m : RoadMap) (prog : List (Decl T)) (i : Nat) (d : Decl T)
    (hd : prog[i]? = some d) (hne : d.phases ≠ [])
    (href : ∀ j e, d.reference = some j → prog[j]? = some e → e.phases ≠ [])
    (os : List (Op T)) (t0 : T) (w' : World T) (hw : run m prog os (World.initial t0) = some w') :
    (∀ p s, Event.entered i p s ∈ w'.log → ∃ q, p = some q ∧ q < d.phases.length) ∧
    (∀ p s, LastEntry i w'.log p s → (w'.ctl i).current = p ∧ (w'.ctl i).startedAt = s) ∧
    (NoEntry i w'.log → (w'.ctl i).current = none) := by
  have h := (Inv.initial i d t0).steps hd hne href (run_core hw)
  refine ⟨h.valid, fun p s hl => ?_, fun hn => ?_⟩
  · have hl' := (lastEntry_iff w'.log).1 hl
    have hc := h.cur
    have hs := h.since p s hl'
    simp only [core, hl', Option.bind_some] at hc hs
    exact ⟨hc, hs⟩
  · have hc := h.cur
    simp only [core, noEntry_of_last.1 hn, Option.bind_none] at hc
    exact hc

example : ((run exRoad exProg (ticks 3 ++ [.action 0 "red" (some 2), .tick (some 3), .tick (some 6)])
    (World.initial (some 0))).map fun w => ((w.ctl 0).current, (w.ctl 0).startedAt)) =
    some (some 0, some 6) := by decide +kernel

/-- **C15, commands.** An action that names a phase the controller has puts it into the first phase of that name at
once, and leaves the phases of the other controllers alone; one that names no phase of it fails and changes
nothing. -/
theorem C15_command (m : RoadMap) (prog : List (Decl T)) (i : Nat) (d : Decl T) (hd : prog[i]? = some d)
    (name : String) (now : T) (w : World T) :
    ((∀ p ∈ d.phases, p.name ≠ name) → changePhaseByName m prog i name now w = (w, .thrown)) ∧
    ∀ (q : Nat) (ph : Phase T), d.phases[q]? = some ph → ph.name = name →
      (∀ (q' : Nat) (ph' : Phase T), q' < q → d.phases[q']? = some ph' → ph'.name ≠ name) →
      (changePhaseByName m prog i name now w).2 = .ok →
      ((changePhaseByName m prog i name now w).1.ctl i).current = some q ∧
      ((changePhaseByName m prog i name now w).1.ctl i).startedAt = now ∧
      ∀ k, k ≠ i → ((changePhaseByName m prog i name now w).1.ctl k).current = (w.ctl k).current ∧
        ((changePhaseByName m prog i name now w).1.ctl k).startedAt = (w.ctl k).startedAt := by
  refine ⟨fun h => ?_, fun q ph hq hn hf hok => ?_⟩
  · unfold changePhaseByName
    rw [hd]
    dsimp only
    rw [List.findIdx?_eq_none_iff.2 (by simpa using h)]
  · have hidx : d.phases.findIdx? (·.name = name) = some q := by
      obtain ⟨hlt, hget⟩ := List.getElem?_eq_some_iff.1 hq
      refine List.findIdx?_eq_some_iff_getElem.2 ⟨hlt, by simp [hget, hn], fun j hj => ?_⟩
      have := hf j d.phases[j] hj (List.getElem?_eq_getElem (by omega))
      simpa using this
    unfold changePhaseByName at hok ⊢
    rw [hd] at hok ⊢
    dsimp only at hok ⊢
    rw [hidx] at hok ⊢
    dsimp only at hok ⊢
    have hc := congrArg Prod.fst (changePhaseTo_core hok)
    simp only [core] at hc
    rw [hc]
    refine ⟨by simp [changed, upd], by simp [changed, upd], fun k hk => ?_⟩
    simp only [changed, upd, if_neg hk]
    split
    · simp only [notifyObservers]; split
      · split <;> exact ⟨rfl, rfl⟩
      · exact ⟨rfl, rfl⟩
    · exact ⟨rfl, rfl⟩

example : ((run exRoad exProg (ticks 3 ++ [.action 0 "red" (some 3)]) (World.initial (some 0))).map fun w =>
    ((w.ctl 0).current, (w.ctl 0).startedAt)) = some (some 2, some 3) := by decide +kernel

/-! ### C16 -/

/-- **C16, for the latest begin of the reference.** A controller with a reference and delay enters its
first phase at its first evaluation strictly later than begin + delay, where begin is the time the
reference last entered its first phase. (Missing: the property promises this for every begin of the
reference, see `C16_violated`.) -/
theorem C16_begins_partial (m : RoadMap) (prog : List (Decl T)) (i j : Nat) (d : Decl T)
    (hd : prog[i]? = some d) (hr : d.reference = some j) (hne : d.phases ≠ [])
    (href : ∀ e, prog[j]? = some e → e.phases ≠ [])
    (os : List (Op T)) (t0 : T) (w' : World T) (hw : run m prog os (World.initial t0) = some w')
    (newer older : List (Event T)) (t : T) (hl : w'.log = newer ++ .evaluated i t :: older)
    (hdue : Due i j d.delay older t) : Changes newer i (some 0) t := by
  have h := ((Inv.initial i d t0).steps hd hne (by intro k e hk; rw [hr] at hk; cases hk; exact href e)
    (run_core hw)).hist newer older t hl
  exact begin_some hne ▸ h.due j hr hdue

/-- **C16.** … and not before: an evaluation at which no begin is due leaves the controller in no
phase if it was in none, and otherwise only lets it run through its own phases. -/
theorem C16_not_before (m : RoadMap) (prog : List (Decl T)) (i j : Nat) (d : Decl T)
    (hd : prog[i]? = some d) (hr : d.reference = some j) (hne : d.phases ≠ [])
    (href : ∀ e, prog[j]? = some e → e.phases ≠ [])
    (os : List (Op T)) (t0 : T) (w' : World T) (hw : run m prog os (World.initial t0) = some w')
    (newer older : List (Event T)) (t : T) (hl : w'.log = newer ++ .evaluated i t :: older)
    (hdue : ¬ Due i j d.delay older t) :
    (NoEntry i older → NoChange newer) ∧
    ∀ q ph s, LastEntry i older (some q) s → d.phases[q]? = some ph →
      (Time.le ph.duration (Time.sub t s) = true → Changes newer i (some ((q + 1) % d.phases.length)) t) ∧
      (Time.le ph.duration (Time.sub t s) = false → NoChange newer) := by
  have h := ((Inv.initial i d t0).steps hd hne (by intro k e hk; rw [hr] at hk; cases hk; exact href e)
    (run_core hw)).hist newer older t hl
  have hno : ∀ k, d.reference = some k → ¬ Due i k d.delay older t := by
    intro k hk; rw [hr] at hk; cases hk; exact hdue
  exact ⟨h.wait j hr hdue, fun q ph s h1 h2 => ⟨h.go hno q ph s h1 h2, h.stay hno q ph s h1 h2⟩⟩

/-- The follower of the example begins at 1.5 s, the first evaluation strictly later than 0 s + 1 s. -/
example : ((run exRoad exProg (ticks 4) (World.initial (some 0))).map fun w =>
    ((w.ctl 1).current, (w.ctl 1).startedAt)) = some (some 0, some 3) ∧
    ((run exRoad exProg (ticks 3) (World.initial (some 0))).map fun w => (w.ctl 1).current) =
    some none := by decide +kernel

/-- A reference with a cycle of 1 s and a follower of equal cycle with a delay of 5 s. -/
def exLate : List (Decl Half) :=
  [⟨[⟨"x", some 2, [st 1 .conventional "red"]⟩], none, none⟩, ⟨[⟨"y", some 2, [st 2 .conventional "green"]⟩], some 0, some 10⟩]

/-- **C16 is false of the code if the reference begins again before the delay has passed**: every
begin replaces the pending one. The reference began at 0 s, the delay is 5 s, the follower has been
evaluated every half second up to 10 s and is still in no phase. -/
theorem C16_violated : ∃ w', run exRoad exLate (ticks 21) (World.initial (some 0)) = some w' ∧
    (w'.log.any fun e => match e with | .entered 0 (some 0) (some 0) => true | _ => false) = true ∧
    (w'.log.any fun e => match e with | .evaluated 1 (some 20) => true | _ => false) = true ∧
    (w'.ctl 1).current = none := by
  have : (run exRoad exLate (ticks 21) (World.initial (some 0))).any (fun w' =>
    (w'.log.any fun e => match e with | .entered 0 (some 0) (some 0) => true | _ => false) &&
    (w'.log.any fun e => match e with | .evaluated 1 (some 20) => true | _ => false) &&
    (w'.ctl 1).current.isNone) = true := by decide +kernel
  cases h : run exRoad exLate (ticks 21) (World.initial (some 0)) with
  | none => rw [h] at this; cases this
  | some w' =>
    rw [h] at this
    simp only [Option.any_some, Bool.and_eq_true, Option.isNone_iff_eq_none] at this
    exact ⟨w', rfl, this.1.1, this.1.2, this.2⟩

/-! ### C17 -/

/-- Light `k` shows exactly the bulbs of those states in `S` that are for it. -/
def ShowsExactly (S : List SignalState) (isFor : SignalState → Prop) (l : List Bulb) : Prop :=
  ∀ b, contains l b = true ↔ ∃ s ∈ S, isFor s ∧ Sets s.state b

/-- **C17.** After a phase change of controller `i` from the phase it was in (states `old`, none if it
was in no phase) to phase `next` (states `new`): every conventional, V2I and detected light for which
the new phase has states shows exactly these, every light for which only the old phase had states is
dark (not detected), all others are as before. A state for a conventional light with the V2I feature
enabled is also one for the V2I light. -/
theorem C17_no_leak (m : RoadMap) (prog : List (Decl T)) (i : Nat) (d : Decl T) (next : Option Nat)
    (now : T) (w : World T) (hok : (changePhaseTo m prog i d next now w).2 = .ok)
    (old new : List SignalState) (hold : old = statesOf d (w.ctl i).current) (hnew : new = statesOf d next) :
    let l := (changePhaseTo m prog i d next now w).1.lights
    (∀ k, ((∃ s ∈ new, s.forConv m k) → ShowsExactly new (·.forConv m k) (l.conv k)) ∧
      ((¬ ∃ s ∈ new, s.forConv m k) → (∃ s ∈ old, s.forConv m k) → l.conv k = []) ∧
      ((¬ ∃ s ∈ new, s.forConv m k) → (¬ ∃ s ∈ old, s.forConv m k) → l.conv k = w.lights.conv k)) ∧
    (∀ k, ((∃ s ∈ new, s.forV2I m w.lights.enabled k) → ShowsExactly new (·.forV2I m w.lights.enabled k) (l.v2i k)) ∧
      ((¬ ∃ s ∈ new, s.forV2I m w.lights.enabled k) → (∃ s ∈ old, s.forV2I m w.lights.enabled k) → l.v2i k = []) ∧
      ((¬ ∃ s ∈ new, s.forV2I m w.lights.enabled k) → (¬ ∃ s ∈ old, s.forV2I m w.lights.enabled k) →
        l.v2i k = w.lights.v2i k)) ∧
    (∀ k, ((∃ s ∈ new, s.forDetected .conventional k) → ∃ x, l.convDetected k = some x ∧
        ShowsExactly new (·.forDetected .conventional k) x) ∧
      ((¬ ∃ s ∈ new, s.forDetected .conventional k) → (∃ s ∈ old, s.forDetected .conventional k) →
        l.convDetected k = none) ∧
      ((¬ ∃ s ∈ new, s.forDetected .conventional k) → (¬ ∃ s ∈ old, s.forDetected .conventional k) →
        l.convDetected k = w.lights.convDetected k)) ∧
    (∀ k, ((∃ s ∈ new, s.forDetected .v2i k) → ∃ x, l.v2iDetected k = some x ∧
        ShowsExactly new (·.forDetected .v2i k) x) ∧
      ((¬ ∃ s ∈ new, s.forDetected .v2i k) → (∃ s ∈ old, s.forDetected .v2i k) → l.v2iDetected k = none) ∧
      ((¬ ∃ s ∈ new, s.forDetected .v2i k) → (¬ ∃ s ∈ old, s.forDetected .v2i k) →
        l.v2iDetected k = w.lights.v2iDetected k)) := by
  obtain ⟨l1, l2, h1, h2, h3⟩ := changePhaseTo_lights hok
  rw [← hold] at h1
  rw [← hnew] at h2 h3
  have e1 := h1.enabled
  have e2 := h2.enabled.trans e1
  have a1 := h2.v2i_in; have a2 := h2.v2i_out; have a3 := h3.v2i; have a4 := h3.v2i_out
  rw [e1] at a1 a2
  rw [e2] at a3 a4
  refine ⟨fun k => ⟨fun hn b => ?_, fun hn ho => ?_, fun hn ho => ?_⟩,
    fun k => ⟨fun hn b => ?_, fun hn ho => ?_, fun hn ho => ?_⟩,
    fun k => ⟨fun hn => ?_, fun hn ho => ?_, fun hn ho => ?_⟩,
    fun k => ⟨fun hn => ?_, fun hn ho => ?_, fun hn ho => ?_⟩⟩
  · rw [contains_iff, h3.conv, h2.conv_in k hn]; simp
  · rw [h3.conv_out k hn, h2.conv_out k hn, h1.conv_in k ho]
  · rw [h3.conv_out k hn, h2.conv_out k hn, h1.conv_out k ho]
  · rw [contains_iff, a3, a1 k hn]; simp
  · rw [a4 k hn, a2 k hn, h1.v2i_in k ho]
  · rw [a4 k hn, a2 k hn, h1.v2i_out k ho]
  · have hs := h3.cd_some k (Or.inr hn)
    have hm := h3.cd k
    cases hx : (changePhaseTo m prog i d next now w).1.lights.convDetected k with
    | none => rw [hx] at hs; cases hs
    | some x =>
      refine ⟨x, rfl, fun b => ?_⟩
      have := hm b
      rw [hx, h2.cd_in k hn] at this
      rw [contains_iff]; simpa using this
  · rw [h3.cd_out k hn, h2.cd_out k hn, h1.cd_in k ho]
  · rw [h3.cd_out k hn, h2.cd_out k hn, h1.cd_out k ho]
  · have hs := h3.vd_some k (Or.inr hn)
    have hm := h3.vd k
    cases hx : (changePhaseTo m prog i d next now w).1.lights.v2iDetected k with
    | none => rw [hx] at hs; cases hs
    | some x =>
      refine ⟨x, rfl, fun b => ?_⟩
      have := hm b
      rw [hx, h2.vd_in k hn] at this
      rw [contains_iff]; simpa using this
  · rw [h3.vd_out k hn, h2.vd_out k hn, h1.vd_in k ho]
  · rw [h3.vd_out k hn, h2.vd_out k hn, h1.vd_out k ho]

/-- From green (lights 1 and 2) to yellow (light 1): light 2 is dark, light 7 keeps its red. -/
example : let l0 : Lights := { Lights.initial with conv := fun i => if i = 7 then [⟨.red, .solidOn, .circle⟩] else [] }
    ((run exRoad exProg (.lights l0 :: ticks 4) (World.initial (some 0))).map fun w =>
      let r := changePhaseTo exRoad exProg 0 exMain (some 1) (some 4) w
      (r.2, (w.lights.conv 2).length, r.1.lights.conv 1, r.1.lights.conv 2, r.1.lights.conv 7)) =
    some (.ok, 2, [⟨.yellow, .solidOn, .circle⟩], [], [⟨.red, .solidOn, .circle⟩]) := by decide +kernel

/-! ### C18 -/

/-- **C18.** The predictions held after controller `i` changed at time `now` to phase `p` are those of
`k ≤ 6` following phases, the `j`-th of them at the remaining duration of `p` plus the durations of
the phases in between (`startOf`), for every signal the states in effect in that phase. There are
less than six only if a duration is infinite or the remaining duration exceeds the computed cycle
time. (Missing: the change may instead end in undefined behaviour, see `C18_violated`.) -/
theorem C18_predictions_partial (m : RoadMap) (prog : List (Decl T)) (i : Nat) (d : Decl T) (p : Nat) (ph : Phase T)
    (hp : d.phases[p]? = some ph) (now : T) (w : World T) (dur : Nat → T)
    (hdur : ∀ q ph, d.phases[q]? = some ph → dur q = ph.duration)
    (hok : (changePhaseTo m prog i d (some p) now w).2 = .ok) (t : T)
    (ht : t = Time.sub ph.duration (Time.sub now now)) :
    ∃ k, k ≤ 6 ∧ (k < 6 → Ends d.phases dur p t k) ∧
      ∀ id s u, (id, s, u) ∈ (changePhaseTo m prog i d (some p) now w).1.predictions ↔
        ∃ j, j < k ∧ u = startOf d.phases.length dur p t j ∧
          s ∈ inEffect w.lights.enabled d.phases p (j + 1) id := by
  subst ht
  have hplt := (List.getElem?_eq_some_iff.1 hp).1
  have hne : d.phases ≠ [] := by rintro e; rw [e] at hplt; cases hplt
  have hcur : ((if some p = d.begin then notifyObservers prog i now w.ctl else w.ctl) i).current = (w.ctl i).current := by
    split
    · simp only [notifyObservers]; split
      · split <;> rfl
      · rfl
    · rfl
  obtain ⟨h1, h2⟩ := withLights_ok hok
  have h2' : changePhaseTo m prog i d (some p) now w = _ := h2
  rw [h2'] at hok ⊢
  have hen : ((onPhase (Phase.clearStates m) (d.phase? (w.ctl i).current) w.lights).1).enabled = w.lights.enabled := by
    cases hc : d.phase? (w.ctl i).current with
    | none => rfl
    | some q =>
      simp only [hcur, hc] at h1
      exact (clears_each h1).enabled
  simp only [hcur] at hok ⊢
  unfold enterPhase at hok ⊢
  dsimp only at hok ⊢
  revert hok
  split
  · intro h; cases h
  · rename_i ps hps
    intro h
    rw [(withLights_ok h).2]
    simp only [updatePredictions, hp, hen] at hps
    have hz : after d.phases.length p 0 = p := by simp [after, Nat.mod_eq_of_lt hplt]
    have hr : predictLoop d.phases w.lights.enabled 6 (some (after d.phases.length p 0))
        (startOf d.phases.length dur p (Time.sub ph.duration (Time.sub now now)) 0) [] = some ps := by
      rw [hz]; exact hps
    obtain ⟨k, k1, k2, k3⟩ := predictLoop_spec hne hdur 6 0 rfl (cur := []) trivial (fun id => rfl) hr
    refine ⟨k, k1, by simpa using k2, fun id s u => ?_⟩
    refine (k3 id s u).trans ?_
    simp

/-- Six predictions for V2I light 1 after entering green: red (declared for V2I) from the end of
yellow on, nothing in yellow. -/
example : ((run exRoad exProg (ticks 1) (World.initial (some 0))).map (·.predictions)) =
    some [(1, "red".toList, some 6), (1, "red".toList, some 10), (1, "red".toList, some 14),
      (1, "red".toList, some 16), (1, "red".toList, some 20)] := by decide +kernel

/-- **C18 is false of the code for a controller with an unbounded phase that is not the current or
the next one**: the cycle time is accumulated in an `int`, and converting infinity to `int` is
undefined. -/
theorem C18_violated : ∃ (d : Decl Half) (w : World Half),
    d.phases.map (·.duration) = [some 2, some 2, none] ∧
    (evaluate exRoad [d] 0 d (some 0) w).2 = .undefined :=
  ⟨⟨[⟨"a", some 2, []⟩, ⟨"b", some 2, []⟩, ⟨"c", none, []⟩], none, none⟩, World.initial (some 0),
    by decide +kernel, by decide +kernel⟩

/-- The same accumulation rounds every partial sum down to whole seconds: for phases of half a second
the computed cycle time is zero and there are never any predictions. -/
theorem C18_short_phases_not_predicted : ∃ (d : Decl Half) (w' : World Half),
    d.phases.map (·.duration) = [some 1, some 1] ∧
    run exRoad [d] (ticks 5) (World.initial (some 0)) = some w' ∧ w'.predictions = [] := by
  let d : Decl Half := ⟨[⟨"a", some 1, [st 1 .v2i "red"]⟩, ⟨"b", some 1, [st 1 .v2i "green"]⟩], none, none⟩
  have h : (run exRoad [d] (ticks 5) (World.initial (some 0))).any (fun w => w.predictions.isEmpty) = true := by
    decide +kernel
  cases e : run exRoad [d] (ticks 5) (World.initial (some 0)) with
  | none => rw [e] at h; cases h
  | some w' =>
    rw [e] at h
    exact ⟨d, w', rfl, e, by simpa using h⟩

end Verif.Signal
