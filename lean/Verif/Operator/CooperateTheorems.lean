import Verif.Operator.Model
/-
C148: commands to cooperate.
-/
namespace Verif.Operator

variable {P L I M U T S K : Type}

/-- C148 (what is sent): a command goes to the first request to cooperate of the module that is not in the state of the command, is not too far behind, and was not answered before in this state;
it is sent once, and all before it is kept. -/
theorem C148_sent [DecidableEq M] [DecidableEq U] [LE K] [DecidableLE K] (bound : K) (before : List (Cooperate M U K)) (s : Cooperate M U K) (after used : List (Cooperate M U K)) (m : M) (c : Action)
    (e : Ego P L I M U T S K) (hs : s.module = m ∧ c ≠ s.state ∧ bound ≤ s.distance ∧ ∀ u ∈ used, u.module = s.module → u.uuid = s.uuid → u.state ≠ s.state)
    (hb : ∀ r ∈ before, r.module ≠ m ∨ c = r.state ∨ ¬ bound ≤ r.distance ∨ ∃ u ∈ used, u.module = r.module ∧ u.uuid = r.uuid ∧ u.state = r.state) :
    ∃ e', sendCommand bound (before ++ s :: after) used (some m) (some c) e = .ok (e', used ++ [s]) ∧ e'.tasks = e.tasks ++ [.cooperate m s.uuid c] ∧ e'.controlled = e.controlled := by
  obtain ⟨h1, h2, h3, h4⟩ := hs
  subst h1
  have hf : (before ++ s :: after).find? (fun r => isValid bound r c s.module && !isUsed used r) = some s := by
    rw [List.find?_append, List.find?_eq_none.2, Option.none_or, List.find?_cons_of_pos]
    · have : isUsed used s = false := by
        simp only [isUsed, List.any_eq_false, Bool.and_eq_true, decide_eq_true_eq, not_and]
        exact fun u hu h5 h6 => h4 u hu h5.1 h5.2 h6
      simp [isValid, h2, h3, this]
    · intro r hr
      rcases hb r hr with h | h | h | ⟨u, hu, h5, h6, h7⟩
      · simp [isValid, h]
      · simp [isValid, h]
      · simp [isValid, h]
      · have : isUsed used r = true := by
          simp only [isUsed, List.any_eq_true, Bool.and_eq_true, decide_eq_true_eq]
          exact ⟨u, hu, ⟨h5, h6⟩, h7⟩
        simp [this]
  exact ⟨e.delay (.cooperate s.module s.uuid c), by simp only [sendCommand, hf], rfl, rfl⟩

/-- C148 (what is refused): it is an error if there is no such request, or the module or the command are not known. -/
theorem C148_refused [DecidableEq M] [DecidableEq U] [LE K] [DecidableLE K] (bound : K) (statuses used : List (Cooperate M U K)) (m : Option M) (c : Option Action) (e : Ego P L I M U T S K)
    (h : m = none ∨ c = none ∨ ∀ r ∈ statuses, m ≠ some r.module ∨ c = some r.state ∨ ¬ bound ≤ r.distance ∨ ∃ u ∈ used, u.module = r.module ∧ u.uuid = r.uuid ∧ u.state = r.state) :
    sendCommand bound statuses used m c e = .error .thrown := by
  unfold sendCommand
  split
  · next c m =>
    have h := (h.resolve_left (by simp)).resolve_left (by simp)
    rw [List.find?_eq_none.2]
    intro r hr
    rcases h r hr with h | h | h | ⟨u, hu, h5, h6, h7⟩
    · simp [isValid, show ¬ r.module = m from fun h' => h (by rw [h'])]
    · simp [isValid, Option.some.inj h]
    · simp [isValid, h]
    · have : isUsed used r = true := by
        simp only [isUsed, List.any_eq_true, Bool.and_eq_true, decide_eq_true_eq]
        exact ⟨u, hu, ⟨h5, h6⟩, h7⟩
      simp [this]
  · rfl

/-- Two requests of a module, one too far behind. -/
def requests : List (Cooperate Nat Nat Int) := [⟨1, 10, .deactivate, -30⟩, ⟨1, 11, .deactivate, -5⟩, ⟨1, 12, .deactivate, 8⟩]

example : ∃ e', sendCommand (-20) requests [] (some 1) (some .activate) (Ego.spawn 0 () none () : Ego Unit Unit Unit Nat Nat Unit Unit Int) = .ok (e', [⟨1, 11, .deactivate, -5⟩]) ∧
    e'.tasks = [.changeToStop] ++ [.cooperate 1 11 .activate] :=
  (C148_sent (-20) [⟨1, 10, .deactivate, -30⟩] ⟨1, 11, .deactivate, -5⟩ [⟨1, 12, .deactivate, 8⟩] [] 1 .activate (Ego.spawn 0 () none ()) (by decide) (by decide)).imp fun _ h => ⟨h.1, h.2.1⟩

example : sendCommand (-20) requests [] (some 1) (some .deactivate) (Ego.spawn 0 () none () : Ego Unit Unit Unit Nat Nat Unit Unit Int) = .error .thrown :=
  C148_refused _ _ _ _ _ _ (.inr (.inr (by decide)))

/-- The commands that were sent, and what was used, over any history of states of the requests. -/
inductive Sent [DecidableEq M] [DecidableEq U] [LE K] [DecidableLE K] (bound : K) : List (Cooperate M U K) → Ego P L I M U T S K → Prop
  | start (e) : Sent bound [] e
  | sent {u u' e e'} (statuses : List (Cooperate M U K)) (m c) : Sent bound u e → sendCommand bound statuses u m c e = .ok (e', u') → Sent bound u' e'
  | other {u e} (e') : Sent bound u e → Sent bound u e'

/-- C148 (never twice): in any history, also with several egos, no two commands answer the same request in the same state. -/
theorem C148_never_twice [DecidableEq M] [DecidableEq U] [LE K] [DecidableLE K] (bound : K) {used : List (Cooperate M U K)} {e : Ego P L I M U T S K} (h : Sent bound used e) :
    used.Pairwise fun a b => ¬ (a.module = b.module ∧ a.uuid = b.uuid ∧ a.state = b.state) := by
  induction h with
  | start => exact .nil
  | other _ _ ih => exact ih
  | sent statuses m c _ h ih =>
    unfold sendCommand at h
    split at h
    · split at h
      · cases h
      · next s hs =>
        cases h
        have := List.find?_some hs
        simp only [Bool.and_eq_true, Bool.not_eq_true'] at this
        have hu := this.2
        simp only [isUsed, List.any_eq_false, Bool.and_eq_true, decide_eq_true_eq, not_and] at hu
        rw [List.pairwise_append]
        refine ⟨ih, by simp, fun a ha b hb => ?_⟩
        simp only [List.mem_singleton] at hb
        subst hb
        exact fun h => hu a ha ⟨h.1, h.2.1⟩ h.2.2
    · cases h

example : ∃ (used : List (Cooperate Nat Nat Int)) (e : Ego Unit Unit Unit Nat Nat Unit Unit Int), Sent (-20) used e ∧ used.length = 2 :=
  ⟨_, _, .sent requests (some 1) (some .activate) (.sent requests (some 1) (some .activate) (.start (Ego.spawn 0 () none ())) rfl) rfl, rfl⟩

/-- C148 does not hold of requests that come back to a state: after a request was activated and deactivated again it cannot be activated any more, although it is valid. -/
theorem C148_again_violated : ∃ (u u' : List (Cooperate Nat Nat Int)) (e e' : Ego Unit Unit Unit Nat Nat Unit Unit Int),
    sendCommand (-20) [⟨1, 11, .deactivate, 8⟩] [] (some 1) (some .activate) (Ego.spawn 0 () none ()) = .ok (e, u) ∧
    sendCommand (-20) [⟨1, 11, .activate, 8⟩] u (some 1) (some .deactivate) e = .ok (e', u') ∧
    sendCommand (-20) [⟨1, 11, .deactivate, 8⟩] u' (some 1) (some .activate) e' = .error .thrown := ⟨_, _, _, _, rfl, rfl, rfl⟩

end Verif.Operator
