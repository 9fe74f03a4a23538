import Verif.Clock.Spec
import Mathlib.Algebra.Group.Basic
/-
C30: the simulation clock.
-/
namespace Verif.Clock
set_option linter.unusedSectionVars false
variable {V : Type} [Zero V] [Add V] [Sub V] [Div V]

theorem exec_start (acc : V → Bool) (a : Api V) :
    exec acc a .startNpcLogic = (a, .throws) ∨
    (a.npcStarted = false ∧ a.clock.started = false ∧ exec acc a .startNpcLogic =
      ({ a with clock := { a.clock with startedAt := some a.clock.now }, npcStarted := true }, .ok)) := by
  simp only [exec, Clock.start]
  cases h : a.npcStarted <;> cases h' : a.clock.started <;> simp

theorem exec_set (acc : V → Bool) (a : Api V) (x : V) :
    exec acc a (.setStep x) = if acc x then
      ({ a with clock := { a.clock with factor := x }, simStep := x / a.clock.rate }, .ok) else (a, .no) := rfl

theorem run_clock (acc : V → Bool) (os : List (Op V)) (a : Api V) :
    (run acc a os).clock.now = sumFrom a.clock.now (steps acc a.clock.rate a.clock.factor os) ∧
    (run acc a os).clock.rate = a.clock.rate ∧
    (run acc a os).clock.factor = factorAfter acc a.clock.factor os := by
  induction os generalizing a with
  | nil => exact ⟨rfl, rfl, rfl⟩
  | cons o os ih =>
    obtain ⟨h1, h2, h3⟩ := ih (exec acc a o).1
    have hr : run acc a (o :: os) = run acc (exec acc a o).1 os := rfl
    rw [hr, h1, h2, h3]
    cases o with
    | frame b => cases b <;> exact ⟨rfl, rfl, rfl⟩
    | startNpcLogic =>
      rcases exec_start acc a with e | ⟨_, _, e⟩ <;> rw [e] <;> exact ⟨rfl, rfl, rfl⟩
    | setStep x =>
      simp only [exec_set, steps, factorAfter]
      cases hx : acc x <;> exact ⟨rfl, rfl, rfl⟩

/-- `npc_logic_started_` and the clock agree. -/
theorem run_started (acc : V → Bool) (os : List (Op V)) (a : Api V) (h : a.npcStarted = a.clock.started) :
    (run acc a os).npcStarted = (run acc a os).clock.started := by
  induction os generalizing a with
  | nil => exact h
  | cons o os ih =>
    refine ih (exec acc a o).1 ?_
    cases o with
    | frame b => cases b <;> exact h
    | startNpcLogic =>
      rcases exec_start acc a with e | ⟨_, _, e⟩ <;> rw [e] <;> first | exact h | rfl
    | setStep x => simp only [exec_set]; cases acc x <;> exact h

theorem run_startedAt_keep (acc : V → Bool) (os : List (Op V)) (a : Api V)
    (h : a.npcStarted = a.clock.started) (s : V) (hs : a.clock.startedAt = some s) :
    (run acc a os).clock.startedAt = some s := by
  induction os generalizing a with
  | nil => exact hs
  | cons o os ih =>
    have hst : a.npcStarted = true := by rw [h]; unfold Clock.started; rw [hs]; rfl
    refine ih (exec acc a o).1 (run_started acc [o] a h) ?_
    cases o with
    | frame b => cases b <;> exact hs
    | startNpcLogic =>
      rcases exec_start acc a with e | ⟨hc, _, e⟩
      · rw [e]; exact hs
      · rw [hst] at hc; cases hc
    | setStep x => simp only [exec_set]; cases acc x <;> exact hs

theorem run_startedAt_none (acc : V → Bool) (os : List (Op V)) (a : Api V)
    (hn : .startNpcLogic ∉ os) : (run acc a os).clock.startedAt = a.clock.startedAt := by
  induction os generalizing a with
  | nil => rfl
  | cons o os ih =>
    have := ih (exec acc a o).1 (fun c => hn (by simp [c]))
    show (run acc (exec acc a o).1 os).clock.startedAt = _
    rw [this]
    cases o with
    | frame b => cases b <;> rfl
    | startNpcLogic => exact absurd (by simp) hn
    | setStep x => simp only [exec_set]; cases acc x <;> rfl

theorem run_append (acc : V → Bool) (xs ys : List (Op V)) (a : Api V) :
    run acc a (xs ++ ys) = run acc (run acc a xs) ys := List.foldl_append

theorem first_start (os : List (Op V)) (h : .startNpcLogic ∈ os) :
    ∃ a b, os = a ++ .startNpcLogic :: b ∧ .startNpcLogic ∉ a := by
  induction os with
  | nil => simp at h
  | cons o os ih =>
    by_cases c : .startNpcLogic ∈ os
    · cases o with
      | startNpcLogic => exact ⟨[], os, rfl, by simp⟩
      | _ =>
        obtain ⟨a, b, e, hn⟩ := ih c
        refine ⟨_ :: a, b, by rw [e]; rfl, ?_⟩
        simp [hn]
    · rcases List.mem_cons.mp h with h | h
      · exact ⟨[], os, by rw [← h]; rfl, by simp⟩
      · exact absurd h c

/-- C30: simulation time is 0 plus the steps of the completed frames, added in order. -/
theorem C30_simulation_time (acc : V → Bool) (f r : V) (os : List (Op V)) :
    (run acc (Api.make f r) os).clock.now = sumFrom 0 (steps acc r f os) :=
  (run_clock acc os (Api.make f r)).1

/-- C30: before the scenario is started, scenario time is not a number. -/
theorem C30_before_start (acc : V → Bool) (f r : V) (os : List (Op V)) (h : .startNpcLogic ∉ os) :
    (run acc (Api.make f r) os).clock.scenarioTime = none := by
  unfold Clock.scenarioTime
  rw [run_startedAt_none acc os _ h]; rfl

/-- C30: after the first start, scenario time is the simulation time minus the simulation time at that
start - whatever happens afterwards, further starts included. -/
theorem C30_after_start (acc : V → Bool) (f r : V) (before after : List (Op V)) (h : .startNpcLogic ∉ before) :
    (run acc (Api.make f r) (before ++ .startNpcLogic :: after)).clock.scenarioTime =
      some (sumFrom 0 (steps acc r f (before ++ .startNpcLogic :: after)) - sumFrom 0 (steps acc r f before)) := by
  have hb := run_startedAt_none acc before (Api.make f r) h
  have hi := run_started acc before (Api.make f r) rfl
  have hns : (run acc (Api.make f r) before).npcStarted = false := by
    rw [hi]; unfold Clock.started; rw [hb]; rfl
  have he : exec acc (run acc (Api.make f r) before) .startNpcLogic =
      ({ run acc (Api.make f r) before with
          clock := { (run acc (Api.make f r) before).clock with startedAt := some (run acc (Api.make f r) before).clock.now },
          npcStarted := true }, .ok) := by
    have : (run acc (Api.make f r) before).clock.started = false := by rw [← hi, hns]
    simp only [exec, hns, Bool.false_eq_true, if_false, Clock.start, this]
  have hk := run_startedAt_keep acc after (exec acc (run acc (Api.make f r) before) .startNpcLogic).1
    (by rw [he]; rfl) _ (by rw [he])
  unfold Clock.scenarioTime
  have e : run acc (Api.make f r) (before ++ .startNpcLogic :: after) =
      run acc (exec acc (run acc (Api.make f r) before) .startNpcLogic).1 after := by
    rw [run_append]; rfl
  rw [← C30_simulation_time, ← C30_simulation_time, e, hk]
  rfl

/-- C30: starting twice is an error and changes nothing. -/
theorem C30_start_twice (acc : V → Bool) (f r : V) (os : List (Op V)) (h : .startNpcLogic ∈ os) :
    exec acc (run acc (Api.make f r) os) .startNpcLogic = (run acc (Api.make f r) os, .throws) := by
  have hs : (run acc (Api.make f r) os).npcStarted = true := by
    have hi := run_started acc os (Api.make f r) rfl
    rw [hi]
    obtain ⟨a, b, e, hna⟩ := first_start os h
    have := C30_after_start acc f r a b hna
    rw [← e] at this
    unfold Clock.scenarioTime at this
    unfold Clock.started
    cases hh : (run acc (Api.make f r) os).clock.startedAt with
    | none => rw [hh] at this; cases this
    | some _ => rfl
  simp only [exec, hs, if_true]

/-- C30: the environment simulator always has the step time of the clock. -/
theorem C30_step_mirrored (acc : V → Bool) (f r : V) (os : List (Op V)) :
    (run acc (Api.make f r) os).simStep = (run acc (Api.make f r) os).clock.step := by
  have : ∀ a : Api V, a.simStep = a.clock.step → (run acc a os).simStep = (run acc a os).clock.step := by
    induction os with
    | nil => exact fun _ h => h
    | cons o os ih =>
      intro a h
      refine ih (exec acc a o).1 ?_
      cases o with
      | frame b => cases b <;> exact h
      | startNpcLogic => rcases exec_start acc a with e | ⟨_, _, e⟩ <;> rw [e] <;> exact h
      | setStep x => simp only [exec_set]; cases acc x <;> first | exact h | rfl
  exact this _ rfl

/-- C30 with exact arithmetic: without a change of the real time factor, after `n` completed frames the
clock shows `n` steps, and `m` completed frames after the start scenario time is `m` steps. -/
theorem C30_exact {V : Type} [AddCommGroup V] [Div V] (acc : V → Bool) (f r : V) (before after : List (Op V))
    (h : .startNpcLogic ∉ before) (hb : ∀ x, .setStep x ∉ before) (ha : ∀ x, .setStep x ∉ after) :
    (run acc (Api.make f r) before).clock.now = (before.countP (fun o => o matches .frame true)) • (f / r) ∧
    (run acc (Api.make f r) (before ++ .startNpcLogic :: after)).clock.scenarioTime =
      some ((after.countP (fun o => o matches .frame true)) • (f / r)) := by
  have key : ∀ (os : List (Op V)), (∀ x, .setStep x ∉ os) → ∀ a : V,
      sumFrom a (steps acc r f os) = a + (os.countP (fun o => o matches .frame true)) • (f / r) := by
    intro os
    induction os with
    | nil => intro _ a; simp [steps, sumFrom]
    | cons o os ih =>
      intro hn a
      have hn' : ∀ x, .setStep x ∉ os := fun x c => hn x (by simp [c])
      cases o with
      | frame b =>
        cases b with
        | true =>
          show sumFrom (a + f / r) (steps acc r f os) = _
          rw [ih hn', List.countP_cons]
          simp [succ_nsmul', add_assoc]
        | false =>
          show sumFrom a (steps acc r f os) = _
          rw [ih hn', List.countP_cons]; simp
      | startNpcLogic =>
        show sumFrom a (steps acc r f os) = _
        rw [ih hn', List.countP_cons]; simp
      | setStep x => exact absurd (by simp) (hn x)
  refine ⟨by rw [C30_simulation_time, key before hb, zero_add], ?_⟩
  rw [C30_after_start acc f r before after h, key before hb, key]
  · rw [List.countP_append, List.countP_cons]
    simp [add_nsmul]
  · intro x c
    rcases List.mem_append.mp c with c | c
    · exact hb x c
    · rcases List.mem_cons.mp c with c | c
      · cases c
      · exact ha x c

/-- Two frames, start, a failed and a completed frame, the factor doubled, two more frames. -/
example : (run (fun x : Rat => decide (x ≥ 1/1000)) (Api.make 1 20) [.frame true, .frame true, .startNpcLogic,
      .frame false, .frame true, .setStep 2, .setStep 0, .frame true, .frame true]).clock
    = { factor := 2, rate := 20, now := 7/20, startedAt := some (1/10) } := by decide +kernel

end Verif.Clock
