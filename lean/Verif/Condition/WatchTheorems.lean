import Verif.Condition.Watch
/-
C14 (StoryboardElementStateCondition latches) and C45 (triggering entities rule).
-/
namespace Verif.Condition

open Verif.Storyboard (St)

/-! ### C14 -/

/-- The watcher cannot be confused by a veto: either it does not watch startTransition or the element
is never vetoed. -/
def NoVeto (target : St) (ops : List WatchOp) : Prop := target = .start → .vetoed ∉ ops

theorem step_keeps {target : St} {w : Watch} {op : WatchOp} (hop : target = .start → op ≠ .vetoed)
    (h : w.current = target) : (w.step target op).current = target := by
  cases op with
  | enter s => simp only [Watch.step, Watch.notify]; split <;> simp_all
  | vetoed =>
    have ht : target ≠ .start := fun ht => hop ht rfl
    simp only [Watch.step, Watch.notify]
    rw [if_neg (fun h => ht h.symm)]
    split
    · rename_i hs; exact hs
    · exact h
  | eval => simp only [Watch.step, h, if_true]

theorem foldl_keeps {target : St} {ops : List WatchOp} : ∀ {w : Watch}, NoVeto target ops →
    w.current = target → (ops.foldl (Watch.step target) w).current = target := by
  induction ops with
  | nil => intro w _ h; exact h
  | cons op ops ih =>
    intro w hn h
    refine ih (fun ht hm => hn ht (List.mem_cons_of_mem _ hm)) (step_keeps ?_ h)
    intro ht heq; subst heq; exact hn ht List.mem_cons_self

/-- **C14** for watchers that are not confused by a veto (the part missing is the case `target =
startTransition` of a vetoed skip event, see `C14_violated`): once the element entered the watched
state, every later evaluation is true. -/
theorem C14_latches_partial (target : St) (pre post : List WatchOp)
    (h : NoVeto target (pre ++ .enter target :: post)) :
    (Watch.run target (pre ++ .enter target :: post ++ [.eval])).values.head? = some true := by
  have hn : NoVeto target post := fun ht hm => h ht (by simp [hm])
  have key : (Watch.run target (pre ++ .enter target :: post)).current = target := by
    simp only [Watch.run, List.foldl_append, List.foldl_cons]
    exact foldl_keeps hn (by simp [Watch.step, Watch.notify])
  have hrun : Watch.run target (pre ++ .enter target :: post ++ [.eval]) =
      (Watch.run target (pre ++ .enter target :: post)).step target .eval := by
    simp [Watch.run]
  rw [hrun]
  simp [Watch.step, key]

/-- **C14, converse.** An evaluation is true only if the element has been in the watched state: it
entered it before (or it is standby, in which every element begins, or a veto returned it there). -/
theorem C14_true_only_if_entered (target : St) (ops : List WatchOp)
    (h : (Watch.run target (ops ++ [.eval])).values.head? = some true) :
    .enter target ∈ ops ∨ target = .standby := by
  have inv : ∀ ops : List WatchOp,
      (∀ s, (Watch.run target ops).current = s ∨ (Watch.run target ops).element = s →
        .enter s ∈ ops ∨ s = .standby) := by
    intro ops
    obtain ⟨n, hn⟩ : ∃ n, ops.length = n := ⟨_, rfl⟩
    induction n generalizing ops with
    | zero =>
      rw [List.length_eq_zero_iff.1 hn]
      rintro s (rfl | rfl) <;> exact Or.inr rfl
    | succ n ih =>
      rcases List.eq_nil_or_concat ops with rfl | ⟨ops, op, rfl⟩
      · simp at hn
      · rw [List.concat_eq_append] at *
        have ih := ih ops (by simpa using hn)
        have hrun : Watch.run target (ops ++ [op]) = (Watch.run target ops).step target op := by
          simp [Watch.run]
        rw [hrun]
        generalize Watch.run target ops = w at ih
        have up : ∀ s, (.enter s ∈ ops ∨ s = .standby) → (.enter s ∈ ops ++ [op] ∨ s = .standby) := by
          rintro s (h | h)
          · left; simp [h]
          · right; exact h
        intro s hs
        cases op with
        | enter t =>
          simp only [Watch.step, Watch.notify] at hs
          split at hs
          · rcases hs with hs | hs <;> (simp only at hs; subst hs; left; simp)
          · rcases hs with hs | hs
            · exact up s (ih s (Or.inl hs))
            · simp only at hs; subst hs; left; simp
        | vetoed =>
          simp only [Watch.step, Watch.notify] at hs
          split at hs <;> split at hs <;> rcases hs with hs | hs <;>
            first
            | exact Or.inr hs.symm
            | exact up s (ih s (Or.inl hs))
        | eval =>
          simp only [Watch.step] at hs
          split at hs
          · exact up s (ih s hs)
          · rcases hs with hs | hs <;> exact up s (ih s (Or.inr hs))
  have hrun : Watch.run target (ops ++ [.eval]) = (Watch.run target ops).step target .eval := by
    simp [Watch.run]
  rw [hrun] at h
  simp only [Watch.step] at h
  split at h
  · rename_i hc; exact inv ops target (Or.inl hc)
  · refine inv ops target (Or.inr ?_)
    simpa using h

/-- **C14 is violated** for a condition watching startTransition of a skip event: after the element
entered startTransition and the condition was true, a later vetoed start makes it false again. -/
theorem C14_violated :
    (Watch.run .start [.enter .start, .eval, .enter .running, .enter .end, .enter .standby, .vetoed,
      .eval]).values = [false, true] := by decide

/-- The hypotheses of the partial theorem hold for a watcher of endTransition. -/
example : NoVeto .end ([.eval, .vetoed, .enter .start, .enter .running] ++ .enter .end ::
    [.enter .complete, .eval]) := by
  intro h; cases h

/-! ### C45 -/

/-- **C45.** With rule `all` (`any`) a by-entity condition is true iff all (some) of the triggering
entities satisfy it, and these are the only rules that can be written. -/
theorem C45_rule {α : Type} (p : α → Bool) (xs : List α) :
    ((EntitiesRule.all.apply p xs).1 = true ↔ ∀ x ∈ xs, p x = true) ∧
    ((EntitiesRule.any.apply p xs).1 = true ↔ ∃ x ∈ xs, p x = true) ∧
    ((EntitiesRule.none.apply p xs).1 = true ↔ ∀ x ∈ xs, p x = false) := by
  have h1 : (allOf p xs).1 = xs.all p := by
    induction xs with
    | nil => rfl
    | cons x xs ih => simp only [allOf]; split <;> simp_all
  have h2 : (anyOf p xs).1 = xs.any p := by
    clear h1
    induction xs with
    | nil => rfl
    | cons x xs ih => simp only [anyOf]; split <;> simp_all
  simp [EntitiesRule.apply, h1, h2]

/-- **C45.** The entities the predicate is applied to (whose measurements the condition reports) are
an initial segment of the triggering entities in document order, and all of them unless the value is
already decided by the last one examined. -/
theorem C45_examined {α : Type} (rule : EntitiesRule) (p : α → Bool) (xs : List α) :
    (rule.apply p xs).2 <+: xs ∧
    ((rule.apply p xs).2 = xs ∨
      ∃ ys x, (rule.apply p xs).2 = ys ++ [x] ∧ p x = (rule != .all)) := by
  have h1 : (allOf p xs).2 <+: xs ∧
      ((allOf p xs).2 = xs ∨ ∃ ys x, (allOf p xs).2 = ys ++ [x] ∧ p x = false) := by
    induction xs with
    | nil => exact ⟨List.prefix_rfl, Or.inl rfl⟩
    | cons x xs ih =>
      simp only [allOf]
      split
      · refine ⟨List.cons_prefix_cons.2 ⟨rfl, ih.1⟩, ?_⟩
        rcases ih.2 with h | ⟨ys, y, h, hy⟩
        · left; simp [h]
        · right; exact ⟨x :: ys, y, by simp [h], hy⟩
      · rename_i hx
        exact ⟨by simp, Or.inr ⟨[], x, rfl, by simpa using hx⟩⟩
  have h2 : (anyOf p xs).2 <+: xs ∧
      ((anyOf p xs).2 = xs ∨ ∃ ys x, (anyOf p xs).2 = ys ++ [x] ∧ p x = true) := by
    clear h1
    induction xs with
    | nil => exact ⟨List.prefix_rfl, Or.inl rfl⟩
    | cons x xs ih =>
      simp only [anyOf]
      split
      · rename_i hx
        exact ⟨by simp, Or.inr ⟨[], x, rfl, by simpa using hx⟩⟩
      · refine ⟨List.cons_prefix_cons.2 ⟨rfl, ih.1⟩, ?_⟩
        rcases ih.2 with h | ⟨ys, y, h, hy⟩
        · left; simp [h]
        · right; exact ⟨x :: ys, y, by simp [h], hy⟩
  cases rule
  · exact h1
  · exact h2
  · exact h2

/-- Exactly the two rules of the standard can be read. -/
theorem C45_read (s : String) (r : EntitiesRule) :
    EntitiesRule.read s = some r ↔ (s = "all" ∧ r = .all) ∨ (s = "any" ∧ r = .any) := by
  unfold EntitiesRule.read
  by_cases h1 : s = "all"
  · subst h1; simp [eq_comm]
  · by_cases h2 : s = "any"
    · subst h2; simp [eq_comm]
    · simp [h1, h2]

example : (EntitiesRule.any.apply (fun n : Nat => n > 1) [1, 2, 3]) = (true, [1, 2]) := by decide

end Verif.Condition
