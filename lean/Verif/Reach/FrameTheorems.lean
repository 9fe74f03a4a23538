import Verif.Reach.Spec
import Mathlib.Algebra.Field.Rat
import Mathlib.Algebra.CharZero.Defs
import Mathlib.Algebra.Order.Ring.Rat
import Mathlib.Tactic.FieldSimp
import Mathlib.Tactic.Ring
/-
C243: the frames of coordinates that are published for the entities.
-/
namespace Verif.Reach

variable {K Q : Type} [Field K]

theorem foldl_axes (c : K) (l : List (Body K Q)) (p : K × K × K) :
    l.foldl (fun p b => (p.1 + b.position.1 * c, p.2.1 + b.position.2.1 * c, p.2.2 + b.position.2.2 * c)) p =
      (p.1 + (l.map (·.position.1)).sum * c, p.2.1 + (l.map (·.position.2.1)).sum * c, p.2.2 + (l.map (·.position.2.2)).sum * c) := by
  induction l generalizing p with
  | nil => simp
  | cons b l ih =>
    simp only [List.foldl_cons, ih, List.map_cons, List.sum_cons, Prod.mk.injEq]
    refine ⟨?_, ?_, ?_⟩ <;> ring

theorem mean_centre [CharZero K] (l : List (Body K Q)) (h : l ≠ []) : Centre l (mean l) := by
  have hn : (l.length : K) ≠ 0 := by
    rw [Nat.cast_ne_zero]
    exact fun e => h (List.length_eq_zero_iff.mp e)
  unfold Centre mean
  rw [foldl_axes]
  refine ⟨?_, ?_, ?_⟩ <;> simp only <;> field_simp <;> ring

omit [Field K] in
theorem firstEgo_some {l : List (Body K Q)} {p : Pose K Q} (h : firstEgo l = some p) : ∃ e ∈ l, e.ego = true ∧ p = ⟨e.position, e.orientation⟩ := by
  unfold firstEgo at h
  cases hf : l.find? (·.ego) with
  | none => rw [hf] at h; cases h
  | some e =>
    rw [hf] at h
    simp only [Option.map_some, Option.some.injEq] at h
    exact ⟨e, List.mem_of_find?_eq_some hf, List.find?_some hf, h.symm⟩

omit [Field K] in
theorem firstEgo_none {l : List (Body K Q)} (h : firstEgo l = none) : ∀ e ∈ l, e.ego = false := by
  unfold firstEgo at h
  simp only [Option.map_eq_none_iff, List.find?_eq_none] at h
  intro e he
  simpa using h e he

theorem broadcast_named (level : Q) (kept : Option (Pose K Q)) (l : List (Body K Q)) : Named l ((broadcast level kept l).2.map Prod.fst) := by
  unfold broadcast
  cases l with
  | nil => exact .nothing rfl
  | cons a l =>
    cases hf : firstEgo (a :: l) with
    | none => exact .others (by simp) (firstEgo_none hf)
    | some p =>
      obtain ⟨e, he, h, _⟩ := firstEgo_some hf
      exact .ego ⟨e, he, h⟩

/-- Once a pose is kept it is the one that is sent. -/
theorem broadcast_kept (level : Q) (p : Pose K Q) (l : List (Body K Q)) :
    (broadcast level (some p) l).1 = some p ∧ ∀ x ∈ (broadcast level (some p) l).2, x.2 = p := by
  unfold broadcast
  cases hf : firstEgo l <;> by_cases he : l.isEmpty = true <;> simp [he]

theorem broadcasts_kept (level : Q) (p : Pose K Q) (ls : List (List (Body K Q))) (n : Nat) (l : List (Body K Q)) (h : ls[n]? = some l) :
    ∃ out, (broadcasts level (some p) ls)[n]? = some out ∧ Named l (out.map Prod.fst) ∧ ∀ x ∈ out, x.2 = p := by
  induction ls generalizing n with
  | nil => simp at h
  | cons a ls ih =>
    cases n with
    | zero =>
      simp only [List.getElem?_cons_zero, Option.some.injEq] at h
      subst h
      exact ⟨(broadcast level (some p) a).2, by simp [broadcasts], broadcast_named _ _ _, (broadcast_kept _ _ _).2⟩
    | succ n =>
      simp only [List.getElem?_cons_succ] at h
      obtain ⟨out, h1, h2⟩ := ih n h
      refine ⟨out, ?_, h2⟩
      simp only [broadcasts, List.getElem?_cons_succ, (broadcast_kept level p a).1]
      exact h1

theorem broadcast_first [CharZero K] (level : Q) (l : List (Body K Q)) (h : l ≠ []) :
    ∃ p, (broadcast level none l).1 = some p ∧ (∀ x ∈ (broadcast level none l).2, x.2 = p) ∧
      ((∃ e ∈ l, e.ego = true ∧ p = ⟨e.position, e.orientation⟩) ∨ ((∀ e ∈ l, e.ego = false) ∧ Centre l p.position ∧ p.orientation = level)) := by
  have he : l.isEmpty = false := by simpa using h
  unfold broadcast
  cases hf : firstEgo l with
  | none => exact ⟨⟨mean l, level⟩, by simp [he], by simp [he], .inr ⟨firstEgo_none hf, mean_centre l h, rfl⟩⟩
  | some p => exact ⟨p, by simp [he], by simp [he], .inl (firstEgo_some hf)⟩

/-- C243. In every frame a frame of coordinates is sent for the Ego, if there is one, and one for the entities, if there are any. All of them, in the whole
history, lie at one place: where the Ego is, or the centre of the entities, when there are entities for the first time. -/
theorem C243_frames [CharZero K] (level : Q) (ls : List (List (Body K Q))) (h : ∃ l ∈ ls, l ≠ []) :
    ∃ p, Home level ls p ∧ ∀ (n : Nat) l, ls[n]? = some l →
      ∃ out, (broadcasts level none ls)[n]? = some out ∧ Named l (out.map Prod.fst) ∧ ∀ x ∈ out, x.2 = p := by
  induction ls with
  | nil => simp at h
  | cons a ls ih =>
    by_cases ha : a = []
    · subst ha
      obtain ⟨l, hl, hne⟩ := h
      obtain ⟨p, ⟨x, y, z, h1, h2, h3, h4⟩, hp⟩ := ih ⟨l, by
        rcases List.mem_cons.mp hl with e | e
        · exact absurd e hne
        · exact e, hne⟩
      refine ⟨p, ⟨[] :: x, y, z, by simp [h1], by simpa using h2, h3, h4⟩, ?_⟩
      intro n l hn
      cases n with
      | zero =>
        simp only [List.getElem?_cons_zero, Option.some.injEq] at hn
        subst hn
        exact ⟨[], by simp [broadcasts, broadcast, firstEgo], .nothing rfl, by simp⟩
      | succ n =>
        simp only [List.getElem?_cons_succ] at hn
        obtain ⟨out, h5, h6⟩ := hp n l hn
        exact ⟨out, by simpa [broadcasts, broadcast, firstEgo] using h5, h6⟩
    · obtain ⟨p, h1, h2, h3⟩ := broadcast_first level a ha
      refine ⟨p, ⟨[], a, ls, rfl, by simp, ha, h3⟩, ?_⟩
      intro n l hn
      cases n with
      | zero =>
        simp only [List.getElem?_cons_zero, Option.some.injEq] at hn
        subst hn
        exact ⟨_, by simp [broadcasts], broadcast_named _ _ _, h2⟩
      | succ n =>
        simp only [List.getElem?_cons_succ] at hn
        obtain ⟨out, h5, h6⟩ := broadcasts_kept level p ls n l hn
        refine ⟨out, ?_, h6⟩
        simp only [broadcasts, List.getElem?_cons_succ, h1]
        exact h5

/-- C243. As long as there are no entities nothing is sent. -/
theorem C243_none (level : Q) (ls : List (List (Body K Q))) (h : ∀ l ∈ ls, l = []) : ∀ out ∈ broadcasts level none ls, out = [] := by
  induction ls with
  | nil => simp [broadcasts]
  | cons a ls ih =>
    have ha := h a (by simp)
    subst ha
    have hb : broadcast level (none : Option (Pose K Q)) [] = (none, []) := by simp [broadcast, firstEgo]
    simp only [broadcasts, hb, List.mem_cons, forall_eq_or_imp, true_and]
    exact ih fun l hl => h l (by simp [hl])

/-- C243, in part: when there are entities for the first time and an Ego is among them, the frame "ego" lies at it, if there is one Ego. Missing: the frames after it. -/
theorem C243_ego_partial (level : Q) (l : List (Body K Q)) (e : Body K Q) (he : e ∈ l) (hg : e.ego = true) (h1 : ∀ x ∈ l, x.ego = true → x = e) :
    ("ego", (⟨e.position, e.orientation⟩ : Pose K Q)) ∈ (broadcast level none l).2 := by
  have hne : l.isEmpty = false := by
    cases l with
    | nil => simp at he
    | cons => rfl
  unfold broadcast
  cases hf : firstEgo l with
  | none => rw [firstEgo_none hf e he] at hg; cases hg
  | some p =>
    obtain ⟨x, hx, hg', rfl⟩ := firstEgo_some hf
    rw [h1 x hx hg']
    simp [hne]

/-- An Ego and a car. -/
def egoAt (x : ℚ) : Body ℚ Nat := ⟨"ego", true, (x, 0, 0), 1⟩
def carAt (x : ℚ) : Body ℚ Nat := ⟨"car", false, (x, 2, 0), 3⟩

example : Home 0 [[], [carAt 2, carAt 4], [carAt 3, egoAt 1]] ⟨(3, 2, 0), 0⟩ := by
  refine ⟨[[]], [carAt 2, carAt 4], [[carAt 3, egoAt 1]], rfl, by simp, by simp, .inr ⟨by decide +kernel, ?_, rfl⟩⟩
  unfold Centre
  decide +kernel

example : broadcasts 0 none [[], [carAt 2, carAt 4], [carAt 3, egoAt 1]] =
    [[], [("entities", ⟨(3, 2, 0), 0⟩)], [("ego", ⟨(3, 2, 0), 0⟩), ("entities", ⟨(3, 2, 0), 0⟩)]] := by decide +kernel

example : ("ego", (⟨(1, 0, 0), 1⟩ : Pose ℚ Nat)) ∈ (broadcast 0 none [carAt 3, egoAt 1]).2 :=
  C243_ego_partial 0 [carAt 3, egoAt 1] (egoAt 1) (by simp) rfl (by decide +kernel)

/-- C243 does not hold for the frame of the Ego: it does not follow the Ego. -/
theorem C243_follows_violated : ∃ (ls : List (List (Body ℚ Nat))) (l : List (Body ℚ Nat)) (e : Body ℚ Nat) (out : List (String × Pose ℚ Nat)),
    ls[1]? = some l ∧ l = [e] ∧ e.ego = true ∧ (broadcasts 0 none ls)[1]? = some out ∧ ("ego", (⟨e.position, e.orientation⟩ : Pose ℚ Nat)) ∉ out :=
  ⟨[[egoAt 0], [egoAt 5]], [egoAt 5], egoAt 5, [("ego", ⟨(0, 0, 0), 1⟩), ("entities", ⟨(0, 0, 0), 1⟩)], by decide +kernel⟩

/-- C243 does not hold for an Ego that is added after other entities: its frame was never where any Ego has been. -/
theorem C243_late_violated : ∃ (ls : List (List (Body ℚ Nat))) (out : List (String × Pose ℚ Nat)) (p : Pose ℚ Nat),
    (broadcasts 0 none ls)[1]? = some out ∧ ("ego", p) ∈ out ∧ ∀ l ∈ ls, ∀ e ∈ l, e.ego = true → e.position ≠ p.position :=
  ⟨[[carAt 7], [carAt 7, egoAt 0]], [("ego", ⟨(7, 2, 0), 0⟩), ("entities", ⟨(7, 2, 0), 0⟩)], ⟨(7, 2, 0), 0⟩, by decide +kernel⟩

end Verif.Reach
