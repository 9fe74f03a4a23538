import Verif.Release.DateTheorems
/-
C249: the planned path is the last one Autoware sent, whatever its release.
-/
namespace Verif.Release

variable {H P B : Type}

theorem convert_eq (f : OldPath H P B) : convert f = ⟨f.header, f.points, f.left, f.right⟩ := by
  have : ∀ (l a : List (P × List Nat)), l.foldl (fun l p => l ++ [(p.1, p.2)]) a = a ++ l := by
    intro l
    induction l with
    | nil => simp
    | cons p l ih => intro a; rw [List.foldl_cons, ih]; simp
  unfold convert
  rw [this]; simp

/-- C249: converting a path to the newer message keeps the header, the points in order with their lanes, and the bounds, each on its side. -/
theorem C249_convert (f : OldPath H P B) : (convert f).header = f.header ∧ (convert f).points = f.points ∧
    (convert f).left = f.left ∧ (convert f).right = f.right := by
  rw [convert_eq]; exact ⟨rfl, rfl, rfl, rfl⟩

/-- C249: there is one subscription, to one of the two messages, if the architecture contains "awf/universe"; otherwise it is refused. -/
theorem C249_one (blank : OldPath H P B) (t : Text) :
    (∀ s, subscribe blank t = some s → (s.new = true ∧ s.old = false) ∨ (s.new = false ∧ s.old = true)) ∧
    ((subscribe blank t).isSome = true ↔ ∃ a b, t = a ++ ['a', 'w', 'f', '/', 'u', 'n', 'i', 'v', 'e', 'r', 's', 'e'] ++ b) := by
  have one : ∀ t, has awf t = true → (availableNew t = true ∧ availableOld t = false) ∨ (availableNew t = false ∧ availableOld t = true) := by
    intro t h
    unfold availableNew availableOld
    rw [if_pos h, if_pos h]
    unfold upTo
    cases before t v20250130 <;> simp
  constructor
  · intro s h
    unfold subscribe at h
    by_cases k : has awf t = true
    · split at h
      · cases h; exact one t k
      · cases h
    · have : availableNew t = false ∧ availableOld t = false := by
        unfold availableNew availableOld; rw [if_neg k, if_neg k]; exact ⟨rfl, rfl⟩
      rw [this.1, this.2] at h
      simp at h
  · show _ ↔ ∃ a b, t = a ++ awf ++ b
    rw [← has_iff]
    unfold subscribe
    by_cases k : has awf t = true
    · rcases one t k with ⟨a, b⟩ | ⟨a, b⟩ <;> simp [a, b, k]
    · have : availableNew t = false ∧ availableOld t = false := by
        unfold availableNew availableOld; rw [if_neg k, if_neg k]; exact ⟨rfl, rfl⟩
      simp [this.1, this.2, k]

/-- C249: the newer message is taken from the releases of 30 January 2025 on, the older one from those before. -/
theorem C249_date (blank : OldPath H P B) (d : Day) (hd : d.Written) :
    ∃ s, subscribe blank (release d) = some s ∧ (s.new = true ↔ ¬ d.earlier ⟨2025, 1, 30⟩) ∧ (s.old = true ↔ d.earlier ⟨2025, 1, 30⟩) ∧
      path s = latest blank [] := by
  have w : Day.Written ⟨2025, 1, 30⟩ := by unfold Day.Written; decide
  have s : has awf (release d) = true := by
    have := (C248_dated_partial d ⟨[], [], [], [], [], [], [], [], [], true, true, true, [], []⟩).1
    exact this
  have n : availableNew (release d) = true ↔ ¬ d.earlier ⟨2025, 1, 30⟩ := by
    unfold availableNew; rw [if_pos s, is20250130, upTo_release w hd]
  have o : availableOld (release d) = true ↔ d.earlier ⟨2025, 1, 30⟩ := by
    unfold availableOld; rw [if_pos s, is20250130, C247_order hd w]
  refine ⟨⟨availableNew (release d), availableOld (release d), none, blank⟩, ?_, n, o, ?_⟩
  · unfold subscribe
    by_cases e : d.earlier ⟨2025, 1, 30⟩
    · simp [o.mpr e]
    · simp [n.mpr e]
  · show convert blank = _
    rw [convert_eq]; rfl

theorem receive_flags (s : Paths H P B) (l : List (Sent H P B)) : (l.foldl receive s).new = s.new ∧ (l.foldl receive s).old = s.old := by
  induction l generalizing s with
  | nil => exact ⟨rfl, rfl⟩
  | cons x l ih =>
    rw [List.foldl_cons]
    have := ih (receive s x)
    rw [this.1, this.2]
    cases x <;> (simp only [receive]; split <;> exact ⟨rfl, rfl⟩)

/-- C249: whatever Autoware sends, in whatever order, the path that is read is the last one sent with the message of its release, or the
blank one before the first. -/
theorem C249_latest (blank : OldPath H P B) (t : Text) (s : Paths H P B) (h : subscribe blank t = some s) (l : List (Sent H P B)) :
    path (l.foldl receive s) = latest blank (l.filter fun m => match m with | .new _ => s.new | .old _ => s.old) := by
  have hs : s.newValue = none ∧ s.oldValue = blank := by
    unfold subscribe at h
    split at h
    · cases h; exact ⟨rfl, rfl⟩
    · cases h
  have key : ∀ (l : List (Sent H P B)) (r : List (Sent H P B)), l = r.reverse →
      path (l.foldl receive s) = latest blank (l.filter fun m => match m with | .new _ => s.new | .old _ => s.old) ∧
      (s.new = false → (l.foldl receive s).newValue = none) := by
    intro l r
    induction r generalizing l with
    | nil =>
      rintro rfl
      refine ⟨?_, fun _ => hs.1⟩
      show path s = _
      unfold path
      rw [hs.1, hs.2]
      show convert blank = _
      rw [convert_eq]; rfl
    | cons m r ih =>
      rintro rfl
      obtain ⟨i, j⟩ := ih r.reverse rfl
      obtain ⟨fn, fo⟩ := receive_flags s r.reverse
      rw [List.reverse_cons, List.foldl_append, List.filter_append]
      generalize r.reverse.foldl receive s = u at *
      rcases (C249_one blank t).1 s h with ⟨a, b⟩ | ⟨a, b⟩
      · cases m with
        | new p => simp [receive, fn, a, path, latest]
        | old p => simp only [List.foldl_cons, List.foldl_nil, receive, fo, b, Bool.false_eq_true, if_false, List.filter_cons, List.filter_nil, List.append_nil]
                   rw [b] at i; exact ⟨i, j⟩
      · cases m with
        | new p => simp only [List.foldl_cons, List.foldl_nil, receive, fn, a, Bool.false_eq_true, if_false, List.filter_cons, List.filter_nil, List.append_nil]
                   rw [a] at i; exact ⟨i, fun _ => j a⟩
        | old p =>
          have : u.newValue = none := j a
          simp [receive, fo, b, path, latest, this, convert_eq]
  exact (key l l.reverse (by simp)).1

example : ∃ s, subscribe (⟨0, [], 0, 0⟩ : OldPath Nat Nat Nat) (release ⟨2024, 6, 5⟩) = some s ∧
    path ([.old ⟨1, [(5, [7])], 2, 3⟩, .new ⟨9, [], 0, 0⟩].foldl receive s) = ⟨1, [(5, [7])], 2, 3⟩ :=
  ⟨⟨false, true, none, ⟨0, [], 0, 0⟩⟩, by
    have a : availableNew (release ⟨2024, 6, 5⟩) = false := by decide +kernel
    have b : availableOld (release ⟨2024, 6, 5⟩) = true := by decide +kernel
    simp [subscribe, a, b], by decide +kernel⟩

end Verif.Release
