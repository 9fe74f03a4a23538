import Verif.Registry.Model
/-
The table of pairwise distances.
-/
namespace Verif.Registry
variable {ν P D : Type} [LinearOrder ν]

theorem minmax_comm (a b : ν) : minmax a b = minmax b a := by
  unfold minmax
  rcases lt_trichotomy a b with h | h | h
  · rw [if_neg (not_lt_of_gt h), if_pos h]
  · subst h; rfl
  · rw [if_pos h, if_neg (not_lt_of_gt h)]

theorem minmax_inj {a b c d : ν} (h : minmax a b = minmax c d) : (a = c ∧ b = d) ∨ (a = d ∧ b = c) := by
  unfold minmax at h
  split at h <;> split at h <;> simp only [Prod.mk.injEq] at h <;> simp [h]

/-- What is in the table is right, each key once. -/
structure Good (dist : P → P → D) (es : List (ν × P)) (m : List ((ν × ν) × D)) : Prop where
  sound : ∀ x ∈ m, ∃ e ∈ es, ∃ f ∈ es, e.1 ≠ f.1 ∧ x = (minmax e.1 f.1, dist e.2 f.2)
  nodup : (m.map (·.1)).Nodup

theorem lookup_none_iff {κ δ : Type} [BEq κ] [LawfulBEq κ] (k : κ) (m : List (κ × δ)) : m.lookup k = none ↔ k ∉ m.map (·.1) := by
  induction m with
  | nil => simp
  | cons x m ih =>
    obtain ⟨a, b⟩ := x
    rw [List.lookup_cons]
    by_cases c : k = a
    · subst c; simp
    · have : (k == a) = false := by simpa using c
      simp only [this, ih, List.map_cons, List.mem_cons, c, false_or]

theorem good_from (dist : P → P → D) (es : List (ν × P)) (e : ν × P) (he : e ∈ es) (fs : List (ν × P))
    (hf : ∀ f ∈ fs, f ∈ es) (m : List ((ν × ν) × D)) (h : Good dist es m) :
    Good dist es (distancesFrom dist e fs m) ∧ (∀ x ∈ m, x ∈ distancesFrom dist e fs m) ∧
    ∀ f ∈ fs, e.1 ≠ f.1 → minmax e.1 f.1 ∈ (distancesFrom dist e fs m).map (·.1) := by
  induction fs generalizing m with
  | nil => exact ⟨h, fun _ h => h, by simp⟩
  | cons f fs ih =>
    unfold distancesFrom
    have ih' := fun m h => ih (fun f' h' => hf f' (by simp [h'])) m h
    dsimp only
    split
    · rename_i c
      obtain ⟨i1, i2, i3⟩ := ih' (m ++ [(minmax e.1 f.1, dist e.2 f.2)]) ⟨by
          intro x hx
          rcases List.mem_append.mp hx with hx | hx
          · exact h.sound x hx
          · simp only [List.mem_singleton] at hx
            exact ⟨e, he, f, hf f (by simp), c.2, hx⟩, by
          rw [List.map_append, List.nodup_append]
          refine ⟨h.nodup, by simp, ?_⟩
          intro a ha b hb eq
          simp only [List.map_cons, List.map_nil, List.mem_singleton] at hb
          subst hb eq
          exact (lookup_none_iff _ _).mp c.1 ha⟩
      refine ⟨i1, fun x hx => i2 x (by simp [hx]), ?_⟩
      intro f' hf' hne
      rcases List.mem_cons.mp hf' with rfl | hf'
      · exact List.mem_map.mpr ⟨(minmax e.1 f'.1, dist e.2 f'.2), i2 _ (by simp), rfl⟩
      · exact i3 f' hf' hne
    · rename_i c
      obtain ⟨i1, i2, i3⟩ := ih' m h
      refine ⟨i1, i2, ?_⟩
      intro f' hf' hne
      rcases List.mem_cons.mp hf' with rfl | hf'
      · have : m.lookup (minmax e.1 f'.1) ≠ none := fun c' => c ⟨c', hne⟩
        rw [Ne, lookup_none_iff, Classical.not_not] at this
        obtain ⟨x, hx, ex⟩ := List.mem_map.mp this
        exact List.mem_map.mpr ⟨x, i2 x hx, ex⟩
      · exact i3 f' hf' hne

theorem good_fold (dist : P → P → D) (es : List (ν × P)) (gs : List (ν × P)) (hg : ∀ g ∈ gs, g ∈ es)
    (m : List ((ν × ν) × D)) (h : Good dist es m) :
    Good dist es (gs.foldl (fun m e => distancesFrom dist e es m) m) ∧
    (∀ x ∈ m, x ∈ gs.foldl (fun m e => distancesFrom dist e es m) m) ∧
    ∀ g ∈ gs, ∀ f ∈ es, g.1 ≠ f.1 →
      minmax g.1 f.1 ∈ (gs.foldl (fun m e => distancesFrom dist e es m) m).map (·.1) := by
  induction gs generalizing m with
  | nil => exact ⟨h, fun _ h => h, by simp⟩
  | cons g gs ih =>
    obtain ⟨h1, h2, h3⟩ := good_from dist es g (hg g (by simp)) es (fun _ h => h) m h
    obtain ⟨i1, i2, i3⟩ := ih (fun g' h' => hg g' (by simp [h'])) _ h1
    rw [List.foldl_cons]
    refine ⟨i1, fun x hx => i2 x (h2 x hx), ?_⟩
    intro g' hg' f hf hne
    rcases List.mem_cons.mp hg' with rfl | hg'
    · obtain ⟨x, hx, ex⟩ := List.mem_map.mp (h3 f hf hne)
      exact List.mem_map.mpr ⟨x, i2 x hx, ex⟩
    · exact i3 g' hg' f hf hne

theorem distances_good (dist : P → P → D) (es : List (ν × P)) : Good dist es (distances dist es) ∧
    ∀ g ∈ es, ∀ f ∈ es, g.1 ≠ f.1 → minmax g.1 f.1 ∈ (distances dist es).map (·.1) := by
  obtain ⟨h1, _, h3⟩ := good_fold dist es es (fun _ h => h) [] ⟨by simp, by simp⟩
  exact ⟨h1, h3⟩

end Verif.Registry
