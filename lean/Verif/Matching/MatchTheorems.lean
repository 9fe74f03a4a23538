import Verif.Matching.PlaceTheorems
/-! C220, C221: the choice of a lane. -/
namespace Verif.Matching
open Verif.Geometry Classical

theorem onLane_id {r : Road} {p : Pose} {i : Id} {reach : ℝ} {l : LanePose} (h : onLane r p i reach = some (some l)) : l.id = i := by
  unfold onLane at h
  cases hc : r.centre i with
  | none => rw [hc] at h; cases h
  | some k => rw [hc] at h; exact (toLane_some h).2.2.2

/-! ### The first lane with a place -/

theorem onLanes_first (r : Road) (p : Pose) (reach : ℝ) (l : List Id) :
    FirstPlace (fun i => onLane r p i reach) l (onLanes r p reach l) := by
  induction l with
  | nil =>
    refine ⟨by simp [onLanes], fun a ha => ⟨fun h => absurd h.symm ha, ?_⟩⟩
    rintro ⟨b, i, c, h, -⟩
    cases b <;> cases h
  | cons i l ih =>
    obtain ⟨h1, h2⟩ := ih
    cases hi : onLane r p i reach with
    | none =>
      have e : onLanes r p reach (i :: l) = none := by simp [onLanes, hi]
      rw [e]
      refine ⟨⟨nofun, fun h => ?_⟩, fun a ha => ⟨?_, ?_⟩⟩
      · have := h i (by simp); simp only at this; rw [hi] at this; cases this
      · rintro rfl
        exact ⟨[], i, l, rfl, hi, by simp⟩
      · rintro ⟨b, j, c, hl, hj, hb⟩
        cases b with
        | nil => simp only [List.nil_append, List.cons.injEq] at hl; rw [← hl.1] at hj; rw [← hj]; exact hi.symm
        | cons x b =>
          simp only [List.cons_append, List.cons.injEq] at hl
          have := hb x (by simp)
          simp only at this
          rw [← hl.1, hi] at this; cases this
    | some o =>
      cases o with
      | some x =>
        have e : onLanes r p reach (i :: l) = some (some x) := by simp [onLanes, hi]
        rw [e]
        refine ⟨⟨nofun, fun h => ?_⟩, fun a ha => ⟨?_, ?_⟩⟩
        · have := h i (by simp); simp only at this; rw [hi] at this; cases this
        · rintro rfl
          exact ⟨[], i, l, rfl, hi, by simp⟩
        · rintro ⟨b, j, c, hl, hj, hb⟩
          cases b with
          | nil => simp only [List.nil_append, List.cons.injEq] at hl; rw [← hl.1] at hj; rw [← hj]; exact hi.symm
          | cons y b =>
            simp only [List.cons_append, List.cons.injEq] at hl
            have := hb y (by simp)
            simp only at this
            rw [← hl.1, hi] at this; cases this
      | none =>
        have e : onLanes r p reach (i :: l) = onLanes r p reach l := by simp [onLanes, hi]
        rw [e]
        refine ⟨?_, fun a ha => ?_⟩
        · rw [h1]
          constructor
          · intro h j hj
            rcases List.mem_cons.mp hj with rfl | hj
            · exact hi
            · exact h j hj
          · intro h j hj; exact h j (List.mem_cons_of_mem _ hj)
        · rw [h2 a ha]
          constructor
          · rintro ⟨b, j, c, hl, hj, hb⟩
            refine ⟨i :: b, j, c, by rw [hl]; rfl, hj, ?_⟩
            intro x hx
            rcases List.mem_cons.mp hx with rfl | hx
            · exact hi
            · exact hb x hx
          · rintro ⟨b, j, c, hl, hj, hb⟩
            cases b with
            | nil =>
              simp only [List.nil_append, List.cons.injEq] at hl
              rw [← hl.1] at hj
              simp only at hj
              rw [hi] at hj
              exact absurd hj.symm ha
            | cons x b =>
              simp only [List.cons_append, List.cons.injEq] at hl
              exact ⟨b, j, c, hl.2, hj, fun y hy => hb y (List.mem_cons_of_mem _ hy)⟩

theorem onLanes_append (r : Road) (p : Pose) (reach : ℝ) (l m : List Id) :
    onLanes r p reach (l ++ m) = match onLanes r p reach l with
      | none => none
      | some (some x) => some (some x)
      | some none => onLanes r p reach m := by
  induction l with
  | nil => simp [onLanes]
  | cons i l ih =>
    simp only [List.cons_append, onLanes]
    cases onLane r p i reach with
    | none => rfl
    | some o =>
      cases o with
      | none => exact ih
      | some x => rfl

/-! ### The closest lane -/

theorem insert_mem (x y : ℝ × Id) (l : List (ℝ × Id)) : y ∈ insert x l ↔ y = x ∨ y ∈ l := by
  induction l with
  | nil => simp [insert]
  | cons z l ih =>
    unfold insert
    split
    · simp
    · split
      · rename_i h
        rw [h]; simp
      · simp only [List.mem_cons, ih]; tauto

/-- The order of a set of pairs. -/
def Less (x y : ℝ × Id) : Prop := x.1 < y.1 ∨ (x.1 = y.1 ∧ x.2 < y.2)

theorem less_trans {x y z : ℝ × Id} (h : Less x y) (h' : Less y z) : Less x z := by
  unfold Less at *
  rcases h with h | ⟨h, k⟩ <;> rcases h' with h' | ⟨h', k'⟩
  · exact Or.inl (h.trans h')
  · exact Or.inl (h' ▸ h)
  · exact Or.inl (h ▸ h')
  · exact Or.inr ⟨h.trans h', k.trans k'⟩

theorem less_of_not {x y : ℝ × Id} (h : ¬ Less x y) (hne : x ≠ y) : Less y x := by
  unfold Less at *
  push Not at h
  rcases lt_trichotomy x.1 y.1 with h1 | h1 | h1
  · exact absurd h1 (not_lt.mpr h.1)
  · have := h.2 h1
    refine Or.inr ⟨h1.symm, lt_of_le_of_ne this fun h2 => hne (Prod.ext h1 h2.symm)⟩
  · exact Or.inl h1

theorem insert_sorted (x : ℝ × Id) {l : List (ℝ × Id)} (h : l.Pairwise Less) : (insert x l).Pairwise Less := by
  induction l with
  | nil => simp [insert]
  | cons y l ih =>
    rw [List.pairwise_cons] at h
    unfold insert
    split
    · rename_i hl
      rw [List.pairwise_cons]
      refine ⟨fun z hz => ?_, List.pairwise_cons.mpr h⟩
      rcases List.mem_cons.mp hz with rfl | hz
      · exact hl
      · exact less_trans hl (h.1 z hz)
    · rename_i hl
      split
      · exact List.pairwise_cons.mpr h
      · rename_i hne
        rw [List.pairwise_cons]
        refine ⟨fun z hz => ?_, ih h.2⟩
        rcases (insert_mem x z l).mp hz with rfl | hz
        · exact less_of_not hl hne
        · exact h.1 z hz

theorem collect_spec (r : Road) (p : Pose) (reach : ℝ) (l : List Id) (set : List (ℝ × Id)) (h : set.Pairwise Less) :
    (collect r p reach l set = none ↔ ∃ i ∈ l, onLane r p i reach = none) ∧
    ∀ out, collect r p reach l set = some out → out.Pairwise Less ∧
      ∀ y, y ∈ out ↔ y ∈ set ∨ ∃ i ∈ l, ∃ x, onLane r p i reach = some (some x) ∧ y = (x.offset, i) := by
  induction l generalizing set with
  | nil =>
    refine ⟨by simp [collect], fun out ho => ?_⟩
    simp only [collect, Option.some.injEq] at ho
    rw [← ho]
    exact ⟨h, by simp⟩
  | cons i l ih =>
    cases hi : onLane r p i reach with
    | none =>
      have e : collect r p reach (i :: l) set = none := by simp [collect, hi]
      rw [e]
      refine ⟨⟨fun _ => ⟨i, by simp, hi⟩, fun _ => rfl⟩, fun out ho => by cases ho⟩
    | some o =>
      cases o with
      | none =>
        have e : collect r p reach (i :: l) set = collect r p reach l set := by simp [collect, hi]
        rw [e]
        obtain ⟨h1, h2⟩ := ih set h
        refine ⟨?_, fun out ho => ?_⟩
        · rw [h1]; simp [hi]
        · obtain ⟨a, b⟩ := h2 out ho
          refine ⟨a, fun y => ?_⟩
          rw [b]; simp [hi]
      | some x =>
        have hx := onLane_id hi
        have e : collect r p reach (i :: l) set = collect r p reach l (insert (x.offset, i) set) := by simp [collect, hi, hx]
        rw [e]
        obtain ⟨h1, h2⟩ := ih _ (insert_sorted (x.offset, i) h)
        refine ⟨?_, fun out ho => ?_⟩
        · rw [h1]; simp [hi]
        · obtain ⟨a, b⟩ := h2 out ho
          refine ⟨a, fun y => ?_⟩
          rw [b, insert_mem]
          simp only [List.mem_cons, exists_eq_or_imp, hi, Option.some.injEq]
          constructor
          · rintro ((h | h) | h)
            · exact Or.inr (Or.inl ⟨x, rfl, h⟩)
            · exact Or.inl h
            · exact Or.inr (Or.inr h)
          · rintro (h | ⟨z, rfl, h⟩ | h)
            · exact Or.inl (Or.inr h)
            · exact Or.inl (Or.inl h)
            · exact Or.inr h

theorem foldl_insert (l : List (ℝ × Id)) (set : List (ℝ × Id)) (h : set.Pairwise Less) :
    (l.foldl (fun sorted x => insert (|x.1|, x.2) sorted) set).Pairwise Less ∧
    ∀ y, y ∈ l.foldl (fun sorted x => insert (|x.1|, x.2) sorted) set ↔ y ∈ set ∨ ∃ x ∈ l, y = (|x.1|, x.2) := by
  induction l generalizing set with
  | nil => exact ⟨h, by simp⟩
  | cons x l ih =>
    rw [List.foldl_cons]
    obtain ⟨a, b⟩ := ih _ (insert_sorted (|x.1|, x.2) h)
    refine ⟨a, fun y => ?_⟩
    rw [b, insert_mem]
    simp only [List.mem_cons, exists_eq_or_imp]
    tauto

/-- The lanes that are considered for a box. -/
noncomputable def found (r : Road) (p : Pose) (box : BBox) (crosswalk : Bool) (reach ratio : ℝ) : List Id :=
  if crosswalk then r.within (hull p box ratio) reach else (r.within (hull p box ratio) reach).filter r.compliant

theorem findMatching_spec (r : Road) (p : Pose) (box : BBox) (crosswalk : Bool) (reach ratio : ℝ) :
    (findMatching r p box crosswalk reach ratio = none ↔ ∃ i ∈ found r p box crosswalk reach ratio, onLane r p i reach = none) ∧
    (findMatching r p box crosswalk reach ratio = some none ↔ ∀ i ∈ found r p box crosswalk reach ratio, onLane r p i reach = some none) ∧
    ∀ set, findMatching r p box crosswalk reach ratio = some (some set) → set ≠ [] ∧ set.Pairwise Less ∧
      ∀ y, y ∈ set ↔ ∃ i ∈ found r p box crosswalk reach ratio, ∃ x, onLane r p i reach = some (some x) ∧ y = (x.offset, i) := by
  have e : findMatching r p box crosswalk reach ratio =
      if found r p box crosswalk reach ratio = [] then some none
      else match collect r p reach (found r p box crosswalk reach ratio) [] with
        | none => none
        | some set => some (if set = [] then none else some set) := rfl
  rw [e]
  generalize found r p box crosswalk reach ratio = l
  by_cases hl : l = []
  · rw [if_pos hl, hl]
    simp
  · rw [if_neg hl]
    obtain ⟨h1, h2⟩ := collect_spec r p reach l [] List.Pairwise.nil
    cases hc : collect r p reach l [] with
    | none =>
      simp only [reduceCtorEq, false_iff, true_iff]
      obtain ⟨i, hi, hn⟩ := h1.mp hc
      refine ⟨⟨i, hi, hn⟩, fun h => ?_, fun set h => by cases h⟩
      rw [h i hi] at hn; cases hn
    | some set =>
      obtain ⟨hs, hm⟩ := h2 set hc
      have hdef : ¬ ∃ i ∈ l, onLane r p i reach = none := by
        rw [← h1, hc]; simp
      simp only [List.not_mem_nil, false_or] at hm
      simp only [reduceCtorEq, false_iff, Option.some.injEq]
      refine ⟨hdef, ?_, ?_⟩
      · by_cases hset : set = []
        · rw [if_pos hset]
          simp only [true_iff]
          intro i hi
          cases ho : onLane r p i reach with
          | none => exact absurd ⟨i, hi, ho⟩ hdef
          | some o =>
            cases o with
            | none => rfl
            | some x =>
              have := (hm _).mpr ⟨i, hi, x, ho, rfl⟩
              rw [hset] at this; cases this
        · rw [if_neg hset]
          simp only [reduceCtorEq, false_iff]
          intro h
          obtain ⟨y, hy⟩ := List.exists_mem_of_ne_nil _ hset
          obtain ⟨i, hi, x, hx, -⟩ := (hm y).mp hy
          rw [h i hi] at hx; cases hx
      · intro out ho
        by_cases hset : set = []
        · rw [if_pos hset] at ho; cases ho
        · rw [if_neg hset] at ho
          cases ho
          exact ⟨hset, hs, hm⟩

/-- **C220** Of the lanes that are near enough to the box (and on which the entity may drive, if no crosswalk is asked for), the one is taken on
which the entity is closest to the centre line, and of several the one with the least number. There is none exactly if the pose has a place on none
of them. The call fails exactly if one of them fails. -/
theorem C220_closest (r : Road) (p : Pose) (box : BBox) (crosswalk : Bool) (reach ratio : ℝ) (lanes : List Id)
    (hl : ∀ i, i ∈ lanes ↔ i ∈ r.within (hull p box ratio) reach ∧ (crosswalk = true ∨ r.compliant i = true)) :
    (matchToLane r p box crosswalk reach ratio = none ↔ ∃ i ∈ lanes, onLane r p i reach = none) ∧
    (matchToLane r p box crosswalk reach ratio = some none ↔ ∀ i ∈ lanes, onLane r p i reach = some none) ∧
    ∀ id, matchToLane r p box crosswalk reach ratio = some (some id) → Closest (fun i => onLane r p i reach) lanes id := by
  have hf : ∀ i, i ∈ found r p box crosswalk reach ratio ↔ i ∈ lanes := by
    intro i
    rw [hl]
    unfold found
    cases crosswalk <;> simp
  obtain ⟨h1, h2, h3⟩ := findMatching_spec r p box crosswalk reach ratio
  simp only [hf] at h1 h2 h3
  rw [← h1, ← h2]
  unfold matchToLane
  cases hm : findMatching r p box crosswalk reach ratio with
  | none => simp
  | some o =>
    cases o with
    | none => simp
    | some set =>
      obtain ⟨hne, -, hmem⟩ := h3 set hm
      obtain ⟨hs, hfold⟩ := foldl_insert set [] List.Pairwise.nil
      simp only [List.not_mem_nil, false_or] at hfold
      simp only [Option.map_some, Option.bind_some]
      generalize List.foldl (fun sorted x => insert (|x.1|, x.2) sorted) [] set = out at *
      cases out with
      | nil =>
        obtain ⟨y, hy⟩ := List.exists_mem_of_ne_nil _ hne
        have := (hfold (|y.1|, y.2)).mpr ⟨y, hy, rfl⟩
        cases this
      | cons best rest =>
        refine ⟨by simp, by simp, ?_⟩
        intro id hid
        simp only [List.head?_cons, Option.map_some, Option.some.injEq] at hid
        obtain ⟨y, hy, hb⟩ := (hfold best).mp (by simp)
        obtain ⟨i, hi, x, hx, hyx⟩ := (hmem y).mp hy
        have hbe : best = (|x.offset|, i) := by rw [hb, hyx]
        have hidi : id = i := by rw [← hid, hbe]
        subst hidi
        refine ⟨hi, x, hx, fun j hj z hz => ?_⟩
        have hin : (|z.offset|, j) ∈ best :: rest := (hfold _).mpr ⟨(z.offset, j), (hmem _).mpr ⟨j, hj, z, hz, rfl⟩, rfl⟩
        rcases List.mem_cons.mp hin with he | hin
        · rw [hbe, Prod.mk.injEq] at he
          exact Or.inr ⟨he.1.symm, he.2.symm.le⟩
        · have := (List.pairwise_cons.mp hs).1 _ hin
          rw [hbe] at this
          rcases this with h | ⟨h, h'⟩
          · exact Or.inl h
          · exact Or.inr ⟨h, h'.le⟩

/-- The same for the search among the lanes near a box: all lanes on which the pose has a place, in the order of the distance to the right and left,
each once. -/
theorem C220_all (r : Road) (p : Pose) (box : BBox) (crosswalk : Bool) (reach ratio : ℝ) (set : List (ℝ × Id))
    (h : findMatching r p box crosswalk reach ratio = some (some set)) :
    set.Pairwise (fun x y => x.1 < y.1 ∨ (x.1 = y.1 ∧ x.2 < y.2)) ∧
    ∀ o i, (o, i) ∈ set ↔ i ∈ r.within (hull p box ratio) reach ∧ (crosswalk = true ∨ r.compliant i = true) ∧
      ∃ x, onLane r p i reach = some (some x) ∧ x.offset = o := by
  obtain ⟨-, hs, hm⟩ := (findMatching_spec r p box crosswalk reach ratio).2.2 set h
  refine ⟨hs, fun o i => ?_⟩
  rw [hm]
  constructor
  · rintro ⟨j, hj, x, hx, he⟩
    simp only [Prod.mk.injEq] at he
    obtain ⟨rfl, rfl⟩ := he
    unfold found at hj
    cases crosswalk <;> simp at hj ⊢
    · exact ⟨hj.1, hj.2, x, hx, rfl⟩
    · exact ⟨hj, x, hx, rfl⟩
  · rintro ⟨h1, h2, x, hx, rfl⟩
    refine ⟨i, ?_, x, hx, rfl⟩
    unfold found
    cases crosswalk <;> simp at h2 ⊢
    · exact ⟨h1, h2⟩
    · exact h1

/-- **C220** With a box: first the lane of C220_closest, then the lanes before it, then the lanes after it, then the lanes near the position. -/
theorem C220_order (r : Road) (p : Pose) (box : BBox) (crosswalk : Bool) (reach : ℝ) :
    (matchToLane r p box crosswalk reach (4 / 5) = none → onBox r p box crosswalk reach = none) ∧
    (matchToLane r p box crosswalk reach (4 / 5) = some none →
      FirstPlace (fun i => onLane r p i reach) (r.nearby p.position crosswalk) (onBox r p box crosswalk reach)) ∧
    ∀ id, matchToLane r p box crosswalk reach (4 / 5) = some (some id) →
      FirstPlace (fun i => onLane r p i reach) (id :: (r.previous id ++ r.next id ++ r.nearby p.position crosswalk))
        (onBox r p box crosswalk reach) := by
  refine ⟨fun h => by unfold onBox; rw [h], fun h => ?_, fun id h => ?_⟩
  · have e : onBox r p box crosswalk reach = onLanes r p reach (r.nearby p.position crosswalk) := by
      unfold onBox; rw [h]; rfl
    rw [e]
    exact onLanes_first ..
  · have e : onBox r p box crosswalk reach =
        onLanes r p reach (id :: (r.previous id ++ r.next id ++ r.nearby p.position crosswalk)) := by
      unfold onBox
      rw [h]
      simp only [onLanes, onLanes_append, onNearby]
      cases onLane r p id reach with
      | none => rfl
      | some o =>
        cases o with
        | some x => rfl
        | none =>
          simp only
          cases onLanes r p reach (r.previous id) with
          | none => rfl
          | some o => cases o <;> rfl
    rw [e]
    exact onLanes_first ..

end Verif.Matching
