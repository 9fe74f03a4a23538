import Verif.Light.Spec
/-
Helper lemmas for C19-C22.
-/
namespace Verif.Light

/-! ### Hash -/

theorem Bulb.hash_eq (b : Bulb) :
    b.hash = b.color.code * 16777216 + b.status.code * 65536 + b.shape.code := by
  rcases b with ⟨c, s, h⟩
  cases c <;> cases s <;> cases h <;> rfl

theorem Color.code_inj {a b : Color} (h : a.code = b.code) : a = b := by
  cases a <;> cases b <;> first | rfl | cases h
theorem Status.code_inj {a b : Status} (h : a.code = b.code) : a = b := by
  cases a <;> cases b <;> first | rfl | cases h
theorem Shape.code_inj {a b : Shape} (h : a.code = b.code) : a = b := by
  cases a <;> cases b <;> first | rfl | (exact absurd h (by decide))
theorem Status.code_lt (a : Status) : a.code < 256 := by cases a <;> decide
theorem Shape.code_lt (a : Shape) : a.code < 65536 := by cases a <;> decide

theorem Bulb.hash_inj {a b : Bulb} (h : a.hash = b.hash) : a = b := by
  rw [Bulb.hash_eq, Bulb.hash_eq] at h
  have h1 := a.status.code_lt
  have h2 := b.status.code_lt
  have h3 := a.shape.code_lt
  have h4 := b.shape.code_lt
  have e1 : a.shape.code = b.shape.code := by omega
  have e2 : a.status.code = b.status.code := by omega
  have e3 : a.color.code = b.color.code := by omega
  cases a; cases b
  simp only [Bulb.mk.injEq]
  exact ⟨Color.code_inj e3, Status.code_inj e2, Shape.code_inj e1⟩

theorem mem_emplace {a b : Bulb} {l : List Bulb} : b ∈ emplace a l ↔ b = a ∨ b ∈ l := by
  induction l with
  | nil => simp [emplace]
  | cons x l ih =>
    simp only [emplace]
    split
    · simp
    · split
      · simp only [List.mem_cons, ih]
        constructor
        · rintro (h | h | h) <;> simp [h]
        · rintro (h | h | h) <;> simp [h]
      · have : a = x := Bulb.hash_inj (by omega)
        subst this; simp

theorem ordered_emplace {a : Bulb} {l : List Bulb} (h : Ordered l) : Ordered (emplace a l) := by
  unfold Ordered at *
  induction l with
  | nil => simp [emplace]
  | cons x l ih =>
    rw [List.pairwise_cons] at h
    simp only [emplace]
    split
    · rename_i hlt
      refine List.pairwise_cons.2 ⟨fun y hy => ?_, List.pairwise_cons.2 h⟩
      rcases List.mem_cons.1 hy with rfl | hy
      · exact hlt
      · have := h.1 y hy; omega
    · split
      · rename_i hlt
        refine List.pairwise_cons.2 ⟨fun y hy => ?_, ih h.2⟩
        rcases mem_emplace.1 hy with rfl | hy
        · exact hlt
        · exact h.1 y hy
      · exact List.pairwise_cons.2 h

theorem contains_iff {l : List Bulb} {b : Bulb} : contains l b = true ↔ b ∈ l := by
  simp only [contains, List.any_eq_true, Bool.and_eq_true, Bool.not_eq_true', decide_eq_false_iff_not]
  constructor
  · rintro ⟨x, hx, h1, h2⟩
    rwa [← Bulb.hash_inj (a := x) (b := b) (by omega)]
  · intro h; exact ⟨b, h, by omega, by omega⟩

/-- Ordered lights with the same bulbs are the same list. -/
theorem Ordered.ext {l l' : List Bulb} (h : Ordered l) (h' : Ordered l') (hm : ∀ b, b ∈ l ↔ b ∈ l') :
    l = l' := by
  unfold Ordered at *
  induction l generalizing l' with
  | nil =>
    cases l' with
    | nil => rfl
    | cons x l' => exact absurd ((hm x).2 List.mem_cons_self) (by simp)
  | cons a l ih =>
    cases l' with
    | nil => exact absurd ((hm a).1 List.mem_cons_self) (by simp)
    | cons x l' =>
      rw [List.pairwise_cons] at h h'
      have hax : a = x := by
        have h1 := (hm a).1 List.mem_cons_self
        have h2 := (hm x).2 List.mem_cons_self
        rcases List.mem_cons.1 h1 with h1 | h1
        · exact h1
        · rcases List.mem_cons.1 h2 with h2 | h2
          · exact h2.symm
          · have := h.1 _ h2; have := h'.1 _ h1; omega
      subst hax
      congr 1
      refine ih h.2 h'.2 fun b => ⟨fun hb => ?_, fun hb => ?_⟩
      · rcases List.mem_cons.1 ((hm b).1 (List.mem_cons_of_mem _ hb)) with rfl | h1
        · have := h.1 _ hb; omega
        · exact h1
      · rcases List.mem_cons.1 ((hm b).2 (List.mem_cons_of_mem _ hb)) with rfl | h1
        · have := h'.1 _ hb; omega
        · exact h1

/-! ### Texts -/

def allColors : List Color := [.green, .yellow, .red, .white, .unknown]
def allStatuses : List Status := [.solidOn, .solidOff, .flashing, .unknown]
def allShapes : List Shape := [.circle, .cross, .left, .down, .up, .right, .lowerLeft, .upperLeft,
  .lowerRight, .upperRight, .unknown]
def allBulbs : List Bulb :=
  allColors.flatMap fun c => allStatuses.flatMap fun s => allShapes.map fun h => ⟨c, s, h⟩

theorem mem_allBulbs (b : Bulb) : b ∈ allBulbs := by
  rcases b with ⟨c, s, h⟩
  simp only [allBulbs, List.mem_flatMap, List.mem_map]
  exact ⟨c, by cases c <;> decide, s, by cases s <;> decide, h, by cases h <;> decide, rfl⟩

theorem parse_print (b : Bulb) : parseBulb b.print = some b :=
  (by decide +kernel : ∀ b ∈ allBulbs, parseBulb b.print = some b) b (mem_allBulbs b)

theorem Word.cases {α : Type} {words : List (String × α)} {d : α} {w : Text} {v : α} (h : Word words d w v) :
    (w, v) ∈ ([], d) :: words.map (fun p => (p.1.toList, p.2)) := by
  rcases h with ⟨rfl, rfl⟩ | ⟨s, hs, rfl⟩
  · exact List.mem_cons_self
  · exact List.mem_cons_of_mem _ (List.mem_map.2 ⟨(s, v), hs, rfl⟩)

theorem Word.of {α : Type} {words : List (String × α)} {d : α} {w : Text} {v : α}
    (h : (w, v) ∈ ([], d) :: words.map (fun p => (p.1.toList, p.2))) : Word words d w v := by
  rcases List.mem_cons.1 h with h | h
  · cases h; exact Or.inl ⟨rfl, rfl⟩
  · obtain ⟨⟨s, v'⟩, h1, h2⟩ := List.mem_map.1 h
    cases h2
    exact Or.inr ⟨s, h1, rfl⟩

theorem head_flatMap {α β : Type} {l : List α} {x : α} {tl : List α} {f : α → List β} {y : β}
    (h : l = x :: tl) (hf : (f x).head? = some y) : (l.flatMap f).head? = some y := by
  subst h
  rw [List.flatMap_cons]
  cases hx : f x with
  | nil => rw [hx] at hf; cases hf
  | cons a r => rw [hx] at hf; simpa using hf

theorem shape_word {h : Text} {v : Shape} (hw : Word shapeWords .circle h v) {β : Type} (mk : Shape → β) :
    ((optional shapes .circle h).filterMap fun x => if x.2 = [] then some (mk x.1) else none).head? = some (mk v) := by
  have := hw.cases
  simp only [shapeWords, List.map_cons, List.map_nil, List.mem_cons, List.not_mem_nil, or_false, Prod.mk.injEq] at this
  rcases this with h | h | h | h | h | h | h | h | h | h | h | h | h <;> obtain ⟨rfl, rfl⟩ := h <;> rfl

theorem status_word {s : Text} {v : Status} (hw : Word statusWords .solidOn s v) (hs : s ≠ []) (r : Text) :
    ∃ tl, optional statuses .solidOn (s ++ r) = (v, r) :: tl := by
  have := hw.cases
  simp only [statusWords, List.map_cons, List.map_nil, List.mem_cons, List.not_mem_nil, or_false, Prod.mk.injEq] at this
  rcases this with h | h | h | h | h | h | h <;> obtain ⟨rfl, rfl⟩ := h
  · exact absurd rfl hs
  all_goals exact ⟨_, rfl⟩

theorem color_word {s : Text} {v : Color} (hw : Word colorWords .green s v) (hs : s ≠ []) (r : Text) :
    ∃ tl, optional colors .green (s ++ r) = (v, r) :: tl := by
  have := hw.cases
  simp only [colorWords, List.map_cons, List.map_nil, List.mem_cons, List.not_mem_nil, or_false, Prod.mk.injEq] at this
  rcases this with h | h | h | h | h | h | h | h | h | h <;> obtain ⟨rfl, rfl⟩ := h
  · exact absurd rfl hs
  all_goals exact ⟨_, rfl⟩

theorem no_status {h : Text} {v : Shape} (hw : Word shapeWords .circle h v) (hu : h ≠ "unknown".toList) :
    ∃ tl, optional statuses .solidOn h = (.solidOn, h) :: tl := by
  have := hw.cases
  simp only [shapeWords, List.map_cons, List.map_nil, List.mem_cons, List.not_mem_nil, or_false, Prod.mk.injEq] at this
  rcases this with h | h | h | h | h | h | h | h | h | h | h | h | h <;> obtain ⟨rfl, rfl⟩ := h
  all_goals first | exact ⟨_, rfl⟩ | exact absurd rfl hu

theorem no_color_shape {h : Text} {v : Shape} (hw : Word shapeWords .circle h v) (hu : h ≠ "unknown".toList) :
    ∃ tl, optional colors .green h = (.green, h) :: tl := by
  have := hw.cases
  simp only [shapeWords, List.map_cons, List.map_nil, List.mem_cons, List.not_mem_nil, or_false, Prod.mk.injEq] at this
  rcases this with h | h | h | h | h | h | h | h | h | h | h | h | h <;> obtain ⟨rfl, rfl⟩ := h
  all_goals first | exact ⟨_, rfl⟩ | exact absurd rfl hu

theorem no_color_status {s : Text} {v : Status} (hw : Word statusWords .solidOn s v) (hs : s ≠ [])
    (hu : s ≠ "unknown".toList) (r : Text) : ∃ tl, optional colors .green (s ++ r) = (.green, s ++ r) :: tl := by
  have := hw.cases
  simp only [statusWords, List.map_cons, List.map_nil, List.mem_cons, List.not_mem_nil, or_false, Prod.mk.injEq] at this
  rcases this with h | h | h | h | h | h | h <;> obtain ⟨rfl, rfl⟩ := h
  all_goals first | exact ⟨_, rfl⟩ | exact absurd rfl hu | exact absurd rfl hs

theorem dropWhile_word {ws t : Text} (h : ∀ c ∈ ws, isSpace c) (ht : ∀ c ∈ t.head?, ¬ isSpace c) :
    (ws ++ t).dropWhile isSpace = t := by
  induction ws with
  | nil =>
    cases t with
    | nil => rfl
    | cons c t => simp [ht c (by simp)]
  | cons a l ih =>
    simp only [List.cons_append, List.dropWhile_cons, h a List.mem_cons_self, if_true]
    exact ih fun b hb => h b (List.mem_cons_of_mem _ hb)

theorem status_first {s : Text} {v : Status} (hw : Word statusWords .solidOn s v) (hs : s ≠ []) (r : Text) :
    ∀ c ∈ (s ++ r).head?, ¬ isSpace c := by
  have := hw.cases
  simp only [statusWords, List.map_cons, List.map_nil, List.mem_cons, List.not_mem_nil, or_false, Prod.mk.injEq] at this
  rcases this with h | h | h | h | h | h | h <;> obtain ⟨rfl, rfl⟩ := h
  · exact absurd rfl hs
  all_goals intro c hc; cases hc; decide

theorem shape_first {h : Text} {v : Shape} (hw : Word shapeWords .circle h v) : ∀ c ∈ h.head?, ¬ isSpace c := by
  have := hw.cases
  simp only [shapeWords, List.map_cons, List.map_nil, List.mem_cons, List.not_mem_nil, or_false, Prod.mk.injEq] at this
  rcases this with h | h | h | h | h | h | h | h | h | h | h | h | h <;> obtain ⟨rfl, rfl⟩ := h
  all_goals intro c hc; cases hc <;> decide

/-- A text that begins with a non-blank and names a bulb is read as that bulb. -/
theorem parse_names {p : Text} {b : Bulb} (hp : ∀ x ∈ p.head?, ¬ isSpace x) (h : Names p b) :
    parseBulb p = some b := by
  obtain ⟨c, ws, s, ws', h, rfl, hws, hws', h1, h2, h3, h4, h5⟩ := h
  obtain ⟨bc, bs, bh⟩ := b
  dsimp only at h1 h2 h3
  -- what follows the colour
  have tail : ∀ col : Color, (((optional statuses .solidOn ((ws ++ (s ++ (ws' ++ h))).dropWhile isSpace)).flatMap fun t =>
      (optional shapes .circle (t.2.dropWhile isSpace)).filterMap fun h =>
        if h.2 = [] then some (⟨col, t.1, h.1⟩ : Bulb) else none)).head? = some ⟨col, bs, bh⟩ := by
    intro col
    by_cases hs : s = []
    · subst hs
      have hb : bs = .solidOn := by
        rcases h2 with ⟨-, rfl⟩ | ⟨w, hw, he⟩
        · rfl
        · have : Word statusWords .solidOn [] bs := Or.inr ⟨w, hw, he⟩
          have := this.cases
          simp only [statusWords, List.map_cons, List.map_nil, List.mem_cons, List.not_mem_nil, or_false,
            Prod.mk.injEq] at this
          rcases this with h | h | h | h | h | h | h
          · exact h.2
          all_goals exact absurd h.1 (by decide)
      subst hb
      rw [List.nil_append, ← List.append_assoc, dropWhile_word (by
        intro x hx; rcases List.mem_append.1 hx with hx | hx
        · exact hws x hx
        · exact hws' x hx) (shape_first h3)]
      obtain ⟨tl, ht⟩ := no_status h3 (h5 rfl)
      refine head_flatMap ht ?_
      have : (h.dropWhile isSpace) = h := dropWhile_word (ws := []) (by simp) (shape_first h3)
      dsimp only
      rw [this]
      exact shape_word h3 _
    · rw [dropWhile_word hws (status_first h2 hs _)]
      obtain ⟨tl, ht⟩ := status_word h2 hs (ws' ++ h)
      refine head_flatMap ht ?_
      dsimp only
      rw [dropWhile_word hws' (shape_first h3)]
      exact shape_word h3 _
  unfold parseBulb bulbMatches
  by_cases hc : c = []
  · subst hc
    have hb : bc = .green := by
      have := h1.cases
      simp only [colorWords, List.map_cons, List.map_nil, List.mem_cons, List.not_mem_nil, or_false,
        Prod.mk.injEq] at this
      rcases this with h | h | h | h | h | h | h | h | h | h
      · exact h.2
      all_goals exact absurd h.1 (by decide)
    subst hb
    rw [List.nil_append] at hp ⊢
    have hwsn : ws = [] ∨ (ws ++ (s ++ (ws' ++ h))) = [] := by
      cases ws with
      | nil => exact Or.inl rfl
      | cons x ws => exact absurd (hws x List.mem_cons_self) (hp x (by simp))
    have hn : ∃ tl, optional colors .green (ws ++ (s ++ (ws' ++ h))) = (.green, ws ++ (s ++ (ws' ++ h))) :: tl := by
      rcases hwsn with rfl | hnil
      · rw [List.nil_append] at hp ⊢
        by_cases hs : s = []
        · subst hs
          rw [List.nil_append] at hp ⊢
          cases ws' with
          | nil => exact no_color_shape h3 (h5 rfl)
          | cons x ws' => exact absurd (hws' x List.mem_cons_self) (hp x (by simp))
        · exact no_color_status h2 hs (h4 rfl) _
      · rw [hnil]; exact ⟨_, rfl⟩
    obtain ⟨tl, ht⟩ := hn
    exact head_flatMap ht (tail _)
  · obtain ⟨tl, ht⟩ := color_word h1 hc (ws ++ (s ++ (ws' ++ h)))
    exact head_flatMap ht (tail _)

theorem strip_eq {n s r : Text} (h : strip n s = some r) : s = n ++ r := by
  induction n generalizing s with
  | nil => simp only [strip, Option.some.injEq] at h; exact h
  | cons a n ih =>
    cases s with
    | nil => cases h
    | cons c s =>
      simp only [strip] at h
      split at h
      · rename_i hac; subst hac; rw [ih h]; rfl
      · cases h

theorem optional_mem {α : Type} {table : List (Text × α)} {d : α} {s : Text} {v : α} {r : Text}
    (h : (v, r) ∈ optional table d s) : ∃ w, s = w ++ r ∧ (w, v) ∈ ([], d) :: table := by
  unfold optional at h
  rcases List.mem_append.1 h with h | h
  · obtain ⟨⟨n, x⟩, h1, h2⟩ := List.mem_filterMap.1 h
    dsimp only at h2
    cases hs : strip n s with
    | none => rw [hs] at h2; cases h2
    | some r' =>
      rw [hs] at h2
      cases h2
      exact ⟨n, strip_eq hs, List.mem_cons_of_mem _ h1⟩
  · simp only [List.mem_singleton, Prod.mk.injEq] at h
    obtain ⟨rfl, rfl⟩ := h
    exact ⟨[], rfl, List.mem_cons_self⟩

theorem takeWhile_append_dropWhile' (p : Char → Bool) (l : Text) : l.takeWhile p ++ l.dropWhile p = l := by
  induction l with
  | nil => rfl
  | cons a l ih =>
    simp only [List.takeWhile_cons, List.dropWhile_cons]
    split
    · simp [ih]
    · rfl

theorem takeWhile_prop (p : Char → Bool) (l : Text) : ∀ a ∈ l.takeWhile p, p a := by
  induction l with
  | nil => simp
  | cons x l ih =>
    simp only [List.takeWhile_cons]
    split
    · rename_i h; intro a ha; rcases List.mem_cons.1 ha with rfl | ha
      · exact h
      · exact ih a ha
    · simp

theorem color_table {w : Text} {v : Color} (h : (w, v) ∈ ([], Color.green) :: colors) : Word colorWords .green w v := by
  refine Word.of ?_
  simp only [colors, colorWords, List.map_cons, List.map_nil, List.mem_cons, List.not_mem_nil, or_false,
    Prod.mk.injEq] at h ⊢
  rcases h with h | h | h | h | h | h | h | h | h | h <;> simp [h]

theorem status_table {w : Text} {v : Status} (h : (w, v) ∈ ([], Status.solidOn) :: statuses) :
    Word statusWords .solidOn w v := by
  refine Word.of ?_
  simp only [statuses, statusWords, List.map_cons, List.map_nil, List.mem_cons, List.not_mem_nil, or_false,
    Prod.mk.injEq] at h ⊢
  rcases h with h | h | h | h | h | h | h <;> simp [h]

theorem shape_table {w : Text} {v : Shape} (h : (w, v) ∈ ([], Shape.circle) :: shapes) :
    Word shapeWords .circle w v := by
  refine Word.of ?_
  simp only [shapes, shapeWords, List.map_cons, List.map_nil, List.mem_cons, List.not_mem_nil, or_false,
    Prod.mk.injEq] at h ⊢
  rcases h with h | h | h | h | h | h | h | h | h | h | h | h | h <;> simp [h]

/-- … and every bulb read is named by the text. -/
theorem names_parse {p : Text} {b : Bulb} (hp : ∀ x ∈ p.head?, ¬ isSpace x) (h : parseBulb p = some b) :
    Names p b := by
  have hm : b ∈ bulbMatches p := List.mem_of_mem_head? h
  unfold bulbMatches at hm
  obtain ⟨⟨cv, r1⟩, hc, hm⟩ := List.mem_flatMap.1 hm
  obtain ⟨⟨sv, r2⟩, hs, hm⟩ := List.mem_flatMap.1 hm
  obtain ⟨⟨hv, r3⟩, hh, hm⟩ := List.mem_filterMap.1 hm
  dsimp only at hs hh hm
  by_cases hr3 : r3 = []
  case neg => rw [if_neg hr3] at hm; cases hm
  subst hr3
  obtain ⟨c, hpc, hc⟩ := optional_mem hc
  obtain ⟨s, hrs, hs⟩ := optional_mem hs
  obtain ⟨hw, hrh, hh⟩ := optional_mem hh
  rw [List.append_nil] at hrh
  have wc := color_table hc
  have wst := status_table hs
  have wsh := shape_table hh
  have e1 : r1 = r1.takeWhile isSpace ++ (s ++ r2) := by rw [← hrs]; exact (takeWhile_append_dropWhile' _ _).symm
  have e2 : r2 = r2.takeWhile isSpace ++ hw := by rw [← hrh]; exact (takeWhile_append_dropWhile' _ _).symm
  have q1 := takeWhile_prop isSpace r1
  have q2 := takeWhile_prop isSpace r2
  generalize r1.takeWhile isSpace = ws at e1 q1
  generalize r2.takeWhile isSpace = ws' at e2 q2
  subst e2
  subst e1
  -- a reading that gives "unknown" to the first that has no word
  have un : ∀ s : Text, ∀ v, s = "unknown".toList → Word statusWords .solidOn s v → v = .unknown := by
    intro s v hs hw
    subst hs
    have := hw.cases
    simp only [statusWords, List.map_cons, List.map_nil, List.mem_cons, List.not_mem_nil, or_false, Prod.mk.injEq] at this
    rcases this with h | h | h | h | h | h | h
    · exact absurd h.1 (by decide)
    · exact absurd h.1 (by decide)
    · exact absurd h.1 (by decide)
    · exact absurd h.1 (by decide)
    · exact absurd h.1 (by decide)
    · exact absurd h.1 (by decide)
    · exact h.2
  have key : ∃ b', Names p b' := by
    by_cases k1 : c = [] ∧ s = "unknown".toList
    · obtain ⟨rfl, rfl⟩ := k1
      rw [List.nil_append] at hpc
      have : ws = [] := by
        cases ws with
        | nil => rfl
        | cons x ws => rw [hpc] at hp; exact absurd (q1 x List.mem_cons_self) (hp x (by simp))
      subst this
      rw [List.nil_append] at hpc
      by_cases k2 : hw = "unknown".toList
      · subst k2
        refine ⟨⟨.unknown, .unknown, .circle⟩, "unknown".toList, ws', "unknown".toList, [], [], ?_, q2, by simp,
          Or.inr ⟨"unknown", by decide, rfl⟩, Or.inr ⟨"unknown", by decide, rfl⟩, Or.inl ⟨rfl, rfl⟩, by decide, by decide⟩
        rw [hpc]; simp
      · refine ⟨⟨.unknown, .solidOn, hv⟩, "unknown".toList, ws', [], [], hw, ?_, q2, by simp,
          Or.inr ⟨"unknown", by simp [colorWords], rfl⟩, Or.inl ⟨rfl, rfl⟩, wsh, by decide, fun _ => k2⟩
        rw [hpc]; simp
    · by_cases k2 : s = [] ∧ hw = "unknown".toList
      · obtain ⟨rfl, rfl⟩ := k2
        by_cases k3 : c = []
        · subst k3
          rw [List.nil_append, List.nil_append, ← List.append_assoc] at hpc
          have : ws ++ ws' = [] := by
            cases hx : ws ++ ws' with
            | nil => rfl
            | cons x l =>
              rw [hpc, hx] at hp
              have : isSpace x := by
                have hm : x ∈ ws ++ ws' := by rw [hx]; exact List.mem_cons_self
                rcases List.mem_append.1 hm with hm | hm
                · exact q1 x hm
                · exact q2 x hm
              exact absurd this (hp x (by simp))
          rw [this, List.nil_append] at hpc
          exact ⟨⟨.unknown, .solidOn, .circle⟩, "unknown".toList, [], [], [], [], by rw [hpc]; rfl, by simp, by simp,
            Or.inr ⟨"unknown", by decide, rfl⟩, Or.inl ⟨rfl, rfl⟩, Or.inl ⟨rfl, rfl⟩, by decide, by decide⟩
        · refine ⟨⟨cv, .unknown, .circle⟩, c, ws ++ ws', "unknown".toList, [], [], ?_, ?_, by simp, wc,
            Or.inr ⟨"unknown", by simp [statusWords], rfl⟩, Or.inl ⟨rfl, rfl⟩, fun h => absurd h k3, by decide⟩
          · rw [hpc]; simp
          · intro x hx; rcases List.mem_append.1 hx with hx | hx
            · exact q1 x hx
            · exact q2 x hx
      · exact ⟨⟨cv, sv, hv⟩, c, ws, s, ws', hw, hpc, q1, q2, wc, wst, wsh, fun h1 h2 => k1 ⟨h1, h2⟩,
          fun h1 h2 => k2 ⟨h1, h2⟩⟩
  obtain ⟨b', hb'⟩ := key
  have := parse_names hp hb'
  rw [h] at this
  cases this
  exact hb'

theorem word_not_space {c : Char} (h : isWord c = true) : isSpace c = false := by
  cases hs : isSpace c
  · rfl
  · simp only [isSpace, Bool.or_eq_true, decide_eq_true_eq] at hs
    rcases hs with ((((h2 | h2) | h2) | h2) | h2) | h2 <;> subst h2 <;> revert h <;> decide

theorem first_not_space {p : Text} (h : ∃ c r, p = c :: r ∧ isWord c ∧ r ≠ []) : ∀ x ∈ p.head?, ¬ isSpace x := by
  obtain ⟨c, r, rfl, hc, -⟩ := h
  intro x hx
  cases hx
  rw [word_not_space hc]
  decide

theorem parse_piece {p : Text} {b : Bulb} (h : Piece p b) : parseBulb p = some b :=
  parse_names (first_not_space h.first) h.names

theorem print_first (b : Bulb) : ∃ c r, b.print = c :: r ∧ isWord c ∧ r ≠ [] := by
  have : ∀ b ∈ allBulbs, b.print.head?.any isWord && !(b.print.tail.isEmpty) := by decide +kernel
  have h := this b (mem_allBulbs b)
  cases hp : b.print with
  | nil => rw [hp] at h; simp at h
  | cons c r => rw [hp] at h; simp at h; exact ⟨c, r, rfl, h.1, h.2⟩

theorem print_chars (b : Bulb) : ∀ c ∈ b.print, (isWord c ∨ isSpace c) ∧ ¬ isLineEnd c := by
  have : ∀ b ∈ allBulbs, b.print.all fun c => (isWord c || isSpace c) && !isLineEnd c := by
    decide +kernel
  have h := this b (mem_allBulbs b)
  intro c hc
  have := List.all_eq_true.1 h c hc
  simpa using this

theorem print_piece (b : Bulb) : Piece b.print b :=
  ⟨print_first b, fun c hc => (print_chars b c hc).1, names_parse (first_not_space (print_first b)) (parse_print b)⟩

theorem takeWhile_append_stop {α} {p : α → Bool} {l : List α} {x : α} {r : List α}
    (h : ∀ a ∈ l, p a) (hx : p x = false) : (l ++ x :: r).takeWhile p = l := by
  induction l with
  | nil => simp [hx]
  | cons a l ih =>
    simp only [List.cons_append, List.takeWhile_cons, h a List.mem_cons_self, if_true]
    rw [ih fun b hb => h b (List.mem_cons_of_mem _ hb)]

theorem dropWhile_append_stop {α} {p : α → Bool} {l : List α} {x : α} {r : List α}
    (h : ∀ a ∈ l, p a) (hx : p x = false) : (l ++ x :: r).dropWhile p = x :: r := by
  induction l with
  | nil => simp [hx]
  | cons a l ih =>
    simp only [List.cons_append, List.dropWhile_cons, h a List.mem_cons_self, if_true]
    rw [ih fun b hb => h b (List.mem_cons_of_mem _ hb)]

theorem takeWhile_all {α} {p : α → Bool} {l : List α} (h : ∀ a ∈ l, p a) : l.takeWhile p = l := by
  induction l with
  | nil => rfl
  | cons a l ih =>
    simp only [List.takeWhile_cons, h a List.mem_cons_self, if_true]
    rw [ih fun b hb => h b (List.mem_cons_of_mem _ hb)]

theorem dropWhile_all {α} {p : α → Bool} {l : List α} (h : ∀ a ∈ l, p a) : l.dropWhile p = [] := by
  induction l with
  | nil => rfl
  | cons a l ih =>
    simp only [List.dropWhile_cons, h a List.mem_cons_self, if_true]
    exact ih fun b hb => h b (List.mem_cons_of_mem _ hb)

theorem dropWhile_spaces {ws t : Text} (h : ∀ c ∈ ws, isSpace c) (ht : ∀ c ∈ t.head?, ¬ isSpace c) :
    (ws ++ t).dropWhile isSpace = t := by
  cases t with
  | nil => rw [List.append_nil]; exact dropWhile_all h
  | cons c t => exact dropWhile_append_stop h (by simpa using ht c (by simp))

theorem split_piece {p : Text} {b : Bulb} (h : Piece p b) : splitStates p = some (p, []) := by
  obtain ⟨c, r, rfl, hc, hr⟩ := h.first
  have hall : ∀ a ∈ r, (isWord a || isSpace a) = true := fun a ha => by
    simpa using h.chars a (List.mem_cons_of_mem _ ha)
  simp [splitStates, hc, takeWhile_all hall, dropWhile_all hall, hr, afterComma]

theorem split_cons {p ws t : Text} {b : Bulb} (h : Piece p b) (hw : ∀ c ∈ ws, isSpace c)
    (ht : ∀ c ∈ t.head?, ¬ isSpace c) (hl : ∀ c ∈ t, ¬ isLineEnd c) :
    splitStates (p ++ ',' :: (ws ++ t)) = some (p, t) := by
  obtain ⟨c, r, rfl, hc, hr⟩ := h.first
  have hall : ∀ a ∈ r, (isWord a || isSpace a) = true := fun a ha => by
    simpa using h.chars a (List.mem_cons_of_mem _ ha)
  have hcomma : (isWord ',' || isSpace ',') = false := by decide
  have hany : t.any isLineEnd = false := by
    rw [List.any_eq_false]; intro c hc; exact hl c hc
  simp only [List.cons_append, splitStates, hc, if_true]
  rw [takeWhile_append_stop (p := fun c => isWord c || isSpace c) hall hcomma,
    dropWhile_append_stop (p := fun c => isWord c || isSpace c) hall hcomma]
  simp [afterComma, dropWhile_spaces hw ht, hany, hr]

theorem piece_ne_nil {p : Text} {b : Bulb} (h : Piece p b) : p ≠ [] := by
  obtain ⟨c, r, rfl, _⟩ := h.first; simp

/-- The result of showing the bulbs `bs` in addition to `l`. -/
def addBulbs (bs : List Bulb) (l : List Bulb) : List Bulb := bs.foldl (fun l b => emplace b l) l

theorem setLight_nil (l : List Bulb) : setLight l [] = (l, true) := by
  rw [setLight]; simp

theorem setLight_split {l : List Bulb} {s h t : Text} (hs : s ≠ []) (e : splitStates s = some (h, t)) :
    setLight l s = match parseBulb h with
      | none => (l, false)
      | some b => setLight (emplace b l) t := by
  rw [setLight, if_neg hs]
  split
  · rename_i e'; rw [e] at e'; cases e'
  · rename_i e'; rw [e] at e'; cases e'; rfl

theorem setLight_none {l : List Bulb} {s : Text} (hs : s ≠ []) (e : splitStates s = none) :
    setLight l s = (l, false) := by
  rw [setLight, if_neg hs]
  split
  · rfl
  · rename_i e'; rw [e] at e'; cases e'

theorem setLight_describes {s : Text} {bs : List Bulb} (h : Describes s bs) (l : List Bulb) :
    setLight l s = (addBulbs bs l, true) := by
  induction h generalizing l with
  | nil => exact setLight_nil l
  | last hp =>
    rw [setLight_split (piece_ne_nil hp) (split_piece hp), parse_piece hp]
    exact setLight_nil _
  | cons hp hw ht hl _ ih =>
    rw [setLight_split (by simp) (split_cons hp hw ht hl), parse_piece hp]
    exact ih _

theorem mem_addBulbs {bs l : List Bulb} {b : Bulb} : b ∈ addBulbs bs l ↔ b ∈ bs ∨ b ∈ l := by
  induction bs generalizing l with
  | nil => simp [addBulbs]
  | cons x bs ih =>
    have : addBulbs (x :: bs) l = addBulbs bs (emplace x l) := rfl
    rw [this, ih, mem_emplace, List.mem_cons]
    constructor
    · rintro (h | h | h) <;> simp [h]
    · rintro ((h | h) | h) <;> simp [h]

theorem ordered_addBulbs {bs l : List Bulb} (h : Ordered l) : Ordered (addBulbs bs l) := by
  induction bs generalizing l with
  | nil => exact h
  | cons x bs ih => exact ih (ordered_emplace h)

theorem describes_print (l : List Bulb) : Describes (printLight l) l := by
  induction l with
  | nil => exact .nil
  | cons b l ih =>
    cases l with
    | nil => exact .last (print_piece b)
    | cons x l =>
      have hne : ∃ r, printLight (x :: l) = x.print ++ r := by
        cases l with
        | nil => exact ⟨[], by simp [printLight]⟩
        | cons y l => exact ⟨_, rfl⟩
      have hchars : ∀ l : List Bulb, ∀ c ∈ printLight l, ¬ isLineEnd c := by
        intro l
        induction l with
        | nil => simp [printLight]
        | cons b l ih =>
          intro c hc
          cases l with
          | nil => exact (print_chars b c hc).2
          | cons y l =>
            simp only [printLight, List.mem_append, List.mem_cons] at hc
            rcases hc with hc | rfl | rfl | hc
            · exact (print_chars b c hc).2
            · decide
            · decide
            · exact ih c hc
      refine Describes.cons (ws := [' ']) (print_piece b) (by decide) ?_ (hchars _) ih
      intro c hc
      obtain ⟨r, hr⟩ := hne
      obtain ⟨c', r', h1, h2, _⟩ := print_first x
      rw [hr, h1] at hc
      simp only [List.cons_append, List.head?_cons, Option.mem_def, Option.some.injEq] at hc
      subst hc
      intro hs
      have : ∀ c, isWord c = true → isSpace c = true → False := by
        intro c h1 h2
        simp only [isSpace, Bool.or_eq_true, decide_eq_true_eq] at h2
        rcases h2 with ((((h2 | h2) | h2) | h2) | h2) | h2 <;> subst h2 <;> revert h1 <;> decide
      exact this _ h2 hs

theorem all_takeWhile {α} {p : α → Bool} {l : List α} : ∀ a ∈ l.takeWhile p, p a := by
  induction l with
  | nil => simp
  | cons x l ih =>
    simp only [List.takeWhile_cons]
    split
    · rename_i h; intro a ha; rcases List.mem_cons.1 ha with rfl | ha
      · exact h
      · exact ih a ha
    · simp

theorem head_dropWhile {α} {p : α → Bool} {l : List α} : ∀ a ∈ (l.dropWhile p).head?, ¬ p a := by
  induction l with
  | nil => simp
  | cons x l ih =>
    simp only [List.dropWhile_cons]
    split
    · exact ih
    · rename_i h; intro a ha; simp at ha; subst ha; exact h

/-- Texts that are accepted are descriptions. -/
theorem describes_of_ok {l : List Bulb} {s : Text} (h : (setLight l s).2 = true) :
    ∃ bs, Describes s bs := by
  induction hn : s.length using Nat.strongRecOn generalizing l s with
  | _ n ih =>
    by_cases hs : s = []
    · subst hs; exact ⟨[], .nil⟩
    cases e : splitStates s with
    | none => rw [setLight_none hs e] at h; cases h
    | some p =>
      obtain ⟨hd, t⟩ := p
      rw [setLight_split hs e] at h
      cases hb : parseBulb hd with
      | none => rw [hb] at h; cases h
      | some b =>
        rw [hb] at h
        obtain ⟨bs, hd'⟩ := ih t.length (by rw [← hn]; exact splitStates_length e) h rfl
        cases s with
        | nil => exact absurd rfl hs
        | cons c s =>
          simp only [splitStates] at e
          split at e
          · rename_i hc
            split at e
            · cases e
            · rename_i hcond
              simp only [Option.some.injEq, Prod.mk.injEq] at e
              obtain ⟨rfl, rfl⟩ := e
              simp only [Bool.or_eq_true, decide_eq_true_eq, not_or, Bool.not_eq_true] at hcond
              have hp : Piece (c :: s.takeWhile fun c => isWord c || isSpace c) b := by
                refine ⟨⟨c, _, rfl, hc, hcond.1⟩, fun a ha => ?_,
                  names_parse (first_not_space ⟨c, _, rfl, hc, hcond.1⟩) hb⟩
                rcases List.mem_cons.1 ha with rfl | ha
                · exact Or.inl hc
                · simpa using all_takeWhile a ha
              have happ := (List.takeWhile_append_dropWhile
                (p := fun c => isWord c || isSpace c) (l := s)).symm
              cases hr : s.dropWhile fun c => isWord c || isSpace c with
              | nil =>
                rw [hr, List.append_nil] at happ
                rw [← happ] at hp
                exact ⟨[b], .last hp⟩
              | cons x r =>
                by_cases hx : x = ','
                · subst hx
                  refine ⟨b :: bs, ?_⟩
                  rw [happ, hr]
                  have hws := (List.takeWhile_append_dropWhile (p := isSpace) (l := r)).symm
                  have e2 : afterComma (',' :: r) = r.dropWhile isSpace := by simp [afterComma]
                  rw [hr, e2] at hd' hcond
                  conv => arg 1; rw [hws]
                  refine Describes.cons hp (fun a ha => all_takeWhile a ha) head_dropWhile ?_ hd'
                  intro a ha hl
                  exact List.any_eq_false.1 hcond.2 a ha hl
                · -- the text after the piece starts with an unexpected character
                  have e2 : afterComma (x :: r) = x :: r := by simp [afterComma, hx]
                  rw [hr, e2] at h
                  have hxw : isWord x = false := by
                    have := head_dropWhile (p := fun c => isWord c || isSpace c) (l := s) x
                      (by rw [hr]; simp)
                    simp at this; exact this.1
                  have h' : (setLight (emplace b l) (x :: r)).2 = true := h
                  rw [setLight_none (by simp) (by simp [splitStates, hxw])] at h'
                  cases h'
          · cases e

section
variable {m : RoadMap} {i : Id}

theorem clearAll_ne {ids : List Id} (h : i ∉ ids) (f : Id → List Bulb) : clearAll ids f i = f i := by
  induction ids generalizing f with
  | nil => rfl
  | cons j ids ih =>
    have h1 : i ≠ j := fun hc => h (by simp [hc])
    show clearAll ids (upd f j []) i = _
    rw [ih fun hc => h (List.mem_cons_of_mem _ hc)]; simp [upd, h1]

theorem clearAll_mem {ids : List Id} {j : Id} (h : j ∈ ids) (f : Id → List Bulb) : clearAll ids f j = [] := by
  unfold clearAll
  induction ids generalizing f with
  | nil => cases h
  | cons x ids ih =>
    rw [List.foldl_cons]
    by_cases hj : j ∈ ids
    · exact ih hj _
    · have hx : j = x := by
        rcases List.mem_cons.1 h with h | h
        · exact h
        · exact absurd h hj
      have := clearAll_ne (i := j) hj (upd f x [])
      unfold clearAll at this
      rw [this, hx]
      simp [upd]

theorem addAll_describes {s : Text} {bs : List Bulb} (h : Describes s bs) (ids : List Id) (f : Id → List Bulb) :
    (addAll s ids f).2 = true ∧
    ∀ j b, b ∈ (addAll s ids f).1 j ↔ (j ∈ ids ∧ b ∈ bs) ∨ b ∈ f j := by
  induction ids generalizing f with
  | nil => exact ⟨rfl, fun j b => by simp [addAll]⟩
  | cons x ids ih =>
    simp only [addAll, setLight_describes h, if_true]
    obtain ⟨h1, h2⟩ := ih (upd f x (addBulbs bs (f x)))
    refine ⟨h1, fun j b => ?_⟩
    rw [h2]
    by_cases hj : j = x
    · subst hj
      simp only [upd, if_true, mem_addBulbs, List.mem_cons, true_or, true_and]
      constructor
      · rintro (h | h | h)
        · exact Or.inl h.2
        · exact Or.inl h
        · exact Or.inr h
      · rintro (h | h)
        · exact Or.inr (Or.inl h)
        · exact Or.inr (Or.inr h)
    · simp [upd, hj]

theorem addAll_ne {s : Text} {ids : List Id} (h : i ∉ ids) (f : Id → List Bulb) :
    (addAll s ids f).1 i = f i := by
  induction ids generalizing f with
  | nil => rfl
  | cons j ids ih =>
    have h1 : i ≠ j := fun hc => h (by simp [hc])
    simp only [addAll]; split
    · rw [ih fun hc => h (List.mem_cons_of_mem _ hc)]; simp [upd, h1]
    · simp [upd, h1]

def V2IFrame (i : Id) (f : Lights → Lights × Bool) : Prop :=
  ∀ w, (f w).1.enabled = w.enabled ∧ (f w).1.conv i = w.conv i ∧ (f w).1.v2i i = w.v2i i

theorem V2IFrame.andThen {f g : Lights → Lights × Bool} (hf : V2IFrame i f) (hg : V2IFrame i g) :
    V2IFrame i (andThen f g) := by
  intro w
  unfold Light.andThen
  dsimp only
  split
  · obtain ⟨h1, h2, h3⟩ := hf w
    obtain ⟨h4, h5, h6⟩ := hg (f w).1
    exact ⟨h4.trans h1, h5.trans h2, h6.trans h3⟩
  · exact hf w

theorem frame_mirror {f : Lights → Lights × Bool} (hf : V2IFrame i f) (j : Id) :
    V2IFrame i (mirror j f) := by
  intro w; unfold mirror; split
  · exact hf w
  · exact ⟨rfl, rfl, rfl⟩

variable {j : Id} (hj : ∀ ids, m.lights j = some ids → i ∉ ids)
include hj

theorem frame_v2iClear : V2IFrame i (v2iClear m j) := by
  intro w; unfold v2iClear; split
  · exact ⟨rfl, rfl, rfl⟩
  · rename_i ids h; exact ⟨rfl, rfl, clearAll_ne (hj ids h) _⟩

theorem frame_v2iAdd (s : Text) : V2IFrame i (v2iAdd m j s) := by
  intro w; unfold v2iAdd; split
  · exact ⟨rfl, rfl, rfl⟩
  · rename_i ids h; exact ⟨rfl, rfl, addAll_ne (hj ids h) _⟩

theorem frame_v2iSet (s : Text) : V2IFrame i (v2iSet m j s) :=
  (frame_v2iClear hj).andThen (frame_v2iAdd hj s)

theorem frame_convClear : V2IFrame i (convClear m j) := by
  intro w; unfold convClear; split
  · exact ⟨rfl, rfl, rfl⟩
  · rename_i ids h
    obtain ⟨h1, h2, h3⟩ := frame_mirror (frame_v2iClear hj) j { w with conv := clearAll ids w.conv }
    exact ⟨h1, h2.trans (clearAll_ne (hj ids h) _), h3⟩

theorem frame_convAdd (s : Text) : V2IFrame i (convAdd m j s) := by
  intro w; unfold convAdd; split
  · exact ⟨rfl, rfl, rfl⟩
  · rename_i ids h
    dsimp only
    split
    · obtain ⟨h1, h2, h3⟩ := frame_mirror (frame_v2iAdd hj s) j { w with conv := (addAll s ids w.conv).1 }
      exact ⟨h1, h2.trans (addAll_ne (hj ids h) _), h3⟩
    · exact ⟨rfl, addAll_ne (hj ids h) _, rfl⟩

theorem frame_convSet (s : Text) : V2IFrame i (convSet m j s) :=
  (frame_convClear hj).andThen ((frame_convAdd hj s).andThen (frame_mirror (frame_v2iSet hj s) j))
end

theorem Mirrored.frame {i : Id} {f : Lights → Lights × Bool} (hf : V2IFrame i f) {w : Lights}
    (h : Mirrored i w) : Mirrored i (f w).1 := by
  obtain ⟨h1, h2, h3⟩ := hf w
  exact ⟨by rw [h1]; exact h.1, by rw [h2, h3]; exact h.2⟩

end Verif.Light
