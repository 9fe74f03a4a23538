import Verif.Modify.Spec
/-
Theorems about what is read from a scenario written in YAML: C179.
-/
namespace Verif.Modify

theorem isEmptyList_kept (e : Text × Yaml) : e.2.isEmptyList = !Kept e := by
  unfold Yaml.isEmptyList Kept
  rcases e with ⟨k, v⟩
  cases v with
  | seq items => cases items <;> rfl
  | _ => rfl

theorem put_new {k : Text} {v : Tree} : ∀ {es : List (Text × Tree)}, k ∉ es.map Prod.fst → put k v es = es ++ [(k, v)]
  | [], _ => rfl
  | (j, w) :: es, h => by
    simp only [List.map_cons, List.mem_cons, not_or] at h
    unfold put
    rw [if_neg (Ne.symm h.1), put_new h.2]
    rfl

/-- The key an entry gets. -/
def outKey (lower : Char → Bool) : Text → Text
  | [] => []
  | c :: cs => if lower c then '@' :: c :: cs else c :: cs

theorem outKey_inj {lower : Char → Bool} {a b : Text} (ha : a.head? ≠ some '@') (hb : b.head? ≠ some '@')
    (h : outKey lower a = outKey lower b) : a = b := by
  cases a with
  | nil =>
    cases b with
    | nil => rfl
    | cons d ds => simp only [outKey] at h; split at h <;> cases h
  | cons c cs =>
    cases b with
    | nil => simp only [outKey] at h; split at h <;> cases h
    | cons d ds =>
      simp only [List.head?_cons, ne_eq, Option.some.injEq] at ha hb
      simp only [outKey] at h
      split at h <;> split at h <;> simp only [List.cons.injEq] at h
      · rw [h.2.1, h.2.2]
      · exact absurd h.1.symm hb
      · exact absurd h.1 ha
      · rw [h.1, h.2]

theorem becomes_key {lower : Char → Bool} {str : Yaml → Text} {e : Text × Yaml} {r : Text × Tree}
    (h : BecomesEntry lower str e r) : r.1 = outKey lower e.1 := by
  obtain ⟨c, cs, hk, ⟨hl, rfl⟩ | ⟨hl, hr, _⟩⟩ := h
  · rw [hk]; simp [outKey, hl]
  · rw [hk, hr]; simp [outKey, hl]

theorem fromEntries_spec {lower : Char → Bool} {str : Yaml → Text} :
    ∀ {es : List (Text × Yaml)} {done r : List (Text × Tree)}, Keys es →
      (∀ e ∈ es, outKey lower e.1 ∉ done.map Prod.fst) → fromEntries lower str es done = .ok r →
      ∃ new, r = done ++ new ∧ List.Forall₂ (BecomesEntry lower str) (es.filter Kept) new
  | [], done, r, _, _, h => by
    unfold fromEntries at h
    injection h with h
    exact ⟨[], by simp [h], by simp⟩
  | (tag, value) :: es, done, r, hk, hd, h => by
    obtain ⟨hnd, hat⟩ := hk
    rw [List.map_cons, List.nodup_cons] at hnd
    have hk' : Keys es := ⟨hnd.2, fun e he => hat e (by simp [he])⟩
    unfold fromEntries at h
    have hke := isEmptyList_kept (tag, value)
    simp only at hke
    by_cases hv : Kept (tag, value) = true
    · rw [hv] at hke
      simp only [hke, Bool.not_true, Bool.false_eq_true, if_false] at h
      rw [List.filter_cons_of_pos hv]
      cases tag with
      | nil => cases h
      | cons c cs =>
        simp only at h
        have hne : ∀ e ∈ es, outKey lower e.1 ≠ outKey lower (c :: cs) := by
          intro e he heq
          have := outKey_inj (hat e (by simp [he])) (hat (c :: cs, value) (by simp)) heq
          apply hnd.1
          rw [List.mem_map]
          exact ⟨e, he, this⟩
        have hfresh := hd (c :: cs, value) (by simp)
        have key : ∀ t, fromEntries lower str es (put (outKey lower (c :: cs)) t done) = .ok r →
            BecomesEntry lower str (c :: cs, value) (outKey lower (c :: cs), t) →
            ∃ new, r = done ++ new ∧
              List.Forall₂ (BecomesEntry lower str) ((c :: cs, value) :: es.filter Kept) new := by
          intro t ht hb
          rw [put_new hfresh] at ht
          obtain ⟨new, h1, h2⟩ := fromEntries_spec (done := done ++ [(outKey lower (c :: cs), t)]) hk' (by
            intro e he
            rw [List.map_append, List.mem_append, not_or]
            refine ⟨hd e (by simp [he]), ?_⟩
            simpa using hne e he) ht
          exact ⟨(outKey lower (c :: cs), t) :: new, by rw [h1]; simp, List.Forall₂.cons hb h2⟩
        by_cases hl : lower c = true
        · rw [if_pos hl] at h
          have ho : outKey lower (c :: cs) = '@' :: c :: cs := by simp [outKey, hl]
          rw [ho] at key
          exact key _ h ⟨c, cs, rfl, Or.inl ⟨hl, rfl⟩⟩
        · rw [if_neg hl] at h
          have ho : outKey lower (c :: cs) = c :: cs := by simp [outKey, hl]
          rw [ho] at key
          cases hf : fromYaml lower str value with
          | raised => rw [hf] at h; cases h
          | ok t =>
            rw [hf] at h
            exact key t h ⟨c, cs, rfl, Or.inr ⟨by simpa using hl, rfl, hf⟩⟩
    · have hv' : Kept (tag, value) = false := by simpa using hv
      rw [hv'] at hke
      simp only [hke, Bool.not_false, if_true] at h
      rw [List.filter_cons_of_neg hv]
      exact fromEntries_spec hk' (fun e he => hd e (by simp [he])) h

/-- C179: An entry whose value is not an empty list becomes one attribute or one element, in the same order,
under its own name, and nothing else is made: a key that begins in lower case is an attribute with the value
as printed, any other is an element with what its own value becomes. -/
theorem C179_entries {lower : Char → Bool} {str : Yaml → Text} {es : List (Text × Yaml)} {t : Tree}
    (hk : Keys es) (h : fromYaml lower str (.map es) = .ok t) :
    ∃ rs, t = .node rs ∧ List.Forall₂ (BecomesEntry lower str) (es.filter Kept) rs := by
  unfold fromYaml at h
  cases hf : fromEntries lower str es [] with
  | raised => rw [hf] at h; cases h
  | ok r =>
    rw [hf] at h
    unfold Read.bind at h
    injection h with h
    obtain ⟨new, h1, h2⟩ := fromEntries_spec hk (by simp) hf
    rw [List.nil_append] at h1
    subst h1
    exact ⟨r, h.symm, h2⟩

theorem fromItems_spec {lower : Char → Bool} {str : Yaml → Text} :
    ∀ {items : List Yaml} {ts : List Tree}, fromItems lower str items = .ok ts →
      List.Forall₂ (fun y t => fromYaml lower str y = .ok t) items ts
  | [], ts, h => by
    unfold fromItems at h
    injection h with h
    subst h
    exact .nil
  | y :: ys, ts, h => by
    unfold fromItems at h
    cases hy : fromYaml lower str y with
    | raised => rw [hy] at h; cases h
    | ok t =>
      rw [hy] at h
      simp only [Read.bind] at h
      cases hs : fromItems lower str ys with
      | raised => rw [hs] at h; cases h
      | ok us =>
        rw [hs] at h
        injection h with h
        subst h
        exact .cons hy (fromItems_spec hs)

/-- C179: A list becomes as many elements, each as its item does, in the same order. -/
theorem C179_items {lower : Char → Bool} {str : Yaml → Text} {items : List Yaml} {t : Tree}
    (h : fromYaml lower str (.seq items) = .ok t) :
    ∃ ts, t = .several ts ∧ List.Forall₂ (fun y t => fromYaml lower str y = .ok t) items ts := by
  unfold fromYaml at h
  cases hf : fromItems lower str items with
  | raised => rw [hf] at h; cases h
  | ok ts =>
    rw [hf] at h
    injection h with h
    exact ⟨ts, h.symm, fromItems_spec hf⟩

/-- C179: A text is kept. -/
theorem C179_text (lower : Char → Bool) (str : Yaml → Text) (t : Text) :
    fromYaml lower str (.text t) = .ok (.text t) := by
  unfold fromYaml; rfl

mutual
theorem total_yaml (lower : Char → Bool) (str : Yaml → Text) : ∀ (y : Yaml),
    y.All (fun z => ¬ EmptyKey z) → ∃ t, fromYaml lower str y = .ok t
  | .null, _ => ⟨_, by unfold fromYaml; rfl⟩
  | .bool _, _ => ⟨_, by unfold fromYaml; rfl⟩
  | .number _, _ => ⟨_, by unfold fromYaml; rfl⟩
  | .text _, _ => ⟨_, by unfold fromYaml; rfl⟩
  | .seq items, h => by
    cases h with
    | seq _ h =>
      obtain ⟨ts, hts⟩ := total_items lower str items h
      exact ⟨_, by unfold fromYaml; rw [hts]; rfl⟩
  | .map es, h => by
    cases h with
    | map hp h =>
      obtain ⟨ts, hts⟩ := total_entries lower str es [] (fun e he hk => hp ⟨e, he, hk⟩) h
      exact ⟨_, by unfold fromYaml; rw [hts]; rfl⟩

theorem total_items (lower : Char → Bool) (str : Yaml → Text) : ∀ (items : List Yaml),
    (∀ y ∈ items, y.All (fun z => ¬ EmptyKey z)) → ∃ ts, fromItems lower str items = .ok ts
  | [], _ => ⟨_, by unfold fromItems; rfl⟩
  | y :: ys, h => by
    obtain ⟨t, ht⟩ := total_yaml lower str y (h y (by simp))
    obtain ⟨ts, hts⟩ := total_items lower str ys fun z hz => h z (by simp [hz])
    exact ⟨t :: ts, by unfold fromItems; rw [ht, hts]; rfl⟩

theorem total_entries (lower : Char → Bool) (str : Yaml → Text) : ∀ (es : List (Text × Yaml)) (done : List (Text × Tree)),
    (∀ e ∈ es, e.1 ≠ []) → (∀ e ∈ es, e.2.All (fun z => ¬ EmptyKey z)) →
    ∃ ts, fromEntries lower str es done = .ok ts
  | [], done, _, _ => ⟨_, by unfold fromEntries; rfl⟩
  | (k, v) :: es, done, hk, h => by
    unfold fromEntries
    have hr := fun done => total_entries lower str es done (fun e he => hk e (by simp [he])) fun e he => h e (by simp [he])
    split
    · exact hr done
    · cases k with
      | nil => exact absurd rfl (hk ([], v) (by simp))
      | cons c cs =>
        simp only
        split
        · exact hr _
        · obtain ⟨t, ht⟩ := total_yaml lower str v (h (c :: cs, v) (by simp))
          rw [ht]
          exact hr _
end

/-- C179: Every scenario without an empty key is read. -/
theorem C179_total {lower : Char → Bool} {str : Yaml → Text} {y : Yaml} (h : y.All fun z => ¬ EmptyKey z) :
    ∃ t, fromYaml lower str y = .ok t :=
  total_yaml lower str y h

/-- C179 (violated): A number that is the content of an element is lost: whatever it is, the element is
read as an empty one. -/
theorem C179_number_violated (lower : Char → Bool) (str : Yaml → Text) (n m : Text) :
    fromYaml lower str (.number n) = fromYaml lower str (.number m) ∧
    fromYaml lower str (.number n) = fromYaml lower str .null := by
  unfold fromYaml
  exact ⟨rfl, rfl⟩

/-- C179: The same number as an attribute is kept. -/
example : fromYaml Char.isLower (fun y => match y with | .number n => n | _ => [])
    (.map [("Actor".toList, .map [("speed".toList, .number "5".toList), ("Tags".toList, .seq [])])]) =
    .ok (.node [("Actor".toList, .node [("@speed".toList, .text "5".toList)])]) := by
  rfl

/-- The keys of that map meet the hypothesis of `C179_entries`. -/
example : Keys [("speed".toList, Yaml.number "5".toList), ("Tags".toList, .seq [])] := by
  constructor
  · decide
  · decide

/-! ### Booleans -/

mutual
theorem normalize_noBool : ∀ y : Yaml, (normalize y).All NotBool
  | .null => by unfold normalize; exact .null trivial
  | .bool _ => by unfold normalize; exact .text trivial
  | .number _ => by unfold normalize; exact .number trivial
  | .text _ => by unfold normalize; exact .text trivial
  | .seq items => by unfold normalize; exact .seq trivial (normalizeAll_noBool items)
  | .map es => by unfold normalize; exact .map trivial (normalizeEntries_noBool es)

theorem normalizeAll_noBool : ∀ (ys : List Yaml), ∀ y ∈ normalizeAll ys, y.All NotBool
  | [], y, h => by unfold normalizeAll at h; cases h
  | z :: zs, y, h => by
    unfold normalizeAll at h
    rcases List.mem_cons.1 h with rfl | h
    · exact normalize_noBool z
    · exact normalizeAll_noBool zs y h

theorem normalizeEntries_noBool : ∀ (es : List (Text × Yaml)), ∀ e ∈ normalizeEntries es, e.2.All NotBool
  | [], e, h => by unfold normalizeEntries at h; cases h
  | (k, v) :: es, e, h => by
    unfold normalizeEntries at h
    rcases List.mem_cons.1 h with rfl | h
    · exact normalize_noBool v
    · exact normalizeEntries_noBool es e h
end

mutual
theorem normalize_same : ∀ y : Yaml, y.All NotBool → normalize y = y
  | .null, _ => by unfold normalize; rfl
  | .bool _, h => by cases h with | bool h => exact h.elim
  | .number _, _ => by unfold normalize; rfl
  | .text _, _ => by unfold normalize; rfl
  | .seq items, h => by
    cases h with
    | seq _ h => unfold normalize; rw [normalizeAll_same items h]
  | .map es, h => by
    cases h with
    | map _ h => unfold normalize; rw [normalizeEntries_same es h]

theorem normalizeAll_same : ∀ (ys : List Yaml), (∀ y ∈ ys, y.All NotBool) → normalizeAll ys = ys
  | [], _ => by unfold normalizeAll; rfl
  | z :: zs, h => by
    unfold normalizeAll
    rw [normalize_same z (h z (by simp)), normalizeAll_same zs fun y hy => h y (by simp [hy])]

theorem normalizeEntries_same : ∀ (es : List (Text × Yaml)), (∀ e ∈ es, e.2.All NotBool) → normalizeEntries es = es
  | [], _ => by unfold normalizeEntries; rfl
  | (k, v) :: es, h => by
    unfold normalizeEntries
    rw [normalize_same v (h (k, v) (by simp)), normalizeEntries_same es fun e he => h e (by simp [he])]
end

theorem normalizeEntries_map : ∀ es : List (Text × Yaml), normalizeEntries es = es.map fun e => (e.1, normalize e.2)
  | [] => by unfold normalizeEntries; rfl
  | (k, v) :: es => by unfold normalizeEntries; rw [normalizeEntries_map es]; rfl

/-- C179: A boolean is written `true` or `false`, as OpenSCENARIO requires, wherever it is in the scenario:
after the reading none is left as Python would print it, and a scenario without booleans is unchanged. -/
theorem C179_booleans (y : Yaml) : (normalize y).All NotBool ∧ (y.All NotBool → normalize y = y) ∧
    normalize (.bool true) = .text "true".toList ∧ normalize (.bool false) = .text "false".toList ∧
    ∀ es, normalize (.map es) = .map (es.map fun e => (e.1, normalize e.2)) := by
  refine ⟨normalize_noBool y, normalize_same y, ?_, ?_, fun es => ?_⟩
  · unfold normalize; rfl
  · unfold normalize; rfl
  · rw [← normalizeEntries_map]
    unfold normalize
    rfl

end Verif.Modify
