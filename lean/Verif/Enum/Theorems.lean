import Verif.Enum.Spec

namespace Verif.Enum

/-! ### Reading -/

/-- A text without white space that is not empty. -/
def Word (s : String) : Prop := s ≠ "" ∧ ∀ c ∈ s.toList, space c = false

instance (s : String) : Decidable (Word s) := inferInstanceAs (Decidable (_ ∧ _))

theorem accepted_words (w : Which) : ∀ p ∈ w.accepted, Word p.1 := by
  cases w <;> decide +kernel

theorem accepted_keys (w : Which) : (w.accepted.map Prod.fst).Nodup := by
  cases w <;> decide +kernel

theorem takeWhile_all (p : Char → Bool) : ∀ l : List Char, (∀ c ∈ l, p c = true) →
    l.takeWhile p = l ∧ l.dropWhile p = [] := by
  intro l
  induction l with
  | nil => intro _; exact ⟨rfl, rfl⟩
  | cons c l ih =>
    intro h
    have hc := h c (by simp)
    obtain ⟨h1, h2⟩ := ih fun x hx => h x (List.mem_cons_of_mem _ hx)
    simp [hc, h1, h2]

theorem token_word (s : String) (h : Word s) : token s = s ∧ rest s = "" := by
  obtain ⟨h1, h2⟩ := takeWhile_all (fun c => !space c) s.toList (by intro c hc; simp [h.2 c hc])
  unfold token rest
  rw [h1, h2]
  simp

theorem token_rest (s : String) (h : rest s = "") : token s = s := by
  unfold token rest at *
  have h1 : s.toList.dropWhile (fun c => !space c) = [] := by
    have := congrArg String.toList h
    simpa using this
  have h2 := List.takeWhile_append_dropWhile (p := fun c => !space c) (l := s.toList)
  rw [h1, List.append_nil] at h2
  rw [h2]
  simp

theorem lookup_some_mem : ∀ (l : List (String × String)) {n v : String}, l.lookup n = some v → (n, v) ∈ l := by
  intro l
  induction l with
  | nil => intro n v h; simp at h
  | cons a l ih =>
    obtain ⟨m, x⟩ := a
    intro n v h
    by_cases hm : n = m
    · subst hm; simp [List.lookup] at h; simp [h]
    · simp [List.lookup, beq_eq_false_iff_ne.2 hm] at h
      exact List.mem_cons_of_mem _ (ih h)

theorem mem_lookup_some : ∀ (l : List (String × String)), (l.map Prod.fst).Nodup → ∀ {n v : String},
    (n, v) ∈ l → l.lookup n = some v := by
  intro l
  induction l with
  | nil => intro _ n v h; cases h
  | cons a l ih =>
    obtain ⟨m, x⟩ := a
    intro hn n v h
    rw [List.map_cons, List.nodup_cons] at hn
    rcases List.mem_cons.1 h with heq | hl
    · cases heq; simp [List.lookup]
    · have : n ≠ m := by
        rintro rfl
        exact hn.1 (List.mem_map.2 ⟨_, hl, rfl⟩)
      simp only [List.lookup, beq_eq_false_iff_ne.2 this]
      exact ih hn.2 hl

theorem cast_value (w : Which) (s v : String) : w.cast s = .value v ↔ (s, v) ∈ w.accepted := by
  constructor
  · intro h
    unfold Which.cast Which.extract at h
    by_cases h0 : w = .routingAlgorithm ∧ token s = ""
    · rw [if_pos h0] at h; simp at h
    · rw [if_neg h0] at h
      cases hl : w.accepted.lookup (token s) with
      | none =>
        rw [hl] at h
        by_cases hr : token s ∈ w.refused <;> simp [hr] at h
      | some x =>
        rw [hl] at h
        simp only at h
        by_cases hg : decide (token s = "") = false ∧ rest s = ""
        · rw [if_pos hg] at h
          cases h
          rw [token_rest s hg.2] at hl
          exact lookup_some_mem _ hl
        · rw [if_neg hg] at h; cases h
  · intro h
    have hw := accepted_words w _ h
    obtain ⟨h1, h2⟩ := token_word s hw
    unfold Which.cast Which.extract
    rw [h1, if_neg (fun h0 => hw.1 h0.2), mem_lookup_some _ (accepted_keys w) h]
    simp [hw.1, h2]

instance (w : Which) (s : String) : Decidable (w.Name s) := inferInstanceAs (Decidable (_ ∨ _))

theorem accepted_sound (w : Which) : ∀ p ∈ w.accepted, w.Name p.1 ∧ p.2 = w.meaning p.1 := by
  cases w <;> decide +kernel

theorem accepted_complete (w : Which) : ∀ s ∈ w.standard ++ w.besides, w.Name s → (s, w.meaning s) ∈ w.accepted := by
  cases w <;> decide +kernel

theorem accepted_iff (w : Which) (s v : String) : (s, v) ∈ w.accepted ↔ w.Name s ∧ v = w.meaning s := by
  constructor
  · exact fun h => accepted_sound w _ h
  · rintro ⟨h, rfl⟩
    refine accepted_complete w s ?_ h
    rcases h with h | h
    · exact List.mem_append_left _ h.1
    · exact List.mem_append_right _ h

/-! ### C187: an enumeration is read exactly from the names of its values -/

/-- **C187.** A text that is written out, and not empty, gives a value exactly if it is one of the names of the
standard that are supported or one of the few besides, to the letter, and then the value of that name. -/
theorem C187_literal_partial (w : Which) (scope : String → Option String) (s v : String) (hs : s ≠ "")
    (hd : s.toList.head? ≠ some '$') :
    w.attribute scope s = .value v ↔ w.Name s ∧ v = w.meaning s := by
  unfold Which.attribute
  rw [if_neg hs, if_neg hd, cast_value, accepted_iff]

/-- **C187.** The same holds of the text of a parameter, and there also for an empty one; a parameter that is
not declared gives no value. -/
theorem C187_parameter (w : Which) (scope : String → Option String) (n v : String) :
    w.attribute scope ("$" ++ n) = .value v ↔ ∃ t, scope n = some t ∧ w.Name t ∧ v = w.meaning t := by
  unfold Which.attribute
  have h1 : ("$" ++ n) ≠ "" := by
    intro h
    have := congrArg String.toList h
    simp at this
  have h2 : ("$" ++ n).toList = '$' :: n.toList := by simp
  rw [if_neg h1, h2]
  simp only [List.head?_cons, if_true, List.drop_one, List.tail_cons, String.ofList_toList]
  cases hn : scope n with
  | none => simp
  | some t => simp [cast_value, accepted_iff]

theorem missing_words (w : Which) : ∀ s ∈ w.missing, Word s ∧ w.accepted.lookup s = none ∧
    (s ≠ "world" → s ∈ w.refused) ∧ s.toList.head? ≠ some '$' := by
  cases w <;> decide +kernel

/-- **C187.** A name of the standard that is not supported is said to be so; but for the coordinate system
`world`, which is said to be unknown. -/
theorem C187_unsupported (w : Which) (scope : String → Option String) (s : String) (h : s ∈ w.missing) :
    w.attribute scope s = .unsupported ∨ (s = "world" ∧ w.attribute scope s = .unexpected) := by
  obtain ⟨h1, h2, h3, h4⟩ := missing_words w s h
  obtain ⟨ht, hr⟩ := token_word s h1
  have hc : w.attribute scope s = if s ∈ w.refused then .unsupported else .unexpected := by
    unfold Which.attribute
    rw [if_neg h1.1, if_neg h4]
    unfold Which.cast Which.extract
    rw [ht, if_neg (fun h0 => h1.1 h0.2), h2]
    by_cases hm : s ∈ w.refused <;> simp [hm]
  by_cases hw : s = "world"
  · subst hw
    rw [hc]
    by_cases hm : "world" ∈ w.refused <;> simp [hm]
  · rw [hc, if_pos (h3 hw)]
    exact Or.inl rfl

example : Which.rule.attribute (fun _ => none) "lessThan" = .value "lessThan" ∧
    Which.rule.attribute (fun _ => none) "lessThan " = .invalid ∧
    Which.rule.attribute (fun _ => none) " lessThan" = .unexpected ∧
    Which.rule.attribute (fun _ => none) "LessThan" = .unexpected ∧
    Which.priority.attribute (fun _ => none) "overwrite" = .value "override" ∧
    Which.priority.attribute (fun n => if n = "p" then some "skip" else none) "$p" = .value "skip" ∧
    Which.routeStrategy.attribute (fun _ => none) "fastest" = .unsupported := by
  decide +kernel

/-- **C187, not so.** Every enumeration accepts the empty text, as a value that nobody wrote: a condition
without a rule asks for equality, an event without a priority is skipped. -/
theorem C187_empty_violated :
    (∀ (w : Which) scope, ¬ w.Name "" ∧ ∃ v, w.attribute scope "" = .value v) ∧
      (∀ scope, Which.rule.attribute scope "" = .value "equalTo") ∧
      (∀ scope, Which.priority.attribute scope "" = .value "skip") := by
  refine ⟨fun w scope => ⟨?_, _, by unfold Which.attribute; rw [if_pos rfl]⟩, fun _ => rfl, fun _ => rfl⟩
  cases w <;> decide +kernel

/-- **C187.** So what an attribute with the empty text means is the value that stands first, in every enumeration. -/
theorem C187_empty (w : Which) (scope : String → Option String) : w.attribute scope "" = .value w.first := by
  cases w <;> rfl

/-- **C187, not so.** The value may even be one that is refused when it is written out. -/
theorem C187_refused_violated (scope : String → Option String) :
    Which.miscObjectCategory.attribute scope "" = .value "none" ∧
      Which.miscObjectCategory.attribute scope "none" = .unsupported := by
  refine ⟨rfl, ?_⟩
  rcases C187_unsupported .miscObjectCategory scope "none" (by decide) with h | h
  · exact h
  · exact absurd h.1 (by decide)

/-! ### C188: what is written of a value reads as that value -/

theorem printed_good (w : Which) : ∀ s ∈ w.standard ++ w.besides, w.Name s →
    ∃ t ∈ w.standard ++ w.besides, w.print (w.meaning s) = some t ∧ w.Name t ∧ w.meaning t = w.meaning s := by
  cases w <;> decide +kernel

/-- **C188.** Every value that a scenario can have is written as a name from which the same value is read, as an
attribute and as the text of a parameter. -/
theorem C188_round_trip (w : Which) (scope : String → Option String) (s v : String)
    (h : w.attribute scope s = .value v) (hs : s ≠ "") :
    ∃ t, w.print v = some t ∧ w.Name t ∧ w.attribute scope t = .value v ∧ w.cast t = .value v := by
  have hv : ∃ s, w.Name s ∧ v = w.meaning s := by
    by_cases hd : s.toList.head? = some '$'
    · have hs2 : s = "$" ++ String.ofList (s.toList.drop 1) := by
        apply String.toList_injective
        cases hl : s.toList with
        | nil => rw [hl] at hd; simp at hd
        | cons c l => rw [hl] at hd; simp at hd; simp [hd]
      rw [hs2, C187_parameter] at h
      obtain ⟨t, _, h2⟩ := h
      exact ⟨t, h2⟩
    · exact ⟨s, (C187_literal_partial w scope s v hs hd).1 h⟩
  obtain ⟨a, ha, rfl⟩ := hv
  have hm : a ∈ w.standard ++ w.besides := by
    rcases ha with h | h
    · exact List.mem_append_left _ h.1
    · exact List.mem_append_right _ h
  obtain ⟨t, _, h1, h2, h3⟩ := printed_good w a hm ha
  have hc : w.cast t = .value (w.meaning a) := by
    rw [cast_value, accepted_iff]; exact ⟨h2, h3.symm⟩
  refine ⟨t, h1, h2, ?_, hc⟩
  have hacc := (accepted_iff w t (w.meaning t)).2 ⟨h2, rfl⟩
  have hne := (accepted_words w _ hacc).1
  have hd : t.toList.head? ≠ some '$' := by
    have : ∀ p ∈ w.accepted, p.1.toList.head? ≠ some '$' := by cases w <;> decide +kernel
    exact this _ hacc
  exact (C187_literal_partial w scope t _ hne hd).2 ⟨h2, h3.symm⟩

/-- **C188.** Two values are never written alike. -/
theorem C188_apart (w : Which) (a b t : String) (ha : w.print a = some t) (hb : w.print b = some t) : a = b := by
  have h : ∀ p ∈ w.printed, ∀ q ∈ w.printed, p.2 = q.2 → p.1 = q.1 := by cases w <;> decide +kernel
  exact h _ (lookup_some_mem _ ha) _ (lookup_some_mem _ hb) rfl

example : Which.relativeDistanceType.print "euclidianDistance" = some "euclidianDistance" ∧
    Which.parameterType.print "UNSIGNED_INT" = some "unsignedInt" := by
  decide +kernel

end Verif.Enum
