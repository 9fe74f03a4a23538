import Verif.Command.Model
import Verif.Command.Spec
/- C136: how function calls are read. -/
namespace Verif.Command

theorem isSpace_iff (c : Char) : isSpace c = true ↔ Space c := by
  simp [isSpace, Space, or_assoc]

theorem isAtom_iff (c : Char) : isAtom c = true ↔ ¬ Space c ∧ c ∉ ['(', ')', ',', '"'] := by
  simp only [isAtom, Bool.not_eq_true', Bool.or_eq_false_iff, decide_eq_false_iff_not, List.mem_cons, List.not_mem_nil, or_false, not_or, ← isSpace_iff,
    Bool.not_eq_true]
  constructor
  · rintro ⟨⟨⟨⟨h1, h2⟩, h3⟩, h4⟩, h5⟩; exact ⟨h3, h1, h5, h4, h2⟩
  · rintro ⟨h3, h1, h5, h4, h2⟩; exact ⟨⟨⟨⟨h1, h2⟩, h3⟩, h4⟩, h5⟩

theorem takeWhile_append (f : Char → Bool) (a b : Text) (ha : ∀ c ∈ a, f c = true) (hb : ∀ c, b.head? = some c → f c = false) :
    (a ++ b).takeWhile f = a ∧ (a ++ b).dropWhile f = b := by
  induction a with
  | nil =>
    cases b with
    | nil => simp
    | cons c b => have := hb c rfl; simp [this]
  | cons c a ih =>
    have h := ih (fun d hd => ha d (by simp [hd]))
    simp [ha c (by simp), h.1, h.2]

theorem all_takeWhile (f : Char → Bool) (s : Text) : ∀ c ∈ s.takeWhile f, f c = true := by
  induction s with
  | nil => simp
  | cons c s ih =>
    simp only [List.takeWhile_cons]
    split
    · rename_i h; intro d hd; cases hd with
      | head => exact h
      | tail _ hd => exact ih d hd
    · simp

theorem head_dropWhile (f : Char → Bool) (s : Text) : ∀ c, (s.dropWhile f).head? = some c → f c = false := by
  induction s with
  | nil => simp
  | cons c s ih =>
    simp only [List.dropWhile_cons]
    split
    · exact ih
    · rename_i h; intro d hd; simp at hd; subst hd; simpa using h

theorem quoted_append (w s : Text) (h : '"' ∉ w) : quoted (w ++ '"' :: s) = some (w, s) := by
  induction w with
  | nil => simp [quoted]
  | cons c w ih =>
    simp only [List.mem_cons, not_or] at h
    simp [quoted, ih h.2, Ne.symm h.1]

theorem quoted_some {s : Text} : ∀ {w t}, quoted s = some (w, t) → s = w ++ '"' :: t ∧ '"' ∉ w := by
  induction s with
  | nil => intro w t h; simp [quoted] at h
  | cons c s ih =>
    intro w t h
    simp only [quoted] at h
    split at h
    · rename_i hc; cases h; simp [hc]
    · rename_i hc
      cases hq : quoted s with
      | none => rw [hq] at h; simp at h
      | some q =>
        rw [hq] at h; simp at h
        obtain ⟨rfl, rfl⟩ := h
        have := ih (w := q.1) (t := q.2) hq
        exact ⟨by simp [this.1], by simp [this.2, Ne.symm hc]⟩

/-- What `skip` leaves out. -/
theorem skip_split (s : Text) : ∃ g, Gap g ∧ s = g ++ skip s := by
  unfold skip
  split
  · rename_i s
    exact ⟨',' :: s.takeWhile isSpace, .comma _ (fun c hc => (isSpace_iff c).1 (all_takeWhile _ _ c hc)), by simp [List.takeWhile_append_dropWhile]⟩
  · exact ⟨s.takeWhile isSpace, .spaces _ (fun c hc => (isSpace_iff c).1 (all_takeWhile _ _ c hc)), List.takeWhile_append_dropWhile.symm⟩

/-- A gap is left out if what follows is no space, and no comma behind an empty gap. -/
theorem skip_gap {g t : Text} (hg : Gap g) (ht : ∀ c, t.head? = some c → ¬ Space c ∧ c ≠ ',') : skip (g ++ t) = t := by
  have hs : ∀ c, t.head? = some c → isSpace c = false := fun c hc => by
    have := (ht c hc).1; rw [← isSpace_iff] at this; simpa using this
  have key : ∀ w : Text, (∀ c ∈ w, Space c) → (w ++ t).dropWhile isSpace = t := fun w hw =>
    (takeWhile_append isSpace w t (fun c hc => (isSpace_iff c).2 (hw c hc)) hs).2
  cases hg with
  | comma w hw => simp only [List.cons_append, skip]; exact key w hw
  | spaces _ hw =>
    unfold skip
    split
    · rename_i s h
      cases g with
      | nil => simp only [List.nil_append] at h; subst h; exact absurd rfl (ht ',' rfl).2
      | cons c g =>
        simp only [List.cons_append, List.cons.injEq] at h
        have := hw c (by simp)
        rw [h.1] at this; simp [Space] at this
    · exact key _ hw

theorem written_head {w : Text} (h : Written w) (t : Text) : ∀ c, (w ++ t).head? = some c → ¬ Space c ∧ c ≠ ',' := by
  intro c hc
  cases h with
  | plain _ h0 h1 =>
    cases w with
    | nil => exact absurd rfl h0
    | cons d w =>
      simp at hc; subst hc
      have := h1 d (by simp)
      refine ⟨this.1, ?_⟩
      rintro rfl; exact this.2 (by simp)
  | quoted v h => simp at hc; subst hc; exact ⟨by simp [Space], by decide⟩

theorem parameters_head {l : List Text} {t : Text} (h : Parameters l t) : ∀ c, t.head? = some c → ¬ Space c ∧ c ≠ ',' := by
  cases h with
  | nil => simp
  | cons hw _ _ => rw [List.append_assoc]; exact written_head hw _

theorem gap_head {g : Text} (hg : Gap g) (hne : g ≠ []) (t : Text) : ∀ c, (g ++ t).head? = some c → isAtom c = false := by
  intro c hc
  rw [← Bool.not_eq_true, isAtom_iff]
  cases hg with
  | comma w _ => simp at hc; subst hc; simp
  | spaces _ hw =>
    cases g with
    | nil => exact absurd rfl hne
    | cons d g => simp at hc; subst hc; exact fun h => h.1 (hw d (by simp))

theorem piece_word {w u : Text} (hw : Written w) (hsep : (∃ v, w = '"' :: v) ∨ ∀ c, u.head? = some c → isAtom c = false) :
    piece (w ++ u) = some (w, skip u) := by
  cases hw with
  | plain _ h0 h1 =>
    have hsep : ∀ c, u.head? = some c → isAtom c = false := by
      rcases hsep with ⟨v, rfl⟩ | h
      · exact absurd (h1 '"' (by simp)).2 (by simp)
      · exact h
    have := takeWhile_append isAtom w u (fun c hc => (isAtom_iff c).2 (h1 c hc)) hsep
    cases w with
    | nil => exact absurd rfl h0
    | cons c w =>
      have hc : isAtom c = true := (isAtom_iff c).2 (h1 c (by simp))
      simp only [List.cons_append] at this ⊢
      simp only [piece, hc, if_true, this.1, this.2]
  | quoted v h =>
    have ha : isAtom '"' = false := by decide
    simp only [List.cons_append, List.append_assoc, List.nil_append, piece, ha, Bool.false_eq_true, if_false, if_true, quoted_append v _ h, Option.map_some]

/-- A written parameter, a gap and what follows are one match, if the parameter is in quotation marks or what follows cannot lengthen it. -/
theorem piece_written {w g t : Text} (hw : Written w) (hg : Gap g) (ht : ∀ c, t.head? = some c → ¬ Space c ∧ c ≠ ',')
    (hsep : (∃ v, w = '"' :: v) ∨ ∀ c, (g ++ t).head? = some c → isAtom c = false) : piece (w ++ g ++ t) = some (w, t) := by
  rw [List.append_assoc, piece_word hw hsep, skip_gap hg ht]

theorem split_some {s : Text} {p} (h : piece s = some p) : split s = p.1 :: split p.2 := by
  rw [split]
  split
  · rename_i q hq; rw [h] at hq; cases hq; rfl
  · rename_i hq; rw [h] at hq; cases hq

theorem body_some {s : Text} {p} (h : piece s = some p) : body s = body p.2 := by
  rw [body]
  split
  · rename_i q hq; rw [h] at hq; cases hq; rfl
  · rename_i hq; rw [h] at hq; cases hq

theorem body_none {s : Text} (h : piece s = none) : body s = s.isEmpty := by
  rw [body]
  split
  · rename_i q hq; rw [h] at hq; cases hq
  · rfl

theorem split_nil : split [] = [] := by rw [split]; simp [piece]

/-- What a match consists of. -/
theorem piece_some {s w t : Text} (h : piece s = some (w, t)) : Written w ∧ ∃ g, Gap g ∧ s = w ++ g ++ t := by
  cases s with
  | nil => simp [piece] at h
  | cons c s =>
    simp only [piece] at h
    split at h
    · rename_i hc
      simp only [Option.some.injEq, Prod.mk.injEq] at h
      obtain ⟨g, hg, hs⟩ := skip_split ((c :: s).dropWhile isAtom)
      rw [h.2] at hs
      refine ⟨.plain w (by rw [← h.1]; simp [hc]) (fun d hd => (isAtom_iff d).1 (all_takeWhile isAtom (c :: s) d (h.1 ▸ hd))), g, hg, ?_⟩
      rw [← h.1, List.append_assoc, ← hs, List.takeWhile_append_dropWhile]
    · split at h
      · rename_i hc
        subst hc
        cases hq : quoted s with
        | none => rw [hq] at h; simp at h
        | some q =>
          rw [hq] at h
          simp only [Option.map_some, Option.some.injEq, Prod.mk.injEq] at h
          have hs := quoted_some (w := q.1) (t := q.2) hq
          obtain ⟨g, hg, hk⟩ := skip_split q.2
          rw [h.2] at hk
          refine ⟨h.1 ▸ .quoted q.1 hs.2, g, hg, ?_⟩
          rw [← h.1, hs.1, List.append_assoc, ← hk]; simp
      · cases h

/-- Parameters as long as they can be. -/
inductive Merged : List Text → Text → Prop
  | nil : Merged [] []
  | cons {w g t : Text} {l : List Text} : Written w → Gap g → ((∃ v, w = '"' :: v) ∨ ∀ c, (g ++ t).head? = some c → isAtom c = false) → Merged l t →
      Merged (w :: l) (w ++ g ++ t)

theorem Merged.parameters {l : List Text} {t : Text} (h : Merged l t) : Parameters l t := by
  induction h with
  | nil => exact .nil
  | cons hw hg _ _ ih => exact .cons hw hg ih

theorem Merged.split {l : List Text} {t : Text} (h : Merged l t) : split t = l ∧ body t = true := by
  induction h with
  | nil => constructor <;> · first | rw [Command.split] | rw [body]
                             simp [piece]
  | cons hw hg hs ht ih =>
    have hp := piece_written hw hg (parameters_head ht.parameters) hs
    rw [split_some hp, body_some hp]
    exact ⟨by simp [ih.1], ih.2⟩

theorem Parameters.merged {l : List Text} {t : Text} (h : Parameters l t) : ∃ m, Merged m t := by
  induction h with
  | nil => exact ⟨[], .nil⟩
  | @cons w g t l hw hg _ ih =>
    obtain ⟨m, hm⟩ := ih
    by_cases hs : (∃ v, w = '"' :: v) ∨ ∀ c, (g ++ t).head? = some c → isAtom c = false
    · exact ⟨_, .cons hw hg hs hm⟩
    · have h1 := fun h => hs (.inl h)
      obtain ⟨c, hc, ha⟩ : ∃ c, (g ++ t).head? = some c ∧ ¬ isAtom c = false :=
        Classical.byContradiction fun h => hs (.inr fun c hc => Classical.byContradiction fun h' => h ⟨c, hc, h'⟩)
      have hg0 : g = [] := Classical.byContradiction fun hne => ha (gap_head hg hne t c hc)
      subst hg0
      cases hw with
      | quoted v hv => exact absurd ⟨_, rfl⟩ h1
      | plain _ hw0 hw1 =>
        cases hm with
        | nil => simp at hc
        | @cons w' g' t' l' hw' hg' hs' hm' =>
          cases hw' with
          | quoted v hv => simp at hc; subst hc; exact absurd (by decide) ha
          | plain _ h0 hh =>
            have hs'' : ∀ c, (g' ++ t').head? = some c → isAtom c = false := by
              rcases hs' with ⟨v, rfl⟩ | h
              · exact absurd (hh '"' (by simp)).2 (by simp)
              · exact h
            refine ⟨(w ++ w') :: l', ?_⟩
            have : w ++ [] ++ (w' ++ g' ++ t') = (w ++ w') ++ g' ++ t' := by simp
            rw [this]
            refine .cons (.plain _ (by simp [hw0]) ?_) hg' (.inr hs'') hm'
            intro d hd
            rcases List.mem_append.1 hd with hd | hd
            · exact hw1 d hd
            · exact hh d hd

theorem Apart.merged {l : List Text} {t : Text} (h : Apart l t) : Merged l t := by
  induction h with
  | nil => exact .nil
  | @last w g hw hg =>
    have := Merged.cons (t := []) hw hg ?_ .nil
    · simpa using this
    · by_cases hne : g = []
      · subst hne; right; simp
      · right; exact gap_head hg hne []
  | cons hw hg hne _ ih => exact .cons hw hg (.inr (gap_head hg hne _)) ih

theorem body_split : ∀ (n : Nat) (s : Text), s.length ≤ n → body s = true → Parameters (split s) s := by
  intro n
  induction n with
  | zero =>
    intro s hs _
    have : s = [] := List.length_eq_zero_iff.1 (Nat.le_zero.1 hs)
    subst this
    rw [split]; simp [piece]; exact .nil
  | succ n ih =>
    intro s hs hb
    cases hp : piece s with
    | some p =>
      rw [body_some hp] at hb
      rw [split_some hp]
      obtain ⟨hw, g, hg, h⟩ := piece_some (w := p.1) (t := p.2) hp
      have hlt := piece_length hp
      have := Parameters.cons hw hg (ih p.2 (by omega) hb)
      rwa [← h] at this
    | none =>
      rw [body_none hp, List.isEmpty_iff] at hb
      subst hb
      rw [split_nil]
      exact .nil

theorem body_iff (s : Text) : body s = true ↔ ∃ l, Parameters l s :=
  ⟨fun h => ⟨_, body_split _ s (Nat.le_refl _) h⟩, fun ⟨_, h⟩ => (Parameters.merged h).elim fun _ hm => hm.split.2⟩

theorem isName_iff (c : Char) : isName c = true ↔ c.isAlphanum = true ∨ c = '_' ∨ c = '@' := by
  simp [isName, or_assoc]

theorem call_plain {f : Text} (hf : Name f) : call f = some (f, []) := by
  have h := takeWhile_append isName f [] (fun c hc => (isName_iff c).2 (hf.2 c hc)) (by simp)
  rw [List.append_nil] at h
  simp [call, h.1, h.2, hf.1]

theorem call_parens {f a : Text} (hf : Name f) : call (f ++ '(' :: a ++ [')']) = if body a then some (f, a) else none := by
  have h := takeWhile_append isName f ('(' :: a ++ [')']) (fun c hc => (isName_iff c).2 (hf.2 c hc)) (by simp; decide)
  rw [List.append_assoc, call, h.1, h.2]
  simp [hf.1]

theorem call_some {s f a : Text} (h : call s = some (f, a)) : Name f ∧ Calls f a s ∧ body a = true := by
  have hall := all_takeWhile isName s
  have hs : s = s.takeWhile isName ++ s.dropWhile isName := List.takeWhile_append_dropWhile.symm
  have hn : s.takeWhile isName ≠ [] → Name (s.takeWhile isName) := fun hne => ⟨hne, fun c hc => (isName_iff c).1 (hall c hc)⟩
  unfold call at h
  simp only at h
  generalize s.takeWhile isName = x at *
  generalize s.dropWhile isName = y at *
  split at h
  · cases h
  · rename_i hne
    have hx := hn (by simpa using hne)
    split at h
    · cases h
      refine ⟨hx, .inl ⟨by simpa using hs, rfl⟩, ?_⟩
      rw [body]; simp [piece]
    · rename_i r
      split at h
      · rename_i hl
        split at h
        · rename_i hb
          cases h
          refine ⟨hx, .inr ?_, hb⟩
          rw [hs]
          have : r = r.dropLast ++ [')'] := by
            obtain ⟨x, rfl⟩ := List.getLast?_eq_some_iff.1 hl
            simp
          conv => lhs; rw [this]
          simp
        · cases h
      · cases h
    · cases h

/-- **C136** A text is read as a call exactly if it is a name, alone or with parameters between parentheses right behind it; what is read are that name and what is between
the parentheses. -/
theorem C136_calls (s f a : List Char) : call s = some (f, a) ↔ Name f ∧ Calls f a s ∧ ∃ l, Parameters l a := by
  rw [← body_iff]
  refine ⟨call_some, ?_⟩
  rintro ⟨hf, h | h, hb⟩
  · obtain ⟨rfl, rfl⟩ := h; exact call_plain hf
  · rw [h, call_parens hf, if_pos hb]

/-- **C136** Nothing of the parameters of a call is lost, added or moved. -/
theorem C136_nothing_lost (s f a : List Char) (h : call s = some (f, a)) : Parameters (split a) a :=
  body_split _ a (Nat.le_refl _) (call_some h).2.2

/-- **C136** Parameters with a comma or spaces between them are the ones that are read. -/
theorem C136_parameters (f a : List Char) (l : List (List Char)) (hf : Name f) (ha : Apart l a) : call (f ++ '(' :: a ++ [')']) = some (f, a) ∧ split a = l := by
  have := ha.merged.split
  exact ⟨by rw [call_parens hf, if_pos this.2], this.1⟩

/-- **C136** A name alone is a call without parameters. -/
theorem C136_alone (f : List Char) (hf : Name f) : call f = some (f, []) ∧ split [] = [] :=
  ⟨call_plain hf, by rw [split]; simp [piece]⟩

/-- **C136** A space behind the opening parenthesis, or a space before a comma, makes a text something else than a call. -/
theorem C136_space_violated (f a b : List Char) (hf : Name f) (ha : Written a) :
    call (f ++ '(' :: (' ' :: b) ++ [')']) = none ∧ call (f ++ '(' :: (a ++ [' '] ++ ',' :: b) ++ [')']) = none := by
  constructor
  · rw [call_parens hf]
    have h : piece (' ' :: b) = none := by
      have ha : isAtom ' ' = false := by decide
      simp [piece, ha]
    rw [body_none h]; rfl
  · rw [call_parens hf]
    have hp : piece (a ++ ' ' :: ',' :: b) = some (a, ',' :: b) := by
      rw [piece_word ha (.inr (by simp; decide))]
      have h1 : isSpace ' ' = true := by decide
      have h2 : isSpace ',' = false := by decide
      simp [skip, h1, h2]
    have hq : piece (',' :: b) = none := by
      have ha : isAtom ',' = false := by decide
      simp [piece, ha]
    have : body (a ++ [' '] ++ ',' :: b) = false := by
      rw [List.append_assoc, List.singleton_append, body_some hp, body_none hq]; rfl
    rw [if_neg (by rw [this]; decide)]

example : Name "f".toList ∧ Written "a".toList ∧ call "f( a)".toList = none ∧ call "f(a , b)".toList = none := by
  have hf : Name "f".toList := ⟨by decide, by decide⟩
  have ha : Written "a".toList := .plain _ (by decide) (by simp [Space])
  exact ⟨hf, ha, (C136_space_violated "f".toList "a".toList "a".toList hf ha).1, (C136_space_violated "f".toList "a".toList " b".toList hf ha).2⟩

example : Name "FaultInjectionAction@v2".toList ∧ call "FaultInjectionAction@v2(ERROR, \"a, b\")".toList = some ("FaultInjectionAction@v2".toList, "ERROR, \"a, b\"".toList) ∧
    split "ERROR, \"a, b\"".toList = ["ERROR".toList, "\"a, b\"".toList] := by
  refine ⟨⟨by decide, by decide⟩, ?_⟩
  have h : Apart ["ERROR".toList, "\"a, b\"".toList] "ERROR, \"a, b\"".toList :=
    .cons (w := "ERROR".toList) (g := ", ".toList) (t := "\"a, b\"".toList) (.plain _ (by decide) (by simp [Space])) (.comma [' '] (by simp [Space])) (by decide)
      (.last (w := "\"a, b\"".toList) (g := []) (.quoted "a, b".toList (by decide)) (.spaces [] (by simp)))
  exact C136_parameters "FaultInjectionAction@v2".toList _ _ ⟨by decide, by decide⟩ h

end Verif.Command
