import Verif.Reader.Attribute
/-
C115: attributes are read as they are written.
-/
namespace Verif.Reader
open Spec

theorem lineBreak_iff (c : Char) : (c == '\n' || c == '\r') = true ↔ lineBreak c := by simp [lineBreak]

theorem oneLine_nil : OneLine [] := fun _ h => absurd h (List.not_mem_nil)

theorem clean_nil : Clean [] := ⟨oneLine_nil, List.not_mem_nil⟩

theorem oneLine_append {s t : List Char} : OneLine (s ++ t) ↔ OneLine s ∧ OneLine t := by
  constructor
  · intro h
    exact ⟨fun c hc => h c (List.mem_append_left _ hc), fun c hc => h c (List.mem_append_right _ hc)⟩
  · rintro ⟨h1, h2⟩ c hc
    rcases List.mem_append.mp hc with h | h
    · exact h1 c h
    · exact h2 c h

theorem clean_append {s t : List Char} : Clean (s ++ t) ↔ Clean s ∧ Clean t := by
  simp only [Clean, oneLine_append, List.mem_append, not_or]
  constructor
  · rintro ⟨⟨a, b⟩, c, d⟩; exact ⟨⟨a, c⟩, b, d⟩
  · rintro ⟨⟨a, c⟩, b, d⟩; exact ⟨⟨a, b⟩, c, d⟩

theorem any_break {s : List Char} : s.any (fun c => c == '\n' || c == '\r') = true ↔ ¬ OneLine s := by
  simp only [List.any_eq_true, lineBreak_iff, OneLine]
  constructor
  · rintro ⟨c, h1, h2⟩ h; exact h c h1 h2
  · intro h
    exact Classical.byContradiction fun h' => h fun c hc hb => h' ⟨c, hc, hb⟩

theorem takeWhile_append_of_all {p : Char → Bool} {s t : List Char} (h : ∀ c ∈ s, p c = true) : (s ++ t).takeWhile p = s ++ t.takeWhile p := by
  induction s with
  | nil => rfl
  | cons c s ih => rw [List.cons_append, List.takeWhile_cons, if_pos (h c (by simp)), ih (fun c hc => h c (List.mem_cons_of_mem _ hc)), List.cons_append]

theorem dropWhile_append_of_all {p : Char → Bool} {s t : List Char} (h : ∀ c ∈ s, p c = true) : (s ++ t).dropWhile p = t.dropWhile p := by
  induction s with
  | nil => rfl
  | cons c s ih => rw [List.cons_append, List.dropWhile_cons, if_pos (h c (by simp)), ih (fun c hc => h c (List.mem_cons_of_mem _ hc))]

/-- The pattern matches a substitution that is written with one space. -/
theorem matchTail_call (w a t : List Char) (hw : Word w) (ha : ')' ∉ a) (ht : OneLine t) : matchTail (w ++ [' '] ++ a ++ [')'] ++ t) = some (w, a, t) := by
  have hsp : wordChar ' ' = false := by decide
  have h1 : (w ++ [' '] ++ a ++ [')'] ++ t).takeWhile wordChar = w := by
    simp only [List.append_assoc]
    rw [takeWhile_append_of_all hw.2]
    simp [hsp]
  have h2 : (w ++ [' '] ++ a ++ [')'] ++ t).dropWhile wordChar = ' ' :: (a ++ [')'] ++ t) := by
    simp only [List.append_assoc]
    rw [dropWhile_append_of_all hw.2]
    simp [hsp]
  have ha' : ∀ c ∈ a, (c != ')') = true := by
    intro c hc
    simp only [bne_iff_ne, ne_eq]
    rintro rfl
    exact ha hc
  have h3 : (a ++ [')'] ++ t).dropWhile (· != ')') = ')' :: t := by
    rw [List.append_assoc, dropWhile_append_of_all ha']
    simp
  have h4 : (a ++ [')'] ++ t).takeWhile (· != ')') = a := by
    rw [List.append_assoc, takeWhile_append_of_all ha']
    simp
  simp only [matchTail, h1, h2]
  have h5 : skipSpace (' ' :: (a ++ [')'] ++ t)) = a ++ [')'] ++ t := rfl
  rw [h5, h3, h4]
  simp only
  rw [if_neg]
  rintro (h | h)
  · exact hw.1 h
  · exact any_break.mp h ht

theorem last_none_of_clean {s : List Char} (h : '$' ∉ s) : last s = none := by
  induction s with
  | nil => rfl
  | cons c l ih =>
    rw [last, ih (fun hc => h (List.mem_cons_of_mem _ hc))]
    split
    · rfl
    · rw [here]
      · rfl
      · rintro s hs
        exact h (by rw [hs]; simp)

theorem last_append {p s b r} (hp : OneLine p) (h : last s = some (b, r)) : last (p ++ s) = some (p ++ b, r) := by
  induction p with
  | nil => exact h
  | cons c p ih =>
    rw [List.cons_append, last, ih (fun x hx => hp x (List.mem_cons_of_mem _ hx)), if_neg]
    · rfl
    · rw [lineBreak_iff]; exact hp c (by simp)

theorem last_here {s r} (h1 : last ('(' :: s) = none) (h2 : matchTail s = some r) : last ('$' :: '(' :: s) = some ([], r) := by
  rw [last, h1, if_neg (by decide)]
  simp only [here, h2, Option.map_some]

/-- The last substitution is found. -/
theorem last_call (p w a t : List Char) (hp : OneLine p) (hw : Word w) (ha : ')' ∉ a) (ha' : '$' ∉ a) (ht : Clean t) :
    last (p ++ (['$', '('] ++ w ++ [' '] ++ a ++ [')'] ++ t)) = some (p, w, a, t) := by
  have := last_append hp (last_here (s := w ++ [' '] ++ a ++ [')'] ++ t) (last_none_of_clean ?_) (matchTail_call w a t hw ha ht.1))
  · rw [List.append_nil] at this
    exact this
  · have hd : wordChar '$' = false := by decide
    simp only [List.mem_cons, List.mem_append, not_or, List.not_mem_nil, or_false]
    refine ⟨by decide, ⟨⟨⟨?_, by decide⟩, ha'⟩, by decide⟩, ht.2⟩
    intro h
    rw [hw.2 _ h] at hd
    cases hd

theorem mem_takeWhile {p : Char → Bool} {s : List Char} {c : Char} (h : c ∈ s.takeWhile p) : p c = true := by
  induction s with
  | nil => cases h
  | cons x s ih =>
    rw [List.takeWhile_cons] at h
    split at h
    · rcases List.mem_cons.mp h with rfl | h
      · assumption
      · exact ih h
    · cases h

theorem dropWhile_head {s t : List Char} {x : Char} (h : s.dropWhile (· != ')') = x :: t) : x = ')' := by
  induction s with
  | nil => cases h
  | cons c s ih =>
    rw [List.dropWhile_cons] at h
    split at h
    · exact ih h
    · rename_i hc
      cases h
      simpa using hc

theorem matchTail_sound {s w a t} (h : matchTail s = some (w, a, t)) :
    Word w ∧ ')' ∉ a ∧ OneLine t ∧ (s = w ++ a ++ [')'] ++ t ∨ ∃ sp : Char, sp.isWhitespace = true ∧ s = w ++ [sp] ++ a ++ [')'] ++ t) := by
  simp only [matchTail] at h
  have hs : s = s.takeWhile wordChar ++ s.dropWhile wordChar := List.takeWhile_append_dropWhile.symm
  generalize hrest : skipSpace (s.dropWhile wordChar) = rest at h
  split at h
  · rename_i x after hx
    split at h
    · cases h
    rename_i hn
    rw [not_or] at hn
    cases h
    have hx' := dropWhile_head hx
    subst hx'
    have hr : rest = rest.takeWhile (· != ')') ++ ')' :: t := by
      rw [← hx]
      exact List.takeWhile_append_dropWhile.symm
    refine ⟨⟨hn.1, fun c hc => mem_takeWhile hc⟩, ?_, ?_, ?_⟩
    · intro h
      have := mem_takeWhile h
      simp at this
    · exact Classical.byContradiction fun h => hn.2 (any_break.mpr h)
    · cases hd : s.dropWhile wordChar with
      | nil =>
        rw [hd] at hrest
        simp only [skipSpace] at hrest
        rw [← hrest] at hx
        simp at hx
      | cons c m =>
        rw [hd] at hrest
        simp only [skipSpace] at hrest
        split at hrest
        · rename_i hsp
          subst hrest
          refine Or.inr ⟨c, hsp, ?_⟩
          conv => lhs; rw [hs, hd, hr]
          simp
        · left
          conv => lhs; rw [hs, hd, hrest, hr]
          simp
  · cases h

theorem last_sound {s p w a t} (h : last s = some (p, w, a, t)) : At s p w a t := by
  induction s generalizing p with
  | nil => cases h
  | cons c l ih =>
    rw [last] at h
    split at h
    · cases h
    rename_i hc
    rw [lineBreak_iff] at hc
    split at h
    · rename_i b r hl
      cases h
      obtain ⟨h1, h2, h3, h4, h5⟩ := ih hl
      refine ⟨h1, h2, ?_, h4, ?_⟩
      · intro x hx
        rcases List.mem_cons.mp hx with rfl | hx
        · exact hc
        · exact h3 x hx
      · rcases h5 with rfl | ⟨sp, h5, rfl⟩
        · exact Or.inl (by simp)
        · exact Or.inr ⟨sp, h5, by simp⟩
    · simp only [Option.map_eq_some_iff] at h
      obtain ⟨r, h, hr⟩ := h
      cases hr
      rw [here.eq_def] at h
      split at h
      · rename_i l' hcl
        rw [hcl]
        obtain ⟨h1, h2, h3, h4⟩ := matchTail_sound h
        refine ⟨h1, h2, oneLine_nil, h3, ?_⟩
        rcases h4 with rfl | ⟨sp, h4, rfl⟩
        · exact Or.inl (by simp)
        · exact Or.inr ⟨sp, h4, by simp⟩
      · cases h

theorem dropWhile_dropWhile {p q : Char → Bool} (h : ∀ c, p c = true → q c = true) (s : List Char) : (s.dropWhile p).dropWhile q = s.dropWhile q := by
  induction s with
  | nil => rfl
  | cons c s ih =>
    rw [List.dropWhile_cons]
    split
    · rename_i hc
      rw [ih, List.dropWhile_cons, if_pos (h c hc)]
    · rfl

theorem skipSpace_drop (s : List Char) : (skipSpace s).dropWhile (· != ')') = s.dropWhile (· != ')') := by
  cases s with
  | nil => rfl
  | cons c s =>
    rw [skipSpace]
    split
    · rename_i hc
      rw [List.dropWhile_cons, if_pos]
      simp only [bne_iff_ne, ne_eq]
      rintro rfl
      revert hc
      decide
    · rfl

theorem matchTail_complete {w a t : List Char} (hw : Word w) (ha : ∀ c ∈ a, (c != ')') = true) (ht : OneLine t) : matchTail (w ++ a ++ [')'] ++ t) ≠ none := by
  have hword : ∀ c, wordChar c = true → (c != ')') = true := by
    intro c hc
    simp only [bne_iff_ne, ne_eq]
    rintro rfl
    revert hc
    decide
  simp only [matchTail]
  rw [skipSpace_drop, dropWhile_dropWhile hword]
  have hd : (w ++ a ++ [')'] ++ t).dropWhile (· != ')') = ')' :: t := by
    rw [List.append_assoc w, List.append_assoc w, dropWhile_append_of_all (fun c hc => hword c (hw.2 c hc)), List.append_assoc, dropWhile_append_of_all ha]
    simp
  rw [hd]
  simp only
  rw [if_neg]
  · simp
  rintro (h | h)
  · obtain ⟨c, w', rfl⟩ := List.exists_cons_of_ne_nil hw.1
    simp only [List.cons_append] at h
    rw [List.takeWhile_cons, if_pos (hw.2 c (by simp))] at h
    cases h
  · exact any_break.mp h ht

theorem last_complete {s p w a t} (h : At s p w a t) : last s ≠ none := by
  obtain ⟨h1, h2, h3, h4, h5⟩ := h
  have ha : ∀ c ∈ a, (c != ')') = true := by
    intro c hc
    simp only [bne_iff_ne, ne_eq]
    rintro rfl
    exact h2 hc
  have key : ∀ l, matchTail l ≠ none → last (p ++ '$' :: '(' :: l) ≠ none := by
    intro l hl
    cases hm : matchTail l with
    | none => exact absurd hm hl
    | some r =>
      have : ∃ b, last ('$' :: '(' :: l) = some b := by
        rw [last, if_neg (by decide)]
        cases last ('(' :: l) with
        | some x => exact ⟨_, rfl⟩
        | none => exact ⟨([], r), by simp only [here, hm, Option.map_some]⟩
      obtain ⟨b, hb⟩ := this
      rw [last_append h3 hb]
      simp
  rcases h5 with rfl | ⟨sp, h5, rfl⟩
  · have := key _ (matchTail_complete h1 ha h4)
    simpa using this
  · have := key (w ++ (sp :: a) ++ [')'] ++ t) (matchTail_complete h1 (by
      intro c hc
      rcases List.mem_cons.mp hc with rfl | hc
      · simp only [bne_iff_ne, ne_eq]
        rintro rfl
        revert h5
        decide
      · exact ha c hc) h4)
    simpa using this

/-- C115: what is read has no substitution in it any more. -/
theorem C115_done (w : World) (s v : List Char) (h : substitute w s = some (.ok v)) : ∀ p n a t, ¬ At v p n a t := by
  refine substitute.partial_correctness w (fun _ r => ∀ v, r = .ok v → ∀ p n a t, ¬ At v p n a t) ?_ s _ h v rfl
  intro f ih s r hr v hv p n a t hat
  split at hr
  · rename_i hl
    cases hr
    cases hv
    exact last_complete hat hl
  · split at hr
    · cases hr
      cases hv
    · exact ih _ _ hr v hv p n a t hat

/-- C115: text without a substitution stays as it is. -/
theorem C115_text (w : World) (s : List Char) (h : ∀ p n a t, ¬ At s p n a t) : substitute w s = some (.ok s) := by
  rw [substitute.eq_1]
  cases hl : last s with
  | none => rfl
  | some r => exact absurd (last_sound hl) (h _ _ _ _)

/-- What the substitutions mean. -/
inductive Means (w : World) : List Char → List Char → List Char → Prop where
  | dirname (a : List Char) : Means w "dirname".toList a w.dirname
  | share {a d : List Char} : w.share a = some d → Means w "find-pkg-share".toList a d
  | ros2 {a out : List Char} (n : Nat) : w.command ("ros2 ".toList ++ a) = some (out ++ List.replicate n '\n') → out ≠ [] → '\n' ∉ out → Means w "ros2".toList a out
  | var {a v : List Char} : w.ref a = some v → Means w "var".toList a v

theorem trimEnd_out {out : List Char} (n : Nat) (h1 : out ≠ []) (h2 : '\n' ∉ out) : trimEnd (out ++ List.replicate n '\n') = .ok out := by
  rw [trimEnd, if_neg]
  · rw [List.reverse_append, List.reverse_replicate, dropWhile_append_of_all (by intro c hc; rw [List.eq_of_mem_replicate hc]; rfl)]
    obtain ⟨l, c, rfl⟩ : ∃ l c, out = l ++ [c] := ⟨_, _, (List.dropLast_concat_getLast h1).symm⟩
    rw [List.reverse_append, List.reverse_singleton, List.singleton_append, List.dropWhile_cons, if_neg]
    · simp
    · simp only [beq_iff_eq]
      rintro rfl
      exact h2 (by simp)
  · intro h
    rw [List.all_append, Bool.and_eq_true] at h
    obtain ⟨c, l, rfl⟩ := List.exists_cons_of_ne_nil h1
    have := h.1
    simp only [List.all_cons, Bool.and_eq_true, beq_iff_eq] at this
    exact h2 (by simp [this.1])

theorem one_means {w : World} {n a v : List Char} (h : Means w n a v) : one w n a = .ok v := by
  cases h with
  | dirname => rfl
  | share h => simp [one, h]
  | ros2 k h1 h2 h3 =>
    have : ("ros2".toList = "dirname".toList) = False := by decide
    simp only [one, ros2, h1, trimEnd_out k h2 h3]
    simp [h3]
  | var h => simp [one, var, h]

theorem value_clean {m : List Char → List Char → List Char → Prop} {ps : List Piece} {v : List Char} (h : Value m ps v) : Clean v := by
  induction h with
  | nil => exact clean_nil
  | text h _ ih => exact clean_append.mpr ⟨h, ih⟩
  | call _ _ _ _ h _ _ ih => exact clean_append.mpr ⟨h, ih⟩

theorem word_oneLine {w : List Char} (h : Word w) : OneLine w := by
  intro c hc hb
  have := h.2 c hc
  rcases hb with rfl | rfl <;> revert this <;> decide

theorem render_oneLine {m : List Char → List Char → List Char → Prop} {ps : List Piece} {v : List Char} (h : Value m ps v) : OneLine (render ps) := by
  induction h with
  | nil => rw [render]; exact oneLine_nil
  | text h _ ih => rw [render]; exact oneLine_append.mpr ⟨h.1, ih⟩
  | call hw _ _ _ _ _ ih1 ih2 =>
    rw [render]
    have h1 : ∀ c : Char, ¬ lineBreak c → OneLine [c] := by
      intro c hc x hx
      rw [List.mem_singleton.mp hx]
      exact hc
    refine oneLine_append.mpr ⟨oneLine_append.mpr ⟨oneLine_append.mpr ⟨oneLine_append.mpr ⟨oneLine_append.mpr ⟨?_, word_oneLine hw⟩, h1 _ ?_⟩, ih1⟩, h1 _ ?_⟩, ih2⟩
    · intro c hc hb
      simp only [List.mem_cons, List.not_mem_nil, or_false] at hc
      rcases hc with rfl | rfl <;> rcases hb with hb | hb <;> revert hb <;> decide
    · intro hb; rcases hb with hb | hb <;> revert hb <;> decide
    · intro hb; rcases hb with hb | hb <;> revert hb <;> decide

theorem substitute_render (w : World) {ps : List Piece} {v : List Char} (h : Value (Means w) ps v) (p t : List Char) (hp : OneLine p) (ht : Clean t) :
    substitute w (p ++ render ps ++ t) = substitute w (p ++ v ++ t) := by
  induction h generalizing p t with
  | nil => rw [render]
  | text hs _ ih =>
    rename_i s v ps _
    rw [render, ← List.append_assoc p, ih (p ++ s) t (oneLine_append.mpr ⟨hp, hs.1⟩) ht]
    simp only [List.append_assoc]
  | call hw ha hc hm hu hv ih1 ih2 =>
    rename_i n a u v as ps
    have hone : OneLine (['$', '('] ++ n ++ [' '] ++ render as ++ [')']) := by
      have := render_oneLine (Value.call (ps := []) hw ha hc hm hu .nil)
      simpa [render] using this
    rw [render, ← List.append_assoc p, ih2 _ t (oneLine_append.mpr ⟨hp, hone⟩) ht]
    have h1 : OneLine (p ++ (['$', '('] ++ n ++ [' '])) := by
      simp only [oneLine_append] at hone ⊢
      exact ⟨hp, hone.1.1⟩
    have h2 : Clean ([')'] ++ v ++ t) := by
      refine clean_append.mpr ⟨clean_append.mpr ⟨⟨?_, by decide⟩, value_clean hv⟩, ht⟩
      simp only [oneLine_append] at hone
      exact hone.2
    have := ih1 _ _ h1 h2
    have e : p ++ (['$', '('] ++ n ++ [' '] ++ render as ++ [')']) ++ v ++ t = p ++ (['$', '('] ++ n ++ [' ']) ++ render as ++ ([')'] ++ v ++ t) := by
      simp only [List.append_assoc]
    rw [e, this]
    have e : p ++ (['$', '('] ++ n ++ [' ']) ++ a ++ ([')'] ++ v ++ t) = p ++ (['$', '('] ++ n ++ [' '] ++ a ++ [')'] ++ (v ++ t)) := by
      simp only [List.append_assoc]
    rw [e, substitute.eq_1, last_call p n a (v ++ t) hp hw hc (value_clean ha).2 (clean_append.mpr ⟨value_clean hv, ht⟩)]
    simp only [one_means hm, List.append_assoc]

/-- C115: every substitution is replaced by what it means, those in arguments first, and everything else stays, for attributes with any number of substitutions in each other. -/
theorem C115_substitute (w : World) (ps : List Piece) (v : List Char) (h : Value (Means w) ps v) : substitute w (render ps) = some (.ok v) := by
  have := substitute_render w h [] [] oneLine_nil clean_nil
  simp only [List.nil_append, List.append_nil] at this
  rw [this, substitute.eq_1, last_none_of_clean (value_clean h).2]

theorem at_dollar {s p n a t : List Char} (h : At s p n a t) : (p ++ t).count '$' < s.count '$' := by
  obtain ⟨-, -, -, -, rfl | ⟨sp, -, rfl⟩⟩ := h <;> simp [List.count_append, List.count_cons] <;> omega

/-- C115: reading ends, with a value or an error, if nothing that a substitution gives has a `$` in it. -/
theorem C115_returns (w : World) (h : ∀ n a v, Means w n a v → '$' ∉ v) (s : List Char) : substitute w s ≠ none := by
  generalize hk : s.count '$' = k
  induction k using Nat.strongRecOn generalizing s with
  | ind k ih =>
    rw [substitute.eq_1]
    split
    · simp
    · rename_i p n a t hl
      split
      · simp
      · rename_i v hv
        have hd : '$' ∉ v := by
          simp only [one] at hv
          split at hv
          · cases hv
            subst_vars
            exact h _ [] _ (.dirname _)
          split at hv
          · split at hv
            · cases hv
              exact h _ a _ (.share (by assumption))
            · cases hv
          split at hv
          · simp only [ros2] at hv
            split at hv
            · cases hv
            rename_i out ho
            split at hv
            · cases hv
            rename_i r hr
            split at hv
            · cases hv
            rename_i hc
            cases hv
            simp only [trimEnd] at hr
            split at hr
            · cases hr
            rename_i hn
            cases hr
            have hout : out = (out.reverse.dropWhile (· == '\n')).reverse ++ List.replicate (out.reverse.takeWhile (· == '\n')).length '\n' := by
              have h1 : out.reverse.takeWhile (· == '\n') = List.replicate (out.reverse.takeWhile (· == '\n')).length '\n' := by
                rw [List.eq_replicate_iff]
                exact ⟨rfl, fun c hc => by simpa using mem_takeWhile hc⟩
              conv => lhs; rw [← List.reverse_reverse out, ← List.takeWhile_append_dropWhile (p := (· == '\n')) (l := out.reverse), List.reverse_append, h1, List.reverse_replicate]
            refine h _ a _ (.ros2 (out.reverse.takeWhile (· == '\n')).length (by rw [← hout]; exact ho) ?_ ?_)
            · intro he
              rw [he, List.nil_append] at hout
              apply hn
              rw [List.all_eq_true]
              intro c hc
              rw [hout] at hc
              simpa using List.eq_of_mem_replicate hc
            · simpa using hc
          split at hv
          · simp only [var] at hv
            split at hv
            · cases hv
            · cases hv
              exact h _ a _ (.var (by assumption))
          · cases hv
        have hlt := at_dollar (last_sound hl)
        refine ih _ ?_ _ rfl
        rw [← hk]
        simp only [List.count_append, List.count_eq_zero.mpr hd] at hlt ⊢
        omega

/-- C115: a substitution with a name that is not known is an error. -/
theorem C115_unknown (w : World) (p n a t : List Char) (hp : OneLine p) (hn : Word n) (ha : ')' ∉ a) (ha' : '$' ∉ a) (ht : Clean t)
    (h : n ∉ ["dirname".toList, "find-pkg-share".toList, "ros2".toList, "var".toList]) :
    substitute w (p ++ (['$', '('] ++ n ++ [' '] ++ a ++ [')'] ++ t)) = some (.error .thrown) := by
  rw [substitute.eq_1, last_call p n a t hp hn ha ha' ht]
  simp only [List.mem_cons, not_or] at h
  simp only [one, h.1, h.2.1, h.2.2.1, h.2.2.2.1, if_false]

/-- C115: a reference to a parameter that there is not is an error. -/
theorem C115_no_parameter (w : World) (p a t : List Char) (hp : OneLine p) (ha : ')' ∉ a) (ha' : '$' ∉ a) (ht : Clean t) (h : w.ref a = none) :
    substitute w (p ++ (['$', '('] ++ "var".toList ++ [' '] ++ a ++ [')'] ++ t)) = some (.error .thrown) := by
  rw [substitute.eq_1, last_call p _ a t hp ⟨by decide, by decide⟩ ha ha' ht]
  simp [one, var, h]

/-- C115: an attribute has the value that its text has after the substitutions, if this is not empty. -/
theorem C115_value {T : Type} (w : World) (d : T) (cast eval : List Char → Option T) (ps : List Piece) (v : List Char) (x : T) (h : Value (Means w) ps v) (hv : v ≠ []) :
    (cast v = some x → readAttribute w d cast eval (some (render ps)) = some (.ok x)) ∧
      (cast v = none → readAttribute w d cast eval (some (render ps)) = some (.error .thrown)) := by
  have hd := (value_clean h).2
  obtain ⟨c, l, rfl⟩ := List.exists_cons_of_ne_nil hv
  have hc : c ≠ '$' := by
    rintro rfl
    exact hd (by simp)
  have key : readAttribute w d cast eval (some (render ps)) = some (match cast (c :: l) with
      | some x => .ok x
      | none => .error .thrown) := by
    simp only [readAttribute, C115_substitute w ps _ h, Option.map_some]
    rw [if_neg hv, if_neg (by
      rintro ⟨h, -⟩
      cases l <;> simp at h
      exact hc h.1)]
    split
    · rename_i heq
      cases heq
      exact absurd rfl hc
    · rfl
  constructor
  · intro h; rw [key, h]
  · intro h; rw [key, h]

/-- C115: a reference `$name` has the value of the parameter; an unknown parameter and a value that does not fit are errors. -/
theorem C115_reference {T : Type} (w : World) (d : T) (cast eval : List Char → Option T) (name : List Char) (h : ∀ p n a t, ¬ At ('$' :: name) p n a t)
    (hb : ∀ l, name ≠ '{' :: l) :
    (∀ x y, w.ref name = some x → cast x = some y → readAttribute w d cast eval (some ('$' :: name)) = some (.ok y)) ∧
    (w.ref name = none ∨ (∃ x, w.ref name = some x ∧ cast x = none) → readAttribute w d cast eval (some ('$' :: name)) = some (.error .thrown)) := by
  have hn : ¬ (('$' :: name).take 2 = ['$', '{'] ∧ ('$' :: name).getLast? = some '}') := by
    rintro ⟨h, -⟩
    cases name with
    | nil => simp at h
    | cons c l =>
      simp only [List.take_succ_cons, List.take_zero, List.cons.injEq, true_and, and_true] at h
      exact hb l (by rw [h])
  simp only [readAttribute, C115_text w _ h, Option.map_some]
  rw [if_neg (by simp), if_neg hn]
  refine ⟨fun x y hr hx => by simp only [hr, hx], ?_⟩
  rintro (hr | ⟨x, hr, hx⟩)
  · simp only [hr]
  · simp only [hr, hx]

/-- C115: an expression `${...}` has the value of the expression; it is an error if it has none. -/
theorem C115_expression {T : Type} (w : World) (d : T) (cast eval : List Char → Option T) (e : List Char) (h : ∀ p n a t, ¬ At (['$', '{'] ++ e ++ ['}']) p n a t) :
    (∀ y, eval e = some y → readAttribute w d cast eval (some (['$', '{'] ++ e ++ ['}'])) = some (.ok y)) ∧
    (eval e = none → readAttribute w d cast eval (some (['$', '{'] ++ e ++ ['}'])) = some (.error .thrown)) := by
  simp only [readAttribute, C115_text w _ h, Option.map_some]
  rw [if_neg (by simp), if_pos ⟨by simp, by rw [List.getLast?_append]; rfl⟩]
  refine ⟨fun y hx => by simp [hx], fun hx => by simp [hx]⟩

/-- C115: a required attribute that is not there is an error, an optional one has its default value. -/
theorem C115_missing {T : Type} (w : World) (d v : T) (cast eval : List Char → Option T) :
    readAttribute w d cast eval none = some (.error .thrown) ∧ readAttributeOr w d cast eval none v = some (.ok v) ∧
      ∀ s, readAttributeOr w d cast eval (some s) v = readAttribute w d cast eval (some s) := ⟨rfl, rfl, fun _ => rfl⟩

/-- C115 is violated by `ros2` commands that print nothing but line ends: the last character of an empty text is looked at, which is undefined behaviour. -/
theorem C115_ros2_violated (w : World) (a : List Char) (n : Nat) (ha : ')' ∉ a) (ha' : '$' ∉ a) (h : w.command ("ros2 ".toList ++ a) = some (List.replicate n '\n')) :
    substitute w (['$', '('] ++ "ros2".toList ++ [' '] ++ a ++ [')']) = some (.error .undefined) := by
  have := last_call [] "ros2".toList a [] oneLine_nil ⟨by decide, by decide⟩ ha ha' clean_nil
  simp only [List.nil_append, List.append_nil] at this
  rw [substitute.eq_1, this]
  have h1 : one w "ros2".toList a = .error .undefined := by
    rw [one, if_neg (by decide), if_neg (by decide), if_pos rfl, ros2, h]
    simp [trimEnd]
  simp only [h1]

/-- C115 is violated by attributes with a value that is empty: they are read as zero, false or nothing, although this is not how such a value is written. -/
theorem C115_empty_violated {T : Type} (w : World) (d : T) (cast eval : List Char → Option T) : readAttribute w d cast eval (some []) = some (.ok d) := by
  simp only [readAttribute, C115_text w [] (by rintro p n a t ⟨-, -, -, -, h | ⟨sp, -, h⟩⟩ <;> simp at h), Option.map_some, if_true]

theorem break_behind (x u s t : List Char) (h : x ++ [')'] ++ u = s ++ ['\n'] ++ t) (ht : ')' ∉ t) : '\n' ∈ u := by
  induction x generalizing s with
  | nil =>
    cases s with
    | nil => simp at h
    | cons c s =>
      simp only [List.nil_append, List.cons_append, List.append_assoc, List.cons.injEq] at h
      rw [h.2]
      simp
  | cons c x ih =>
    cases s with
    | nil =>
      simp only [List.cons_append, List.nil_append, List.cons.injEq] at h
      exact absurd (by rw [← h.2]; simp) ht
    | cons d s =>
      simp only [List.cons_append, List.cons.injEq] at h
      exact ih s h.2

/-- C115 is violated by attributes of more than one line: the substitutions in front of the last line break are not replaced, if there are none behind it. -/
theorem C115_lines_violated (w : World) (s t : List Char) (ht : ')' ∉ t) : substitute w (s ++ ['\n'] ++ t) = some (.ok (s ++ ['\n'] ++ t)) := by
  apply C115_text
  rintro p n a u ⟨-, -, -, hu, h⟩
  have : '\n' ∈ u := by
    rcases h with h | ⟨sp, -, h⟩
    · exact break_behind _ _ _ _ h.symm ht
    · exact break_behind _ _ _ _ h.symm ht
  exact hu _ this (Or.inl rfl)

/-- A parameter `a` whose value begins with two closing parentheses and ends with two references to itself that are not closed. -/
def greedy : World := ⟨[], fun _ => none, fun _ => none, fun n => if n = ['a'] then some "))$(var a$(var a".toList else none⟩

theorem no_close {y : List Char} (h : ')' ∉ y) : last y = none := by
  cases hl : last y with
  | none => rfl
  | some r =>
    obtain ⟨-, -, -, -, h' | ⟨sp, -, h'⟩⟩ := last_sound hl <;> exact absurd (by rw [h']; simp) h

theorem last_cons {c : Char} (hc : c ≠ '$') {l : List Char} (hl : last l = none) : last (c :: l) = none := by
  rw [last, hl]
  split
  · rfl
  · rw [here]
    · rfl
    · intro s hs
      cases hs
      exact hc rfl

theorem last_open {y : List Char} (hy : last y = none) (hl : OneLine y) (x : List Char) (hx : OneLine x) :
    last (x ++ ("$(var a)".toList ++ y)) = some (x, "var".toList, ['a'], y) := by
  have h1 : last ("(var a)".toList ++ y) = none :=
    last_cons (by decide) (last_cons (by decide) (last_cons (by decide) (last_cons (by decide) (last_cons (by decide) (last_cons (by decide) (last_cons (by decide) hy))))))
  have h2 := matchTail_call "var".toList ['a'] y ⟨by decide, by decide⟩ (by decide) hl
  have := last_append hx (last_here h1 h2)
  rw [List.append_nil] at this
  exact this

theorem oneLine_of_any {s : List Char} (h : s.any (fun c => c == '\n' || c == '\r') = false) : OneLine s :=
  Classical.byContradiction fun h' => by rw [any_break.mpr h'] at h; cases h

/-- C115 is violated by values with parentheses and references that are not closed: reading an attribute that refers to one need not end. -/
theorem C115_returns_violated : substitute greedy "$(var a$(var a)".toList = none := by
  cases h : substitute greedy "$(var a$(var a)".toList with
  | none => rfl
  | some r =>
    exfalso
    refine substitute.partial_correctness greedy (fun s _ => ∀ x y : List Char, OneLine x → ')' ∉ y → OneLine y →
      (s = x ++ ("$(var a$(var a)".toList ++ y) ∨ s = x ++ ("$(var a))$(var a$(var a".toList ++ y)) → False) ?_ _ _ h [] [] oneLine_nil (by simp) oneLine_nil (Or.inl rfl)
    intro f ih s r hr x y hx hy hl hs
    have hone : one greedy "var".toList ['a'] = .ok "))$(var a$(var a".toList := rfl
    rcases hs with hs | hs
    · have e : s = (x ++ "$(var a".toList) ++ ("$(var a)".toList ++ y) := by
        rw [hs, List.append_assoc]; rfl
      rw [e, last_open (no_close hy) hl _ (oneLine_append.mpr ⟨hx, oneLine_of_any (by decide)⟩)] at hr
      simp only [hone] at hr
      refine ih _ _ hr x y hx hy hl (Or.inr ?_)
      simp only [List.append_assoc]
      rfl
    · have e : s = x ++ ("$(var a)".toList ++ (")$(var a$(var a".toList ++ y)) := by
        rw [hs]; rfl
      have hn : ')' ∉ "$(var a$(var a".toList ++ y := by
        rw [List.mem_append, not_or]
        exact ⟨by decide, hy⟩
      have hn' : last (")$(var a$(var a".toList ++ y) = none := last_cons (c := ')') (by decide) (no_close hn)
      have hl' : OneLine (")$(var a$(var a".toList ++ y) := oneLine_append.mpr ⟨oneLine_of_any (by decide), hl⟩
      rw [e, last_open hn' hl' _ hx] at hr
      simp only [hone] at hr
      refine ih _ _ hr (x ++ "))".toList) ("$(var a$(var a".toList ++ y) (oneLine_append.mpr ⟨hx, oneLine_of_any (by decide)⟩) hn
        (oneLine_append.mpr ⟨oneLine_of_any (by decide), hl⟩) (Or.inl ?_)
      simp only [List.append_assoc]
      rfl

/-- The value of this parameter is one that can be given to it: it is read as it is written. -/
example : ∀ w, substitute w "))$(var a$(var a".toList = some (.ok "))$(var a$(var a".toList) := by
  intro w
  rw [substitute.eq_1, show last "))$(var a$(var a".toList = none by decide]

/-- A scenario in a directory, with a parameter that names another one. -/
def home : World := ⟨"/home/map".toList, fun _ => none, fun _ => none, fun n => if n = "which".toList then some "speed".toList else if n = "speed".toList then some "30".toList else none⟩

/-- The theorem about substitutions speaks about `file:$(dirname )/$(var $(var which)).xml`. -/
example : substitute home "file:$(dirname )/$(var $(var which)).xml".toList = some (.ok "file:/home/map/30.xml".toList) := by
  have e : "file:$(dirname )/$(var $(var which)).xml".toList = render [.text "file:".toList, .call "dirname".toList [], .text "/".toList,
      .call "var".toList [.call "var".toList [.text "which".toList]], .text ".xml".toList] := by
    simp only [render]
    rfl
  rw [e]
  refine C115_substitute home [.text "file:".toList, .call "dirname".toList [], .text "/".toList, .call "var".toList [.call "var".toList [.text "which".toList]], .text ".xml".toList] _ ?_
  refine .text (v := "/home/map/30.xml".toList) ⟨oneLine_of_any (by decide), by decide⟩ ?_
  refine .call (u := "/home/map".toList) (v := "/30.xml".toList) ⟨by decide, by decide⟩ .nil (by decide) (.dirname _) ⟨oneLine_of_any (by decide), by decide⟩ ?_
  refine .text (v := "30.xml".toList) ⟨oneLine_of_any (by decide), by decide⟩ ?_
  refine .call (a := "speed".toList) (u := "30".toList) (v := ".xml".toList) ⟨by decide, by decide⟩ ?_ (by decide) (.var rfl) ⟨oneLine_of_any (by decide), by decide⟩ ?_
  · refine .call (a := "which".toList) (u := "speed".toList) (v := []) ⟨by decide, by decide⟩ ?_ (by decide) (.var rfl) ⟨oneLine_of_any (by decide), by decide⟩ .nil
    exact .text (v := []) ⟨oneLine_of_any (by decide), by decide⟩ .nil
  · exact .text (v := []) ⟨oneLine_of_any (by decide), by decide⟩ .nil

theorem means_plain {w : World} (h1 : '$' ∉ w.dirname) (h2 : ∀ a, w.share a = none) (h3 : ∀ a, w.command a = none) (h4 : ∀ a v, w.ref a = some v → '$' ∉ v) (n a v : List Char)
    (h : Means w n a v) : '$' ∉ v := by
  cases h with
  | dirname => exact h1
  | share h => rw [h2] at h; cases h
  | ros2 _ h => rw [h3] at h; cases h
  | var h => exact h4 _ _ h

/-- In a scenario with two parameters reading ends. -/
example (x y s : List Char) : substitute ⟨['/'], fun _ => none, fun _ => none, fun n => if n = x then some ['4', '2'] else if n = y then some [')'] else none⟩ s ≠ none := by
  refine C115_returns _ (means_plain (by simp) (fun _ => rfl) (fun _ => rfl) ?_) s
  intro a v h
  dsimp only at h
  split at h
  · cases h; decide
  split at h
  · cases h; decide
  · cases h

end Verif.Reader
