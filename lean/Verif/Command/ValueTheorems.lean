import Verif.Command.CallTheorems
/- C138: user defined values. -/
namespace Verif.Command

theorem dotted_append (a b : Text) (ha : '.' ∉ a) (h0 : a ≠ []) : dotted (a ++ '.' :: b) = if b.isEmpty || b.any (fun c => c = '\n' || c = '\r') then none else some (a, b) := by
  have h := takeWhile_append (· ≠ '.') a ('.' :: b) (fun c hc => by simp only [ne_eq, decide_not, Bool.not_eq_true', decide_eq_false_iff_not]; rintro rfl; exact ha hc) (by simp)
  simp only [dotted, h.1, h.2]
  simp [h0]

theorem dotted_none (a : Text) (ha : '.' ∉ a) : dotted a = none := by
  have h := takeWhile_append (· ≠ '.') a [] (fun c hc => by simp only [ne_eq, decide_not, Bool.not_eq_true', decide_eq_false_iff_not]; rintro rfl; exact ha hc) (by simp)
  rw [List.append_nil] at h
  simp only [dotted, h.2]

/-- **C138** Values of the ego: what is before the first dot is the entity, what is behind it one of five values; other values are an error. -/
theorem C138_entity (e key : List Char) (he : '.' ∉ e) (h0 : e ≠ []) (hk : key ≠ []) (hl : ∀ c ∈ key, c ≠ '\n' ∧ c ≠ '\r') : source (e ++ '.' :: key) =
    if String.ofList key ∈ ["currentState", "currentMinimumRiskManeuverState.behavior", "currentMinimumRiskManeuverState.state", "currentEmergencyState",
      "currentTurnIndicatorsState"] then some (.entity e key) else none := by
  have hb : (key.isEmpty || key.any (fun c => c = '\n' || c = '\r')) = false := by
    simp only [Bool.or_eq_false_iff, List.any_eq_false, Bool.or_eq_true, decide_eq_true_eq, not_or, List.isEmpty_eq_false_iff]
    exact ⟨hk, hl⟩
  simp only [source, dotted_append e key he h0, hb, Bool.false_eq_true, if_false, keys, List.contains_iff_mem]

example : '.' ∉ "ego".toList ∧ source "ego.currentState".toList = some (.entity "ego".toList "currentState".toList) ∧ source "ego.currentSpeed".toList = none :=
  ⟨by decide, by
    have := C138_entity "ego".toList "currentState".toList (by decide) (by decide) (by decide) (by decide)
    rwa [if_pos (by decide)] at this, by
    have := C138_entity "ego".toList "currentSpeed".toList (by decide) (by decide) (by decide) (by decide)
    rwa [if_neg (by decide)] at this⟩

/-- **C138** Relative headings with parameters without a dot. -/
theorem C138_heading_partial (l : List (List Char)) (a : List Char) (h : Apart l a) (hdot : '.' ∉ a) :
    source ("RelativeHeadingCondition".toList ++ '(' :: a ++ [')']) = some (.heading l) := by
  have hc := C136_parameters "RelativeHeadingCondition".toList a l ⟨by decide, by decide⟩ h
  have hd : dotted ("RelativeHeadingCondition".toList ++ '(' :: a ++ [')']) = none := dotted_none _ (by simp [hdot])
  simp only [source, hd, hc.1, hc.2]
  rfl

/-- **C138** A relative heading with a decimal point is an error: the text behind the point is taken for the name of a value. -/
theorem C138_heading_violated (a b : List Char) (ha : '.' ∉ a) (hb : ∀ c ∈ b, c ≠ '\n' ∧ c ≠ '\r') :
    source ("RelativeHeadingCondition".toList ++ '(' :: (a ++ '.' :: b) ++ [')']) = none := by
  have e : "RelativeHeadingCondition".toList ++ '(' :: (a ++ '.' :: b) ++ [')'] = ("RelativeHeadingCondition".toList ++ '(' :: a) ++ '.' :: (b ++ [')']) := by simp
  rw [e, C138_entity _ _ (by simp [ha]) (by simp) (by simp) (by
    intro c hc
    rcases List.mem_append.1 hc with h | h
    · exact hb c h
    · simp at h; subst h; decide)]
  rw [if_neg]
  intro hmem
  have hlast : ∀ s : String, String.ofList (b ++ [')']) = s → s.toList.getLast? = some ')' := by
    rintro s rfl; simp
  simp only [List.mem_cons, List.not_mem_nil, or_false] at hmem
  rcases hmem with h | h | h | h | h <;> exact absurd (hlast _ h) (by decide)

example : Apart ["ego".toList, "12".toList, "3".toList] "ego, 12, 3".toList ∧ source "RelativeHeadingCondition(ego, 12, 3)".toList = some (.heading ["ego".toList, "12".toList, "3".toList]) ∧
    source "RelativeHeadingCondition(ego, 12, 3.5)".toList = none := by
  have h : Apart ["ego".toList, "12".toList, "3".toList] "ego, 12, 3".toList :=
    .cons (w := "ego".toList) (g := ", ".toList) (t := "12, 3".toList) (.plain _ (by decide) (by simp [Space])) (.comma [' '] (by simp [Space])) (by decide)
      (.cons (w := "12".toList) (g := ", ".toList) (t := "3".toList) (.plain _ (by decide) (by simp [Space])) (.comma [' '] (by simp [Space])) (by decide)
        (.last (w := "3".toList) (g := []) (.plain _ (by decide) (by simp [Space])) (.spaces [] (by simp))))
  exact ⟨h, C138_heading_partial _ _ h (by decide), C138_heading_violated "ego, 12, 3".toList "5".toList (by decide) (by decide)⟩

/-- **C138** A relative heading with one parameter is that to the lane of the entity, with three that to the position given; a longitudinal coordinate that is no number is an error. -/
theorem C138_headings (r : Readers) (own : Text → Parameter.Dbl) (other : Text → Text → Parameter.Dbl → Parameter.Dbl) (read : Parameter.Value → String → Option Parameter.Value)
    (e lane s : List Char) (rule : Parameter.Rule) (value : String) :
    evaluate read (seenHeading r own other [e]) rule value = Parameter.compare read (.double (own e)) rule value ∧
    (∀ x, r.double s = some x → evaluate read (seenHeading r own other [e, lane, s]) rule value = Parameter.compare read (.double (other e lane x)) rule value) ∧
    (r.double s = none → evaluate read (seenHeading r own other [e, lane, s]) rule value = none) := by
  refine ⟨rfl, fun x h => ?_, fun h => ?_⟩ <;> simp only [seenHeading, h, evaluate]

/-- **C138** A relative heading with two parameters, or more than three, is no error: it is a value that is not a number, and differs from every number. -/
theorem C138_count_violated (r : Readers) (own : Text → Parameter.Dbl) (other : Text → Text → Parameter.Dbl → Parameter.Dbl) (read : Parameter.Value → String → Option Parameter.Value)
    (l : List (List Char)) (x : Rat) (value : String) (h : l.length ≠ 1 ∧ l.length ≠ 3) (hread : ∀ v, read v value = some (.double (.fin x))) :
    evaluate read (seenHeading r own other l) .notEqualTo value = some true ∧ evaluate read (seenHeading r own other l) .equalTo value = some false := by
  have : seenHeading r own other l = .value (.double .nan) := by
    match l with
    | [] => rfl
    | [_] => simp at h
    | [_, _] => rfl
    | [_, _, _] => simp at h
    | _ :: _ :: _ :: _ :: _ => rfl
  rw [this]
  simp [evaluate, Parameter.compare, hread, Parameter.Rule.exact, Parameter.Dbl.eq]

theorem segments_ne (s : Text) : segments s ≠ [] := by
  cases s with
  | nil => simp [segments]
  | cons c s => simp only [segments]; split; · simp
                split <;> simp

/-- The segments of a text and the text. -/
theorem segments_spec (s : Text) : ∀ w l, segments s = w :: l → s = w ++ (l.map ('/' :: ·)).flatten ∧ '/' ∉ w ∧ ∀ x ∈ l, '/' ∉ x := by
  induction s with
  | nil => intro w l h; simp [segments] at h; obtain ⟨rfl, rfl⟩ := h; simp
  | cons c s ih =>
    intro w l h
    simp only [segments] at h
    cases hs : segments s with
    | nil => exact absurd hs (segments_ne s)
    | cons v m =>
      have := ih v m hs
      rw [hs] at h
      split at h
      · rename_i hc
        subst hc
        cases h
        exact ⟨by simp [← this.1], by simp, by simp; exact ⟨this.2.1, this.2.2⟩⟩
      · rename_i hc
        cases h
        exact ⟨by simp [← this.1], by simp [this.2.1, Ne.symm hc], this.2.2⟩

theorem segments_join (l : List Text) : ∀ (w : Text), '/' ∉ w → (∀ x ∈ l, '/' ∉ x) → segments (w ++ (l.map ('/' :: ·)).flatten) = w :: l := by
  induction l with
  | nil =>
    intro w hw _
    induction w with
    | nil => rfl
    | cons c w ih =>
      simp only [List.mem_cons, not_or] at hw
      simp only [List.map_nil, List.flatten_nil, List.append_nil] at ih ⊢
      simp only [segments, Ne.symm hw.1, if_false, ih hw.2]
  | cons v l ih =>
    intro w hw hl
    induction w with
    | nil => simp [segments, ih v (hl v (by simp)) (fun x hx => hl x (by simp [hx]))]
    | cons c w ihw =>
      simp only [List.mem_cons, not_or] at hw
      simp only [List.cons_append, segments, Ne.symm hw.1, if_false, ihw hw.2]

theorem isWord_iff (c : Char) : isWord c = true ↔ c.isAlphanum = true ∨ c = '_' := by simp [isWord]

theorem topic_iff (s : Text) : topic s = true ↔ TopicName s := by
  unfold topic
  constructor
  · intro h
    split at h
    · rename_i x l hs
      have hsp := (segments_spec s _ _ hs).1
      simp only [List.nil_append] at hsp
      cases hl : (x :: l).getLast? with
      | none => simp at hl
      | some w =>
        rw [hl] at h
        obtain ⟨m, hm⟩ := List.getLast?_eq_some_iff.1 hl
        rw [hm] at h hsp
        simp only [List.dropLast_concat, Bool.and_eq_true, List.all_eq_true, Bool.not_eq_true', List.isEmpty_eq_false_iff, Bool.or_eq_true, decide_eq_true_eq, isWord_iff] at h
        refine ⟨m, w, by simp [hsp], h.2.1, h.2.2, fun y hy => ⟨(h.1 y hy).1, fun c hc => ?_⟩⟩
        rcases (h.1 y hy).2 c hc with (h | h) | h
        · exact .inl h
        · exact .inr (.inl h)
        · exact .inr (.inr h)
    · cases h
  · rintro ⟨l, w, rfl, h0, hw, hl⟩
    have e : (l.map ('/' :: ·)).flatten ++ '/' :: w = [] ++ ((l ++ [w]).map ('/' :: ·)).flatten := by simp
    have hs : '/' ∉ w := fun h => by
      rcases hw _ h with h | h
      · exact absurd h (by decide)
      · exact absurd h (by decide)
    have hls : ∀ x ∈ l, '/' ∉ x := fun x hx h => by
      rcases (hl x hx).2 _ h with h | h | h
      · exact absurd h (by decide)
      · exact absurd h (by decide)
      · exact absurd h (by decide)
    rw [e, segments_join (l ++ [w]) [] (by simp) (by
      intro x hx
      rcases List.mem_append.1 hx with h | h
      · exact hls x h
      · simp at h; subst h; exact hs)]
    obtain ⟨x, m, hm⟩ : ∃ x m, l ++ [w] = x :: m := List.exists_cons_of_ne_nil (by simp)
    simp only [hm]
    rw [← hm]
    simp only [List.dropLast_concat, List.getLast?_append, List.getLast?_singleton, Option.some_or, Bool.and_eq_true, List.all_eq_true, Bool.not_eq_true',
      List.isEmpty_eq_false_iff, Bool.or_eq_true, decide_eq_true_eq, isWord_iff]
    refine ⟨fun y hy => ⟨(hl y hy).1, fun c hc => ?_⟩, h0, hw⟩
    rcases (hl y hy).2 c hc with h | h | h
    · exact .inl (.inl h)
    · exact .inl (.inr h)
    · exact .inr h

/-- **C138** The other names are names of topics, and nothing else is. -/
theorem C138_topic (name t : List Char) : source name = some (.topic t) ↔ t = name ∧ TopicName name := by
  constructor
  · intro h
    unfold source at h
    split at h
    · split at h <;> simp at h
    · split at h
      · split at h <;> simp at h
      · split at h
        · rename_i ht
          simp at h
          exact ⟨h.symm, (topic_iff name).1 ht⟩
        · cases h
  · rintro ⟨rfl, h⟩
    have ht := (topic_iff _).2 h
    obtain ⟨l, w, e, h0, hw, hl⟩ := h
    have hd : '.' ∉ t := by
      rw [e]
      simp only [List.mem_append, List.mem_flatten, List.mem_map, List.mem_cons, not_or, not_exists, not_and]
      refine ⟨?_, by decide, fun h => ?_⟩
      · rintro _ ⟨x, hx, rfl⟩ h
        rcases List.mem_cons.1 h with h | h
        · exact absurd h (by decide)
        · rcases (hl x hx).2 _ h with h | h | h <;> exact absurd h (by decide)
      · rcases hw _ h with h | h <;> exact absurd h (by decide)
    have hc : call t = none := by
      obtain ⟨r, hr⟩ : ∃ r, t = '/' :: r := by
        rw [e]
        cases l with
        | nil => exact ⟨_, rfl⟩
        | cons x l => exact ⟨_, rfl⟩
      have : isName '/' = false := by decide
      simp [call, hr, this]
    simp [source, dotted_none t hd, hc, ht]

example : TopicName "/a-b/c".toList ∧ ¬ TopicName "/a-b".toList := by
  refine ⟨⟨["a-b".toList], "c".toList, by decide, by decide, by decide, by decide⟩, ?_⟩
  rw [← topic_iff]; decide

/-- **C138** A value of a topic is that of the last message; there is none, and the condition is false, before the first. -/
theorem C138_messages (cast : Kind → String → Option Parameter.Value) (read : Parameter.Value → String → Option Parameter.Value) (l : List Message) (m : Message) (rule : Parameter.Rule)
    (value : String) (v : Parameter.Value) (hm : m.value ≠ "") (hk : m.kind ≠ .other) (hv : cast m.kind m.value = some v) :
    evaluate read (seenTopic cast (received [])) rule value = some false ∧
    evaluate read (seenTopic cast (received (l ++ [m]))) rule value = Parameter.compare read v rule value := by
  simp [received, seenTopic, evaluate, hm, hk, hv]

/-- **C138** A message that cannot be read as a value of its type is an error. -/
theorem C138_unreadable (cast : Kind → String → Option Parameter.Value) (read : Parameter.Value → String → Option Parameter.Value) (l : List Message) (m : Message) (rule : Parameter.Rule)
    (value : String) (hm : m.value ≠ "") (hk : m.kind ≠ .other) (hv : cast m.kind m.value = none) : evaluate read (seenTopic cast (received (l ++ [m]))) rule value = none := by
  simp [received, seenTopic, evaluate, hm, hk, hv]

/-- **C138** An empty text, and a type that is not known, make the condition false for every rule, also for `notEqualTo`. -/
theorem C138_empty_violated (cast : Kind → String → Option Parameter.Value) (read : Parameter.Value → String → Option Parameter.Value) (l : List Message) (k : Kind) (x : String)
    (rule : Parameter.Rule) (value : String) :
    evaluate read (seenTopic cast (received (l ++ [⟨k, ""⟩]))) rule value = some false ∧ evaluate read (seenTopic cast (received (l ++ [⟨.other, x⟩]))) rule value = some false := by
  simp [received, seenTopic, evaluate]

/-- **C138** Values of the ego are compared as texts; only the state `EMERGENCY` is an error. -/
theorem C138_text (read : Parameter.Value → String → Option Parameter.Value) (key : List Char) (value state : String) (hread : ∀ v s, read (.string v) s = some (.string s)) :
    (key = "currentState".toList ∧ value = "EMERGENCY" → evaluate read (seenEntity key value state) .equalTo value = none) ∧
    (¬ (key = "currentState".toList ∧ value = "EMERGENCY") →
      (evaluate read (seenEntity key value state) .equalTo value = some (decide (state = value)) ∧
        evaluate read (seenEntity key value state) .notEqualTo value = some (decide (state ≠ value)))) := by
  have e : String.ofList key = "currentState" ↔ key = "currentState".toList := by
    constructor
    · intro h; rw [← h]; simp
    · rintro rfl; rfl
  constructor
  · rintro ⟨h1, h2⟩
    simp [seenEntity, e.2 h1, h2, evaluate]
  · intro h
    have h' : ¬ (String.ofList key = "currentState" ∧ value = "EMERGENCY") := fun hh => h ⟨e.1 hh.1, hh.2⟩
    simp only [seenEntity, if_neg h', evaluate, Parameter.compare, hread, Parameter.Rule.exact]
    simp

example : (fun (v : Parameter.Value) (s : String) => match v with | .string _ => some (Parameter.Value.string s) | _ => none) (.string "DRIVING") "PLANNING" = some (.string "PLANNING") := rfl

end Verif.Command
