import Verif.Command.CallTheorems
/- C137: what custom commands do. -/
namespace Verif.Command

theorem lookup_isSome {α β : Type} [BEq α] [LawfulBEq α] (a : α) (l : List (α × β)) : (l.lookup a).isSome = true ↔ a ∈ l.map Prod.fst := by
  induction l with
  | nil => simp
  | cons p l ih =>
    obtain ⟨b, c⟩ := p
    simp only [List.lookup_cons, List.map_cons, List.mem_cons]
    by_cases h : a = b
    · subst h; simp
    · have : (a == b) = false := by simpa using h
      simp [this, ih, h]

theorem names_eq : Command.names.map Prod.fst = commandNames := rfl

theorem lookup_inj {α β : Type} [BEq α] [LawfulBEq α] {a : α} {b : β} {l : List (α × β)} (h : l.lookup a = some b) : (a, b) ∈ l := by
  induction l with
  | nil => simp at h
  | cons p l ih =>
    obtain ⟨x, y⟩ := p
    simp only [List.lookup_cons] at h
    by_cases hx : a = x
    · subst hx; simp at h; subst h; simp
    · have : (a == x) = false := by simpa using hx
      rw [this] at h
      exact List.mem_cons_of_mem _ (ih h)

theorem name_ne_colon {f : String} {a type : Text} (hf : Name f.toList) (hc : Calls f.toList a type) : type ≠ ":".toList := by
  rintro rfl
  rcases hc with ⟨h, _⟩ | h
  · exact absurd (hf.2 ':' (by rw [← h]; decide)) (by decide)
  · have := congrArg List.length h
    obtain ⟨c, r, hr⟩ := List.exists_cons_of_ne_nil hf.1
    rw [hr] at this; simp at this

theorem make_call {type a content : Text} {f : String} (hf : Name f.toList) (hc : Calls f.toList a type) (hb : body a = true) :
    make type content = match Command.names.lookup f with
      | some c => .command c (split a)
      | none => .program type content := by
  have h : call type = some (f.toList, a) := (C136_calls type f.toList a).2 ⟨hf, hc, (body_iff a).1 hb⟩
  unfold make
  rw [if_neg (name_ne_colon hf hc), h]
  simp only [String.ofList_toList]
  first | done | rfl

theorem invokes_make {type content : Text} {f : String} {l : List Text} (hf : Name f.toList) (h : Invokes type f l) :
    make type content = match Command.names.lookup f with
      | some c => .command c l
      | none => .program type content := by
  rcases h with ⟨rfl, rfl⟩ | ⟨a, ha, rfl⟩
  · have := make_call (content := content) hf (.inl ⟨rfl, rfl⟩) (by rw [body_none (by simp [piece])]; rfl)
    rwa [split_nil] at this
  · have := make_call (content := content) hf (.inr rfl) ha.merged.split.2
    rwa [ha.merged.split.1] at this

/-- **C137** A command is run as a program exactly if it is neither `:` nor a call of one of the known commands. -/
theorem C137_program (type content : List Char) :
    make type content = .program type content ↔ type ≠ [':'] ∧ ¬ ∃ f ∈ commandNames, ∃ a l, Name f.toList ∧ Calls f.toList a type ∧ Parameters l a := by
  unfold make
  by_cases h0 : type = [':']
  · subst h0; simp
  · have h0' : ¬ type = ":".toList := h0
    rw [if_neg h0']
    cases hc : call type with
    | none =>
      simp only [ne_eq, h0, not_false_eq_true, true_and]
      refine ⟨fun _ ⟨f, _, a, l, hf, hcalls, hl⟩ => ?_, fun _ => trivial⟩
      rw [(C136_calls type f.toList a).2 ⟨hf, hcalls, l, hl⟩] at hc; cases hc
    | some p =>
      obtain ⟨f, a⟩ := p
      obtain ⟨hf, hcalls, l, hl⟩ := (C136_calls type f a).1 hc
      simp only [ne_eq, h0, not_false_eq_true, true_and]
      have hm := lookup_isSome (String.ofList f) Command.names
      rw [names_eq] at hm
      cases hk : Command.names.lookup (String.ofList f) with
      | some c =>
        rw [hk] at hm
        refine ⟨fun h => by simp at h, fun h => absurd ⟨String.ofList f, hm.1 rfl, a, l, ?_, ?_, hl⟩ h⟩
        · simpa using hf
        · simpa using hcalls
      | none =>
        rw [hk] at hm
        refine ⟨fun _ ⟨g, hg, a', l', hg', hcalls', hl'⟩ => ?_, fun _ => rfl⟩
        have := (C136_calls type g.toList a').2 ⟨hg', hcalls', l', hl'⟩
        rw [hc] at this
        simp only [Option.some.injEq, Prod.mk.injEq] at this
        rw [this.1, String.ofList_toList] at hm
        exact absurd (hm.2 hg) (by simp)

/-- The end of a run of the text of a command. -/
abbrev run (r : Readers) (actors : List Text) (known : Text → Bool) (type content : Text) : List Effect × Outcome := start r actors known (make type content)

/-- **C137** A misspelled command, and a program that fails or does not exist, go unnoticed: whatever is not known is run as a program, and the action ends as if all were
well. -/
theorem C137_misspelled_violated (r : Readers) (actors : List Text) (known : Text → Bool) (content : List Char) (f : String) (l : List (List Char)) (type : List Char)
    (hf : Name f.toList) (hn : f ∉ commandNames) (h : Invokes type f l) : (run r actors known type content).2 = .done ∧ ∃ w, (run r actors known type content).1 = [.ran w] := by
  have hl : Command.names.lookup f = none := by
    have := lookup_isSome f Command.names
    rw [names_eq] at this
    cases hk : Command.names.lookup f with
    | none => rfl
    | some c => rw [hk] at this; exact absurd (this.1 rfl) hn
  rw [run, invokes_make hf h, hl]
  exact ⟨rfl, _, rfl⟩

example : Name "exitFailur".toList ∧ "exitFailur" ∉ commandNames ∧ Invokes "exitFailur".toList "exitFailur" [] := ⟨⟨by decide, by decide⟩, by decide, .inl ⟨rfl, rfl⟩⟩

/-- Readers for examples: two numbers are known. -/
def someReaders : Readers where
  int := fun s => if s = "1".toList then some 1 else none
  double := fun s => if s = "10".toList then some (.fin 10) else none
  stoi := fun _ => none
  stod := fun _ => none
  unquote := id

/-- **C137** Faults: one message with an error for each of the parameters, in their order. -/
theorem C137_faults (r : Readers) (actors : List Text) (known : Text → Bool) (content : List Char) (l : List (List Char)) (type : List Char)
    (h : Invokes type "FaultInjectionAction" l ∨ Invokes type "FaultInjectionAction@v1" l) :
    run r actors known type content = ([.publish (l.map fun p => ("ERROR".toList, p))], .done) := by
  rcases h with h | h
  · rw [run, invokes_make ⟨by decide, by decide⟩ h]; rfl
  · rw [run, invokes_make ⟨by decide, by decide⟩ h]; rfl

/-- **C137** The second version of faults: one event with the level that was asked for, an error for other levels; what comes behind the name is ignored. -/
theorem C137_fault_level (r : Readers) (actors : List Text) (known : Text → Bool) (content : List Char) (level name : List Char) (l : List (List Char)) (type : List Char)
    (h : Invokes type "FaultInjectionAction@v2" (level :: name :: l)) :
    run r actors known type content =
      if String.ofList level ∈ ["OK", "WARN", "ERROR", "STALE"] then ([.publish [(level, name)]], .done)
      else if String.ofList level = "WARNING" then ([.publish [("WARN".toList, name)]], .done)
      else ([], .error) := by
  rw [run, invokes_make ⟨by decide, by decide⟩ h]
  show start r actors known (.command .fault2 _) = _
  have e : ∀ s : String, level = s.toList ↔ String.ofList level = s := fun s => by
    constructor
    · rintro rfl; exact String.ofList_toList
    · intro h; rw [← h]; simp
  simp only [start, Command.level, e, List.mem_cons, List.not_mem_nil, or_false]
  generalize hx : String.ofList level = x
  by_cases h1 : x = "OK"
  · simp [h1]
  by_cases h2 : x = "WARN"
  · subst h2; simp [← (e _).2 hx]
  by_cases h3 : x = "WARNING"
  · simp [h3]
  by_cases h4 : x = "ERROR"
  · simp [h4]
  by_cases h5 : x = "STALE"
  · simp [h5]
  simp [h1, h2, h3, h4, h5]

/-- **C137** The second version of faults without a name of a fault is undefined behaviour, unless its level is wrong. -/
theorem C137_fault_arguments_violated (r : Readers) (actors : List Text) (known : Text → Bool) (content : List Char) :
    (run r actors known "FaultInjectionAction@v2".toList content).2 = .undefined ∧ (run r actors known "FaultInjectionAction@v2(ERROR)".toList content).2 = .undefined := by
  constructor
  · rw [run, invokes_make (f := "FaultInjectionAction@v2") ⟨by decide, by decide⟩ (.inl ⟨rfl, rfl⟩)]; rfl
  · rw [run, invokes_make (type := "FaultInjectionAction@v2(ERROR)".toList) (f := "FaultInjectionAction@v2") (l := ["ERROR".toList]) ⟨by decide, by decide⟩
      (.inr ⟨"ERROR".toList, .last (w := "ERROR".toList) (g := []) (.plain _ (by decide) (by simp [Space])) (.spaces [] (by simp)), rfl⟩)]; rfl

theorem make_cases (type content : Text) : make type content = .program type content ∨ (type = [':'] ∧ make type content = .command .nothing []) ∨
    ∃ f a c, make type content = .command c (split a) ∧ (f, c) ∈ Command.names ∧ Calls f.toList a type ∧ body a = true := by
  unfold make
  split
  · rename_i h; exact .inr (.inl ⟨h, rfl⟩)
  · split
    · rename_i f a hc
      obtain ⟨_, hcalls, hb⟩ := call_some hc
      split
      · rename_i c hk
        exact .inr (.inr ⟨_, a, c, rfl, lookup_inj hk, by simpa using hcalls, hb⟩)
      · exact .inl rfl
    · exact .inl rfl

theorem features_end (r : Readers) (on : Bool) (l : List Text) : (features r on l).2 = .done ∨ (features r on l).2 = .error := by
  induction l with
  | nil => exact .inl rfl
  | cons p l ih =>
    simp only [features]
    split
    · exact ih
    · exact .inr rfl

/-- What the ends of commands tell. -/
theorem start_end (r : Readers) (actors : List Text) (known : Text → Bool) (c : Command) (ps : List Text) :
    ((start r actors known (.command c ps)).2 = .undefined → c = .debugSegmentationFault ∨ (c = .fault2 ∧ ps.length < 2)) ∧
    ((start r actors known (.command c ps)).2 = .exitSuccess ↔ c = .exitSuccess) ∧
    ((start r actors known (.command c ps)).2 = .exitFailure ↔ c = .exitFailure) := by
  have key : ∀ o : Outcome, o = .done ∨ o = .error → o ≠ .undefined ∧ o ≠ .exitSuccess ∧ o ≠ .exitFailure := by
    rintro o (rfl | rfl) <;> simp
  have fin : (start r actors known (.command c ps)).2 = .done ∨ (start r actors known (.command c ps)).2 = .error → c ≠ .exitSuccess → c ≠ .exitFailure →
    ((start r actors known (.command c ps)).2 = .undefined → c = .debugSegmentationFault ∨ (c = .fault2 ∧ ps.length < 2)) ∧
    ((start r actors known (.command c ps)).2 = .exitSuccess ↔ c = .exitSuccess) ∧
    ((start r actors known (.command c ps)).2 = .exitFailure ↔ c = .exitFailure) := by
    intro h h1 h2
    have := key _ h
    exact ⟨fun h => absurd h this.1, ⟨fun h => absurd h this.2.1, fun h => absurd h h1⟩, ⟨fun h => absurd h this.2.2, fun h => absurd h h2⟩⟩
  cases c with
  | exitSuccess => simp [start]
  | exitFailure => simp [start]
  | debugSegmentationFault => simp [start]
  | fault2 =>
    match ps with
    | [] => simp [start]
    | [l] => simp only [start]; split <;> simp
    | l :: n :: t => simp only [start]; split <;> simp
  | nothing => exact fin (.inl rfl) (by simp) (by simp)
  | fault1 => exact fin (.inl rfl) (by simp) (by simp)
  | walkStraight => exact fin (.inl rfl) (by simp) (by simp)
  | test => exact fin (.inl rfl) (by simp) (by simp)
  | debugError => exact fin (.inr rfl) (by simp) (by simp)
  | confidence => refine fin ?_ (by simp) (by simp); simp only [start]; split <;> (try split) <;> simp
  | cooperate => refine fin ?_ (by simp) (by simp); simp only [start]; split <;> simp
  | v2iState =>
    refine fin ?_ (by simp) (by simp)
    simp only [start]
    split <;> (try split) <;> (try split) <;> simp
  | enableV2I => refine fin ?_ (by simp) (by simp); simp only [start]; split; (exact .inr rfl); exact features_end _ _ _
  | disableV2I => refine fin ?_ (by simp) (by simp); simp only [start]; split; (exact .inr rfl); exact features_end _ _ _
  | dummyLongRunning => refine fin ?_ (by simp) (by simp); simp only [start]; split <;> (try split) <;> simp
  | printParameter => refine fin ?_ (by simp) (by simp); simp only [start]; split <;> simp

/-- **C137** Apart from that only the command for it ends in undefined behaviour. -/
theorem C137_undefined (r : Readers) (actors : List Text) (known : Text → Bool) (type content : List Char) (h : (run r actors known type content).2 = .undefined) :
    (∃ a, Calls "debugSegmentationFault".toList a type) ∨ ∃ a l, Calls "FaultInjectionAction@v2".toList a type ∧ Parameters l a ∧ l.length < 2 := by
  rw [run] at h
  rcases make_cases type content with h' | ⟨_, h'⟩ | ⟨f, a, c, h', hn, hc, hb⟩
  · rw [h'] at h; cases h
  · rw [h'] at h; cases h
  · rw [h'] at h
    rcases (start_end r actors known c (split a)).1 h with rfl | ⟨rfl, hl⟩
    · left
      have : f = "debugSegmentationFault" := by simpa [Command.names] using hn
      exact ⟨a, this ▸ hc⟩
    · right
      have : f = "FaultInjectionAction@v2" := by simpa [Command.names] using hn
      exact ⟨a, split a, this ▸ hc, body_split _ a (Nat.le_refl _) hb, hl⟩

/-- **C137** The simulation is asked to exit exactly by the two commands for it, whatever their parameters. -/
theorem C137_exit (r : Readers) (actors : List Text) (known : Text → Bool) (type content : List Char) :
    ((run r actors known type content).2 = .exitSuccess ↔ ∃ a l, Calls "exitSuccess".toList a type ∧ Parameters l a) ∧
    ((run r actors known type content).2 = .exitFailure ↔ ∃ a l, Calls "exitFailure".toList a type ∧ Parameters l a) := by
  constructor
  · constructor
    · intro h
      rw [run] at h
      rcases make_cases type content with h' | ⟨_, h'⟩ | ⟨f, a, c, h', hn, hc, hb⟩
      · rw [h'] at h; cases h
      · rw [h'] at h; cases h
      · rw [h', (start_end r actors known c (split a)).2.1] at h
        subst h
        have : f = "exitSuccess" := by simpa [Command.names] using hn
        exact ⟨a, _, this ▸ hc, body_split _ a (Nat.le_refl _) hb⟩
    · rintro ⟨a, l, hc, hl⟩
      rw [run, make_call ⟨by decide, by decide⟩ hc ((body_iff a).2 ⟨l, hl⟩)]; rfl
  · constructor
    · intro h
      rw [run] at h
      rcases make_cases type content with h' | ⟨_, h'⟩ | ⟨f, a, c, h', hn, hc, hb⟩
      · rw [h'] at h; cases h
      · rw [h'] at h; cases h
      · rw [h', (start_end r actors known c (split a)).2.2] at h
        subst h
        have : f = "exitFailure" := by simpa [Command.names] using hn
        exact ⟨a, _, this ▸ hc, body_split _ a (Nat.le_refl _) hb⟩
    · rintro ⟨a, l, hc, hl⟩
      rw [run, make_call ⟨by decide, by decide⟩ hc ((body_iff a).2 ⟨l, hl⟩)]; rfl

example : Calls "exitSuccess".toList [] "exitSuccess".toList ∧ Parameters [] [] ∧ Calls "exitFailure".toList [] "exitFailure()".toList := ⟨.inl ⟨rfl, rfl⟩, .nil, .inr rfl⟩

/-- **C137** Features of traffic signals: exactly the signals that are listed are switched, in their order, if each of the parameters is a number. -/
theorem C137_features (r : Readers) (actors : List Text) (known : Text → Bool) (content : List Char) (on : Bool) (l : List (List Char)) (ids : List Int) (type : List Char)
    (h : Invokes type (if on then "EnableTrafficSignalV2IFeatureAction@v1" else "DisableTrafficSignalV2IFeatureAction@v1") l) (hids : l.map r.int = ids.map some) (hne : l ≠ []) :
    run r actors known type content = (ids.map fun id => .feature id on, .done) := by
  have key : ∀ (l : List Text) (ids : List Int), l.map r.int = ids.map some → features r on l = (ids.map fun id => .feature id on, .done) := by
    intro l
    induction l with
    | nil => intro ids h; cases ids with
      | nil => rfl
      | cons => simp at h
    | cons p l ih =>
      intro ids h
      cases ids with
      | nil => simp at h
      | cons i ids =>
        simp only [List.map_cons, List.cons.injEq] at h
        simp only [features, h.1, ih ids h.2, List.map_cons]
  have he : l.isEmpty = false := by cases l <;> simp at hne ⊢
  cases on with
  | true =>
    rw [run, invokes_make ⟨by decide, by decide⟩ h]
    show start r actors known (.command .enableV2I l) = _
    simp only [start, he, key l ids hids]; rfl
  | false =>
    rw [run, invokes_make ⟨by decide, by decide⟩ h]
    show start r actors known (.command .disableV2I l) = _
    simp only [start, he, key l ids hids]; rfl

/-- **C137** All entities that are named, and all actors, are told to walk. -/
theorem C137_walk (r : Readers) (actors : List Text) (known : Text → Bool) (content : List Char) (l : List (List Char)) (type : List Char) (h : Invokes type "WalkStraightAction" l) :
    (run r actors known type content).2 = .done ∧ ∀ e, .walk e ∈ (run r actors known type content).1 ↔ e ∈ l ∨ e ∈ actors := by
  rw [run, invokes_make ⟨by decide, by decide⟩ h]
  show (start r actors known (.command .walkStraight l)).2 = _ ∧ ∀ e, _ ∈ (start r actors known (.command .walkStraight l)).1 ↔ _
  simp [start]

/-- **C137** A name of a parameter that is not known is an error, also behind ones that are; if all are known nothing happens. -/
theorem C137_print (r : Readers) (actors : List Text) (known : Text → Bool) (content : List Char) (l : List (List Char)) (type : List Char) (h : Invokes type "printParameter" l) :
    ((∃ p ∈ l, known p = false) → run r actors known type content = ([], .error)) ∧ ((∀ p ∈ l, known p = true) → run r actors known type content = ([], .done)) := by
  have e : run r actors known type content = start r actors known (.command .printParameter l) := by
    rw [run, invokes_make ⟨by decide, by decide⟩ h]; rfl
  rw [e]
  simp only [start]
  constructor
  · rintro ⟨p, hp, hk⟩
    rw [if_neg]
    intro hall
    rw [List.all_eq_true.1 hall p hp] at hk
    cases hk
  · intro hk
    rw [if_pos (List.all_eq_true.2 hk)]

/-- **C137** States of traffic signals: with two parameters the state alone is set, with three the rate is set before it. -/
theorem C137_state (r : Readers) (actors : List Text) (known : Text → Bool) (content : List Char) (id state rate : List Char) (n : Int) (v : Parameter.Dbl) (type type' : List Char)
    (h : Invokes type "V2ITrafficSignalStateAction" [id, state]) (h' : Invokes type' "V2ITrafficSignalStateAction" [id, state, rate]) (hid : r.int id = some n)
    (hrate : r.double rate = some v) :
    run r actors known type content = ([.state n (r.unquote state)], .done) ∧ run r actors known type' content = ([.rate v, .state n (r.unquote state)], .done) := by
  constructor
  · rw [run, invokes_make ⟨by decide, by decide⟩ h]
    show start r actors known (.command .v2iState _) = _
    simp only [start, hid]
  · rw [run, invokes_make ⟨by decide, by decide⟩ h']
    show start r actors known (.command .v2iState _) = _
    simp only [start, hid, hrate]

example : Invokes "V2ITrafficSignalStateAction(1,green)".toList "V2ITrafficSignalStateAction" ["1".toList, "green".toList] ∧ someReaders.int "1".toList = some 1 ∧
    someReaders.double "10".toList = some (.fin 10) :=
  ⟨.inr ⟨"1,green".toList, .cons (w := "1".toList) (g := [',']) (t := "green".toList) (.plain _ (by decide) (by simp [Space])) (.comma [] (by simp)) (by simp)
    (.last (w := "green".toList) (g := []) (.plain _ (by decide) (by simp [Space])) (.spaces [] (by simp))), by decide⟩, by decide, by decide⟩

/-- **C137** The confidence and the cooperation: exactly two parameters. -/
theorem C137_two (r : Readers) (actors : List Text) (known : Text → Bool) (content : List Char) (l : List (List Char)) (type type' : List Char)
    (h : Invokes type "PseudoTrafficSignalDetectorConfidenceSetAction@v1" l) (h' : Invokes type' "RequestToCooperateCommandAction@v1" l) :
    ((run r actors known type content).2 = .done ↔ ∃ a b n v, l = [a, b] ∧ r.stoi a = some n ∧ r.stod b = some v ∧ (run r actors known type content).1 = [.confidence n v]) ∧
    ((run r actors known type' content).2 = .done ↔ ∃ a b, l = [a, b] ∧ (run r actors known type' content).1 = [.cooperate a b]) := by
  constructor
  · rw [run, invokes_make ⟨by decide, by decide⟩ h]
    show (start r actors known (.command .confidence l)).2 = _ ↔ ∃ a b n v, _ ∧ _ ∧ _ ∧ (start r actors known (.command .confidence l)).1 = _
    simp only [start]
    split
    · rename_i a b
      cases ha : r.stoi a with
      | none =>
        simp only [reduceCtorEq, false_iff]
        rintro ⟨a', b', n, v, h, h', _⟩; cases h; rw [ha] at h'; cases h'
      | some n =>
        cases hb : r.stod b with
        | none =>
          simp only [reduceCtorEq, false_iff]
          rintro ⟨a', b', n, v, h, _, h', _⟩; cases h; rw [hb] at h'; cases h'
        | some v => exact ⟨fun _ => ⟨a, b, n, v, rfl, ha, hb, rfl⟩, fun _ => rfl⟩
    · rename_i hne
      simp only [reduceCtorEq, false_iff]
      rintro ⟨a, b, _, _, rfl, _⟩; exact hne a b rfl
  · rw [run, invokes_make ⟨by decide, by decide⟩ h']
    show (start r actors known (.command .cooperate l)).2 = _ ↔ ∃ a b, _ ∧ (start r actors known (.command .cooperate l)).1 = _
    simp only [start]
    split
    · simp
    · rename_i hne
      simp only [reduceCtorEq, false_iff]
      rintro ⟨a, b, rfl, _⟩; exact hne a b rfl

/-- **C137** A command that ends with an error has done nothing, apart from the state of a signal with a rate and the features of signals. -/
theorem C137_failed_partial (r : Readers) (actors : List Text) (known : Text → Bool) (type content : List Char) (h : (run r actors known type content).2 ≠ .done)
    (hv : ∀ a l, Parameters l a → l.length = 3 → ¬ Calls "V2ITrafficSignalStateAction".toList a type)
    (hf : ∀ a, ¬ Calls "EnableTrafficSignalV2IFeatureAction@v1".toList a type ∧ ¬ Calls "DisableTrafficSignalV2IFeatureAction@v1".toList a type) :
    (run r actors known type content).1 = [] := by
  rw [run] at h ⊢
  rcases make_cases type content with h' | ⟨_, h'⟩ | ⟨f, a, c, h', hn, hc, hb⟩
  · rw [h'] at h; exact absurd rfl h
  · rw [h']; rfl
  · have hl := body_split _ a (Nat.le_refl _) hb
    rw [h'] at h ⊢
    generalize split a = ps at *
    cases c with
    | enableV2I =>
      have : f = "EnableTrafficSignalV2IFeatureAction@v1" := by simpa [Command.names] using hn
      exact absurd (this ▸ hc) (hf a).1
    | disableV2I =>
      have : f = "DisableTrafficSignalV2IFeatureAction@v1" := by simpa [Command.names] using hn
      exact absurd (this ▸ hc) (hf a).2
    | v2iState =>
      have : f = "V2ITrafficSignalStateAction" := by simpa [Command.names] using hn
      have hne : ps.length ≠ 3 := fun h3 => hv a ps hl h3 (this ▸ hc)
      simp only [start] at h ⊢
      split
      · split <;> simp_all
      · exact absurd rfl hne
      · rfl
    | fault1 => exact absurd rfl h
    | walkStraight => exact absurd rfl h
    | fault2 => simp only [start] at h ⊢; split <;> (try split) <;> simp_all
    | confidence => simp only [start] at h ⊢; split <;> (try split) <;> simp_all
    | cooperate => simp only [start] at h ⊢; split <;> simp_all
    | dummyLongRunning => simp only [start] at h ⊢; split <;> (try split) <;> simp_all
    | printParameter => simp only [start] at h ⊢; split <;> simp_all
    | _ => rfl

example : (run someReaders [] (fun _ => true) "debugError".toList []).2 ≠ .done ∧ ∀ a, ¬ Calls "V2ITrafficSignalStateAction".toList a "debugError".toList := by
  constructor
  · rw [run, invokes_make (f := "debugError") ⟨by decide, by decide⟩ (.inl ⟨rfl, rfl⟩)]; decide
  · rintro a (⟨h, _⟩ | h)
    · exact absurd h (by decide)
    · have := congrArg List.head? h; simp at this

/-- **C137** A command that ends with an error has done part of its work: the rate is set although the signal is not, and the signals before the wrong one are switched. -/
theorem C137_failed_violated : ∃ (r : Readers) (type type' : List Char),
    run r [] (fun _ => true) type [] = ([.rate (.fin 10)], .error) ∧ run r [] (fun _ => true) type' [] = ([.feature 1 true], .error) := by
  have w : ∀ s : Text, s ≠ [] → (∀ c ∈ s, ¬ Space c ∧ c ∉ ['(', ')', ',', '"']) → Written s := fun s => .plain s
  refine ⟨someReaders, "V2ITrafficSignalStateAction(x,green,10)".toList, "EnableTrafficSignalV2IFeatureAction@v1(1,x)".toList, ?_, ?_⟩
  · rw [run, invokes_make (type := "V2ITrafficSignalStateAction(x,green,10)".toList) (f := "V2ITrafficSignalStateAction") (l := ["x".toList, "green".toList, "10".toList])
      ⟨by decide, by decide⟩ (.inr ⟨"x,green,10".toList, ?_, by decide⟩)]
    · decide
    · exact .cons (w := "x".toList) (g := [',']) (t := "green,10".toList) (w _ (by decide) (by simp [Space])) (.comma [] (by simp)) (by simp)
        (.cons (w := "green".toList) (g := [',']) (t := "10".toList) (w _ (by decide) (by simp [Space])) (.comma [] (by simp)) (by simp)
          (.last (w := "10".toList) (g := []) (w _ (by decide) (by simp [Space])) (.spaces [] (by simp))))
  · rw [run, invokes_make (type := "EnableTrafficSignalV2IFeatureAction@v1(1,x)".toList) (f := "EnableTrafficSignalV2IFeatureAction@v1") (l := ["1".toList, "x".toList])
      ⟨by decide, by decide⟩ (.inr ⟨"1,x".toList, ?_, by decide⟩)]
    · decide
    · exact .cons (w := "1".toList) (g := [',']) (t := "x".toList) (w _ (by decide) (by simp [Space])) (.comma [] (by simp)) (by simp)
          (.last (w := "x".toList) (g := []) (w _ (by decide) (by simp [Space])) (.spaces [] (by simp)))

theorem words_ne (s : Text) : words s ≠ [] := by
  cases s with
  | nil => simp [words]
  | cons c s => simp only [words]; split; · simp
                split <;> simp

theorem words_append (w s : Text) (hw : ∀ c ∈ w, ¬ Space c) (x : Char) (hx : Space x) : words (w ++ x :: s) = w :: words s := by
  induction w with
  | nil => simp [words, (isSpace_iff x).2 hx]
  | cons c w ih =>
    have hc : isSpace c = false := by
      have := hw c (by simp); rw [← isSpace_iff] at this; simpa using this
    simp only [List.cons_append, words, hc, Bool.false_eq_true, if_false, ih (fun d hd => hw d (by simp [hd]))]

theorem words_last (w : Text) (hw : ∀ c ∈ w, ¬ Space c) : words w = [w] := by
  induction w with
  | nil => rfl
  | cons c w ih =>
    have hc : isSpace c = false := by
      have := hw c (by simp); rw [← isSpace_iff] at this; simpa using this
    simp only [words, hc, Bool.false_eq_true, if_false, ih (fun d hd => hw d (by simp [hd]))]

/-- **C137** A program is run with its words as arguments, if there is one space between any two of them. -/
theorem C137_arguments_partial (r : Readers) (actors : List Text) (known : Text → Bool) (type : List Char) (l : List (List Char)) (hc : type ≠ [':'])
    (hm : ¬ ∃ f ∈ commandNames, ∃ a l, Name f.toList ∧ Calls f.toList a type ∧ Parameters l a)
    (ht : ∀ c ∈ type, ¬ Space c) (hl : ∀ w ∈ l, w ≠ [] ∧ ∀ c ∈ w, ¬ Space c) : run r actors known type (" ".toList.intercalate l) = ([.ran (type :: l)], .done) := by
  have key : ∀ (l : List Text) (w : Text), (∀ c ∈ w, ¬ Space c) → (∀ w ∈ l, w ≠ [] ∧ ∀ c ∈ w, ¬ Space c) → words (" ".toList.intercalate (w :: l)) = w :: l := by
    intro l
    induction l with
    | nil => intro w hw _; simp [List.intercalate]; exact words_last w hw
    | cons v l ih =>
      intro w hw hl
      have : " ".toList.intercalate (w :: v :: l) = w ++ ' ' :: " ".toList.intercalate (v :: l) := by simp [List.intercalate]
      rw [this, words_append w _ hw ' ' (by simp [Space]), ih v (hl v (by simp)).2 (fun x hx => hl x (by simp [hx]))]
  rw [run, (C137_program _ _).2 ⟨hc, hm⟩]
  simp only [start]
  have hk := key l type ht hl
  cases l with
  | nil => simp [List.intercalate] at hk ⊢; exact words_last type ht
  | cons v l =>
    have : " ".toList.intercalate (type :: v :: l) = type ++ ' ' :: " ".toList.intercalate (v :: l) := by simp [List.intercalate]
    rw [this] at hk
    have hne : (" ".toList.intercalate (v :: l)).isEmpty = false := by
      have hv := (hl v (by simp)).1
      cases v with
      | nil => exact absurd rfl hv
      | cons c v => cases l <;> simp [List.intercalate]
    rw [if_neg (by rw [hne]; simp), hk]

example : "/bin/echo".toList ≠ [':'] ∧ (¬ ∃ f ∈ commandNames, ∃ a l, Name f.toList ∧ Calls f.toList a "/bin/echo".toList ∧ Parameters l a) ∧
    (∀ c ∈ "/bin/echo".toList, ¬ Space c) ∧ ∀ w ∈ ["a".toList, "b".toList], w ≠ [] ∧ ∀ c ∈ w, ¬ Space c := by
  refine ⟨by decide, ?_, by simp [Space], by simp [Space]⟩
  rintro ⟨f, _, a, l, hf, hc, hl⟩
  have := (C136_calls _ _ _).2 ⟨hf, hc, l, hl⟩
  rw [show call "/bin/echo".toList = none by decide] at this; cases this

/-- **C137** Two spaces, a line break before the first argument or quotation marks give arguments nobody wrote. -/
theorem C137_arguments_violated (r : Readers) (actors : List Text) (known : Text → Bool) :
    run r actors known "/bin/echo".toList "a  b".toList = ([.ran ["/bin/echo".toList, "a".toList, [], "b".toList]], .done) ∧
    run r actors known "/bin/echo".toList "\n a".toList = ([.ran ["/bin/echo".toList, [], [], "a".toList]], .done) ∧
    run r actors known "/bin/echo".toList "\"a b\"".toList = ([.ran ["/bin/echo".toList, "\"a".toList, "b\"".toList]], .done) := by
  have h : ∀ c, make "/bin/echo".toList c = .program "/bin/echo".toList c := fun c => by
    have : call "/bin/echo".toList = none := by decide
    simp only [make]
    rw [if_neg (by decide), this]
  refine ⟨?_, ?_, ?_⟩ <;> · rw [run, h]; rfl

/-- **C137** The command that takes time: it has not ended before it was started, and then it ends as soon as more than the duration has passed. -/
theorem C137_long (l : Long) (t d now : Rat) : (Long.accomplished ⟨none⟩ now = false) ∧ ((l.start t d).accomplished now = true ↔ d < now - t) := by
  refine ⟨rfl, ?_⟩
  simp only [Long.start, Long.accomplished, decide_eq_true_eq]
  constructor <;> intro h <;> grind

end Verif.Command
