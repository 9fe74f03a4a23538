import Verif.Signal.Steps
import Verif.Light.Lemmas
/-
What phases do to the lights.
-/
namespace Verif.Signal
set_option linter.unusedSimpArgs false
open Light
set_option linter.unusedSectionVars false

variable {T : Type} [Time T] {m : RoadMap} {prog : List (Decl T)}

theorem clearAll_eq (ids : List Id) (f : Id → List Bulb) (k : Id) :
    clearAll ids f k = if k ∈ ids then [] else f k := by
  induction ids generalizing f with
  | nil => rfl
  | cons i ids ih =>
    show clearAll ids (upd f i []) k = _
    rw [ih]
    by_cases h : k ∈ ids
    · simp [h]
    · by_cases h2 : k = i <;> simp [h, h2, upd]

theorem mem_set_ok {l : List Bulb} {s : Text} (h : (setLight l s).2 = true) (b : Bulb) :
    b ∈ (setLight l s).1 ↔ b ∈ l ∨ Sets s b := by
  obtain ⟨bs, hbs⟩ := describes_of_ok h
  rw [setLight_describes hbs]
  simp only [mem_addBulbs]
  constructor
  · rintro (h | h)
    · exact Or.inr ⟨bs, hbs, h⟩
    · exact Or.inl h
  · rintro (h | ⟨bs', h1, h2⟩)
    · exact Or.inr h
    · have e := setLight_describes hbs []
      rw [setLight_describes h1 []] at e
      have : b ∈ addBulbs bs' [] := mem_addBulbs.2 (Or.inl h2)
      rw [show addBulbs bs' [] = addBulbs bs [] from congrArg Prod.fst e] at this
      exact Or.inl (by simpa [mem_addBulbs] using this)

theorem addAll_mem {s : Text} {ids : List Id} {f : Id → List Bulb} (h : (addAll s ids f).2 = true)
    (k : Id) (b : Bulb) : b ∈ (addAll s ids f).1 k ↔ b ∈ f k ∨ (k ∈ ids ∧ Sets s b) := by
  induction ids generalizing f with
  | nil => simp [addAll]
  | cons i ids ih =>
    by_cases h1 : (setLight (f i) s).2 = true
    · have e : addAll s (i :: ids) f = addAll s ids (upd f i (setLight (f i) s).1) := by
        simp only [addAll]; rw [if_pos h1]
      rw [e] at h ⊢
      rw [ih h]
      by_cases hk : k = i
      · subst hk
        simp only [upd, if_true, mem_set_ok h1, List.mem_cons, true_or, true_and]
        constructor
        · rintro ((h | h) | ⟨_, h⟩) <;> simp [h]
        · rintro (h | h) <;> simp [h]
      · simp [upd, hk]
    · simp [addAll, h1] at h

/-- What clearing the states `S` does. -/
structure Clears (m : RoadMap) (S : List SignalState) (w w' : Lights) : Prop where
  enabled : w'.enabled = w.enabled
  conv_in : ∀ k, (∃ s ∈ S, s.forConv m k) → w'.conv k = []
  conv_out : ∀ k, (¬ ∃ s ∈ S, s.forConv m k) → w'.conv k = w.conv k
  v2i_in : ∀ k, (∃ s ∈ S, s.forV2I m w.enabled k) → w'.v2i k = []
  v2i_out : ∀ k, (¬ ∃ s ∈ S, s.forV2I m w.enabled k) → w'.v2i k = w.v2i k
  cd_in : ∀ k, (∃ s ∈ S, s.forDetected .conventional k) → w'.convDetected k = none
  cd_out : ∀ k, (¬ ∃ s ∈ S, s.forDetected .conventional k) → w'.convDetected k = w.convDetected k
  vd_in : ∀ k, (∃ s ∈ S, s.forDetected .v2i k) → w'.v2iDetected k = none
  vd_out : ∀ k, (¬ ∃ s ∈ S, s.forDetected .v2i k) → w'.v2iDetected k = w.v2iDetected k

/-- What adding the states `S` does. -/
structure Adds (m : RoadMap) (S : List SignalState) (w w' : Lights) : Prop where
  enabled : w'.enabled = w.enabled
  conv : ∀ k b, b ∈ w'.conv k ↔ b ∈ w.conv k ∨ ∃ s ∈ S, s.forConv m k ∧ Sets s.state b
  conv_out : ∀ k, (¬ ∃ s ∈ S, s.forConv m k) → w'.conv k = w.conv k
  v2i : ∀ k b, b ∈ w'.v2i k ↔ b ∈ w.v2i k ∨ ∃ s ∈ S, s.forV2I m w.enabled k ∧ Sets s.state b
  v2i_out : ∀ k, (¬ ∃ s ∈ S, s.forV2I m w.enabled k) → w'.v2i k = w.v2i k
  cd : ∀ k b, b ∈ (w'.convDetected k).getD [] ↔
    b ∈ (w.convDetected k).getD [] ∨ ∃ s ∈ S, s.forDetected .conventional k ∧ Sets s.state b
  cd_some : ∀ k, ((w.convDetected k).isSome ∨ ∃ s ∈ S, s.forDetected .conventional k) → (w'.convDetected k).isSome
  cd_out : ∀ k, (¬ ∃ s ∈ S, s.forDetected .conventional k) → w'.convDetected k = w.convDetected k
  vd : ∀ k b, b ∈ (w'.v2iDetected k).getD [] ↔
    b ∈ (w.v2iDetected k).getD [] ∨ ∃ s ∈ S, s.forDetected .v2i k ∧ Sets s.state b
  vd_some : ∀ k, ((w.v2iDetected k).isSome ∨ ∃ s ∈ S, s.forDetected .v2i k) → (w'.v2iDetected k).isSome
  vd_out : ∀ k, (¬ ∃ s ∈ S, s.forDetected .v2i k) → w'.v2iDetected k = w.v2iDetected k

theorem exists_append {S S' : List SignalState} {P : SignalState → Prop} :
    (∃ s ∈ S ++ S', P s) ↔ (∃ s ∈ S, P s) ∨ ∃ s ∈ S', P s := by
  simp only [List.mem_append]
  constructor
  · rintro ⟨s, h | h, hp⟩
    · exact Or.inl ⟨s, h, hp⟩
    · exact Or.inr ⟨s, h, hp⟩
  · rintro (⟨s, h, hp⟩ | ⟨s, h, hp⟩)
    · exact ⟨s, Or.inl h, hp⟩
    · exact ⟨s, Or.inr h, hp⟩

theorem Clears.append {S S' : List SignalState} {a b c : Lights} (h : Clears m S a b)
    (h' : Clears m S' b c) : Clears m (S ++ S') a c := by
  have he := h.enabled
  have combine : ∀ {β} (P : SignalState → Prop) (x y z v : β), ((∃ s ∈ S, P s) → y = v) →
      ((¬ ∃ s ∈ S, P s) → y = x) → ((∃ s ∈ S', P s) → z = v) → ((¬ ∃ s ∈ S', P s) → z = y) →
      ((∃ s ∈ S ++ S', P s) → z = v) ∧ ((¬ ∃ s ∈ S ++ S', P s) → z = x) := by
    intro β P x y z v h1 h2 h3 h4
    rw [exists_append]
    by_cases hp : ∃ s ∈ S', P s
    · exact ⟨fun _ => h3 hp, fun hn => absurd (Or.inr hp) hn⟩
    · refine ⟨fun ho => ?_, fun hn => ?_⟩
      · rcases ho with ho | ho
        · rw [h4 hp, h1 ho]
        · exact absurd ho hp
      · rw [h4 hp, h2 fun hc => hn (Or.inl hc)]
  have e2 := h'.v2i_in; have e3 := h'.v2i_out
  rw [he] at e2 e3
  exact ⟨h'.enabled.trans he,
    fun k => (combine _ _ _ _ _ (h.conv_in k) (h.conv_out k) (h'.conv_in k) (h'.conv_out k)).1,
    fun k => (combine _ _ _ _ _ (h.conv_in k) (h.conv_out k) (h'.conv_in k) (h'.conv_out k)).2,
    fun k => (combine _ _ _ _ _ (h.v2i_in k) (h.v2i_out k) (e2 k) (e3 k)).1,
    fun k => (combine _ _ _ _ _ (h.v2i_in k) (h.v2i_out k) (e2 k) (e3 k)).2,
    fun k => (combine _ _ _ _ _ (h.cd_in k) (h.cd_out k) (h'.cd_in k) (h'.cd_out k)).1,
    fun k => (combine _ _ _ _ _ (h.cd_in k) (h.cd_out k) (h'.cd_in k) (h'.cd_out k)).2,
    fun k => (combine _ _ _ _ _ (h.vd_in k) (h.vd_out k) (h'.vd_in k) (h'.vd_out k)).1,
    fun k => (combine _ _ _ _ _ (h.vd_in k) (h.vd_out k) (h'.vd_in k) (h'.vd_out k)).2⟩

theorem Adds.append {S S' : List SignalState} {a b c : Lights} (h : Adds m S a b)
    (h' : Adds m S' b c) : Adds m (S ++ S') a c := by
  have he := h.enabled
  have e2 := h'.v2i; have e3 := h'.v2i_out
  rw [he] at e2 e3
  refine ⟨h'.enabled.trans he, ?_, ?_, ?_, ?_, ?_, ?_, ?_, ?_, ?_, ?_⟩
  · intro k b; rw [h'.conv, h.conv, exists_append, or_assoc]
  · intro k hn; rw [exists_append, not_or] at hn; rw [h'.conv_out k hn.2, h.conv_out k hn.1]
  · intro k b; rw [e2, h.v2i, exists_append, or_assoc]
  · intro k hn; rw [exists_append, not_or] at hn; rw [e3 k hn.2, h.v2i_out k hn.1]
  · intro k b; rw [h'.cd, h.cd, exists_append, or_assoc]
  · intro k hs; rw [exists_append, ← or_assoc] at hs
    exact h'.cd_some k (hs.imp_left (h.cd_some k))
  · intro k hn; rw [exists_append, not_or] at hn; rw [h'.cd_out k hn.2, h.cd_out k hn.1]
  · intro k b; rw [h'.vd, h.vd, exists_append, or_assoc]
  · intro k hs; rw [exists_append, ← or_assoc] at hs
    exact h'.vd_some k (hs.imp_left (h.vd_some k))
  · intro k hn; rw [exists_append, not_or] at hn; rw [h'.vd_out k hn.2, h.vd_out k hn.1]

theorem detectedClear_eq (i : Id) (f : Id → Option (List Bulb)) (k : Id) :
    detectedClear i f k = if i = k then none else f k := by
  simp only [detectedClear, upd]
  by_cases h : k = i
  · simp [h]
  · have : ¬ i = k := fun hc => h hc.symm
    simp [h, this]

theorem clear_one {s : SignalState} {w : Lights} (h : (s.clear m w).2 = true) :
    Clears m [s] w (s.clear m w).1 := by
  obtain ⟨i, c, d, t⟩ := s
  simp only [SignalState.clear] at h ⊢
  cases c <;> cases d
  · simp only [convClear] at h ⊢
    cases hi : m.lights i with
    | none => rw [hi] at h; cases h
    | some ids =>
      simp only [hi, mirror, v2iClear] at h ⊢
      cases he : w.enabled i <;>
      · simp only [Bool.false_eq_true, if_false, if_true]
        constructor <;>
        simp (config := {contextual := true}) [SignalState.forConv, SignalState.forV2I, SignalState.forDetected, clearAll_eq, hi, he]
  · constructor <;>
    simp (config := {contextual := true}) [SignalState.forConv, SignalState.forV2I, SignalState.forDetected, detectedClear_eq]
  · simp only [v2iClear] at h ⊢
    cases hi : m.lights i with
    | none => rw [hi] at h; cases h
    | some ids =>
      constructor <;>
      simp (config := {contextual := true}) [SignalState.forConv, SignalState.forV2I, SignalState.forDetected, clearAll_eq, hi]
  · constructor <;>
    simp (config := {contextual := true}) [SignalState.forConv, SignalState.forV2I, SignalState.forDetected, detectedClear_eq]

theorem addAll_out {s : Text} {ids : List Id} {f : Id → List Bulb} {k : Id} (h : k ∉ ids) :
    (addAll s ids f).1 k = f k := addAll_ne h f

theorem detectedAdd_ok {i : Id} {s : Text} {f : Id → Option (List Bulb)}
    (h : (detectedAdd m i s f).2 = true) :
    (∀ k b, b ∈ ((detectedAdd m i s f).1 k).getD [] ↔ b ∈ (f k).getD [] ∨ (i = k ∧ Sets s b)) ∧
    (∀ k, ((f k).isSome ∨ i = k) → ((detectedAdd m i s f).1 k).isSome) ∧
    ∀ k, i ≠ k → (detectedAdd m i s f).1 k = f k := by
  simp only [detectedAdd] at h ⊢
  cases hi : m.lights i with
  | none => rw [hi] at h; cases h
  | some ids =>
    simp only [hi] at h ⊢
    refine ⟨fun k b => ?_, fun k hk => ?_, fun k hk => ?_⟩
    · by_cases e : k = i
      · subst e; simp [upd, mem_set_ok h]
      · have : ¬ i = k := fun hc => e hc.symm
        simp [upd, e, this]
    · by_cases e : k = i
      · simp [upd, e]
      · have : ¬ i = k := fun hc => e hc.symm
        simpa [upd, e, this] using hk
    · have : ¬ k = i := fun hc => hk hc.symm
      simp [upd, this]

theorem add_one {s : SignalState} {w : Lights} (h : (s.evaluate m w).2 = true) :
    Adds m [s] w (s.evaluate m w).1 := by
  obtain ⟨i, c, d, t⟩ := s
  simp only [SignalState.evaluate] at h ⊢
  cases c <;> cases d
  · simp only [convAdd] at h ⊢
    cases hi : m.lights i with
    | none => rw [hi] at h; cases h
    | some ids =>
      simp only [hi] at h ⊢
      by_cases h1 : (addAll t ids w.conv).2 = true
      · rw [if_pos h1] at h ⊢
        simp only [mirror, v2iAdd, hi] at h ⊢
        cases he : w.enabled i
        · simp only [he, Bool.false_eq_true, if_false] at h ⊢
          constructor <;>
          simp (config := {contextual := true}) [SignalState.forConv, SignalState.forV2I, SignalState.forDetected, hi, he,
            addAll_mem h1, addAll_out]
        · simp only [he, if_true] at h ⊢
          constructor <;>
          simp (config := {contextual := true}) [SignalState.forConv, SignalState.forV2I, SignalState.forDetected, hi, he,
            addAll_mem h1, addAll_out, addAll_mem h]
      · rw [if_neg h1] at h; cases h
  · have := detectedAdd_ok h
    constructor <;>
    simp (config := {contextual := true}) [SignalState.forConv, SignalState.forV2I, SignalState.forDetected, this.1, this.2.2]
    exact fun k => this.2.1 k
  · simp only [v2iAdd] at h ⊢
    cases hi : m.lights i with
    | none => rw [hi] at h; cases h
    | some ids =>
      simp only [hi] at h ⊢
      constructor <;>
      simp (config := {contextual := true}) [SignalState.forConv, SignalState.forV2I, SignalState.forDetected, hi,
        addAll_out, addAll_mem h]
  · have := detectedAdd_ok h
    constructor <;>
    simp (config := {contextual := true}) [SignalState.forConv, SignalState.forV2I, SignalState.forDetected, this.1, this.2.2]
    exact fun k => this.2.1 k

theorem clears_nil (w : Lights) : Clears m [] w w := by constructor <;> simp

theorem adds_nil (w : Lights) : Adds m [] w w := by constructor <;> simp

theorem each_rule {f : SignalState → Lights → Lights × Bool} {R : List SignalState → Lights → Lights → Prop}
    (hnil : ∀ w, R [] w w) (happ : ∀ S S' a b c, R S a b → R S' b c → R (S ++ S') a c)
    (hone : ∀ s w, (f s w).2 = true → R [s] w (f s w).1) {S : List SignalState} {w : Lights}
    (h : (each f S w).2 = true) : R S w (each f S w).1 := by
  induction S generalizing w with
  | nil => exact hnil w
  | cons s S ih =>
    simp only [each] at h ⊢
    by_cases h1 : (f s w).2 = true
    · rw [if_pos h1] at h ⊢
      exact happ [s] S _ _ _ (hone s w h1) (ih h)
    · rw [if_neg h1] at h; exact absurd h h1

theorem clears_each {S : List SignalState} {w : Lights} (h : (each (SignalState.clear m) S w).2 = true) :
    Clears m S w (each (SignalState.clear m) S w).1 :=
  each_rule clears_nil (fun _ _ _ _ _ => Clears.append) (fun _ _ => clear_one) h

theorem adds_each {S : List SignalState} {w : Lights} (h : (each (SignalState.evaluate m) S w).2 = true) :
    Adds m S w (each (SignalState.evaluate m) S w).1 :=
  each_rule adds_nil (fun _ _ _ _ _ => Adds.append) (fun _ _ => add_one) h

/-- The states of the phase the iterator points at. -/
def statesOf (d : Decl T) (p : Option Nat) : List SignalState :=
  ((d.phase? p).map (·.states)).getD []

theorem andThen_ok {f g : Lights → Lights × Bool} {w : Lights} (h : (andThen f g w).2 = true) :
    (f w).2 = true ∧ andThen f g w = g (f w).1 := by
  unfold andThen at h ⊢
  dsimp only at h ⊢
  by_cases h1 : (f w).2 = true
  · rw [if_pos h1]; exact ⟨h1, rfl⟩
  · rw [if_neg h1] at h; exact absurd h h1

theorem changePhaseTo_lights {i d next now} {w : World T}
    (h : (changePhaseTo m prog i d next now w).2 = .ok) :
    ∃ l1 l2, Clears m (statesOf d (w.ctl i).current) w.lights l1 ∧ Clears m (statesOf d next) l1 l2 ∧
      Adds m (statesOf d next) l2 (changePhaseTo m prog i d next now w).1.lights := by
  have hcur : ((if next = d.begin then notifyObservers prog i now w.ctl else w.ctl) i).current = (w.ctl i).current := by
    split
    · simp only [notifyObservers]; split
      · split <;> rfl
      · rfl
    · rfl
  obtain ⟨h1, h2⟩ := withLights_ok h
  have h2' : changePhaseTo m prog i d next now w = _ := h2
  rw [h2'] at h ⊢
  simp only [hcur] at h1 h ⊢
  refine ⟨(onPhase (Phase.clearStates m) (d.phase? (w.ctl i).current) w.lights).1, ?_⟩
  have c1 : Clears m (statesOf d (w.ctl i).current) w.lights
      (onPhase (Phase.clearStates m) (d.phase? (w.ctl i).current) w.lights).1 := by
    simp only [statesOf]
    cases hp : d.phase? (w.ctl i).current with
    | none => exact clears_nil _
    | some p => rw [hp] at h1; exact clears_each h1
  generalize (onPhase (Phase.clearStates m) (d.phase? (w.ctl i).current) w.lights).1 = l1 at c1 h
  unfold enterPhase at h ⊢
  dsimp only at h ⊢
  revert h
  split
  · intro h; cases h
  · intro h
    obtain ⟨h3, h4⟩ := withLights_ok h
    rw [h4]
    dsimp only at h3 ⊢
    simp only [statesOf]
    cases hp : d.phase? next with
    | none => exact ⟨l1, c1, clears_nil _, adds_nil _⟩
    | some p =>
      rw [hp] at h3
      obtain ⟨h5, h6⟩ := andThen_ok (f := Phase.clearStates m p) (g := each (SignalState.evaluate m) p.states) h3
      refine ⟨_, c1, clears_each h5, ?_⟩
      rw [show onPhase (Phase.evaluate m) (some p) l1 = _ from h6]
      exact adds_each (h6 ▸ h3)

end Verif.Signal
