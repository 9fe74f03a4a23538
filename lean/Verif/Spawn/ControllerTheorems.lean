import Mathlib.Algebra.Order.Ring.Rat
import Verif.Spawn.Controller
/-
C254: what is shown of the ends of the road at which entities are removed.
-/
namespace Verif.Spawn

/-! ### Specification -/

/-- What is to be shown of the end of a lanelet: a cylinder two wide and the name of the lanelet, both there. -/
def EndMarkers {K P : Type} [Add K] [One K] (e : Nat × P) : List (SinkMarker K P) :=
  [⟨"traffic_controller/traffic_sink/" ++ ("auto_" ++ toString e.1), 0, 3, e.2, 1 + 1, ""⟩,
   ⟨"traffic_controller/traffic_sink/" ++ ("auto_" ++ toString e.1), 1, 9, e.2, 1 + 1, "auto_" ++ toString e.1⟩]

/-- What is to be shown by a controller: the ends of the road, if entities are removed there. -/
def ToShow {K P : Type} [Add K] [One K] (types : List Nat) (ends : List (Nat × P)) : List (SinkMarker K P) :=
  if types = [] then [] else ends.flatMap EndMarkers

/-- No controller is made. -/
def Same {P : Type} (es : List (Event P)) : Prop := ∀ e ∈ es, ∀ t p, e ≠ .start t p

/-! ### Lemmas -/

set_option linter.unusedSectionVars false
variable {K P : Type} [Add K] [One K]

theorem append_all (l : List (Module K P)) (r : List (SinkMarker K P)) :
    l.foldl Module.append r = r ++ l.flatMap (Module.append []) := by
  induction l generalizing r with
  | nil => simp
  | cons a l ih =>
    rw [List.foldl_cons, ih, List.flatMap_cons]
    cases a <;> simp [Module.append]

theorem auto_eq (types : List Nat) (ends : List (Nat × P)) :
    (autoSinks types ends : List (Module K P)) = if types = [] then [] else ends.map fun e => .sink ⟨1, e.2, "auto_" ++ toString e.1⟩ := by
  have f : ∀ (l : List (Nat × P)) (r : List (Module K P)),
      l.foldl (fun r e => r ++ [.sink ⟨1, e.2, "auto_" ++ toString e.1⟩]) r = r ++ l.map fun e => .sink ⟨1, e.2, "auto_" ++ toString e.1⟩ := by
    intro l
    induction l with
    | nil => simp
    | cons a l ih => intro r; rw [List.foldl_cons, ih]; simp
  unfold autoSinks
  rw [f]
  cases types <;> simp

theorem auto_markers (types : List Nat) (ends : List (Nat × P)) :
    (autoSinks types ends : List (Module K P)).flatMap (Module.append []) = ToShow types ends := by
  rw [auto_eq]
  unfold ToShow
  split
  · rfl
  · rw [List.flatMap_map]; rfl

theorem kept (m : List (SinkMarker K P)) : ∀ (es : List (Event P)) (s : Shown K P), s.static = some m → (s.run es).static = some m := by
  intro es
  induction es with
  | nil => intro s h; exact h
  | cons e es ih =>
    intro s h
    apply ih
    cases e <;> simp [Shown.step, makeMarkers, h]

theorem unchanged (m : List (SinkMarker K P)) : ∀ (es : List (Event P)), Same es → ∀ (s : Shown K P),
    s.modules.flatMap (Module.append []) = m → (s.static = none ∨ s.static = some m) →
    (makeMarkers (s.run es)).2 = m := by
  intro es
  induction es with
  | nil =>
    intro _ s hm hs
    rcases hs with h | h
    · simp [Shown.run, makeMarkers, h, append_all, hm]
    · simp [Shown.run, makeMarkers, h]
  | cons e es ih =>
    intro hsame s hm hs
    have ht : Same es := fun x hx => hsame x (List.mem_cons_of_mem _ hx)
    apply ih ht
    · cases e with
      | start t p => exact absurd rfl (hsame _ List.mem_cons_self t p)
      | define => simp [Shown.step, hm, Module.append]
      | ask => rcases hs with h | h <;> simp [Shown.step, makeMarkers, h, hm]
    · cases e with
      | start t p => exact absurd rfl (hsame _ List.mem_cons_self t p)
      | define => exact hs
      | ask => rcases hs with h | h <;> simp [Shown.step, makeMarkers, h, append_all, hm]

theorem unasked : ∀ (es : List (Event P)), .ask ∉ es → ∀ (s : Shown K P), s.static = none → (s.run es).static = none := by
  intro es
  induction es with
  | nil => intro _ s h; exact h
  | cons e es ih =>
    intro hn s h
    rw [List.mem_cons, not_or] at hn
    apply ih hn.2
    cases e with
    | start t p => exact h
    | define => exact h
    | ask => exact absurd rfl hn.1

/-! ### Theorems -/

/-- C254: if the markers were never asked for before the controller was made, then whenever they are asked for and whatever sources are
defined, they show exactly the ends of the road. Missing: controllers made after markers were asked for, for which this is false. -/
theorem C254_first_partial (types : List Nat) (ends : List (Nat × P)) (before es : List (Event P)) (hb : .ask ∉ before) (h : Same es) :
    (makeMarkers (Shown.run ({} : Shown K P) (before ++ .start types ends :: es))).2 = ToShow types ends := by
  have e : Shown.run ({} : Shown K P) (before ++ .start types ends :: es) =
      Shown.run (Shown.step (Shown.run {} before) (.start types ends)) es := by
    simp [Shown.run, List.foldl_append]
  rw [e]
  exact unchanged _ es h _ (auto_markers types ends) (Or.inl (unasked before hb {} rfl))

/-- C254: once the markers have been asked for, the same are shown for as long as the process lasts, whatever controllers are made. -/
theorem C254_stale (s : Shown K P) (es : List (Event P)) :
    (makeMarkers ((makeMarkers s).1.run es)).2 = (makeMarkers s).2 := by
  have h : (makeMarkers s).1.static = some (makeMarkers s).2 := by
    unfold makeMarkers
    cases h : s.static <;> simp [h]
  have k := kept _ es _ h
  have g : ∀ (x : Shown K P) m, x.static = some m → (makeMarkers x).2 = m := by
    intro x m hx
    simp [makeMarkers, hx]
  exact g _ _ k

/-- C254 is violated: for any first map and any second one to be shown differently, the controller of the second shows the ends of the road
of the first. -/
theorem C254_second_violated (t t' : List Nat) (a b : List (Nat × P)) (h : (ToShow t a : List (SinkMarker K P)) ≠ ToShow t' b) :
    (makeMarkers (Shown.run ({} : Shown K P) [.start t a, .ask, .start t' b])).2 ≠ ToShow t' b := by
  have e : (makeMarkers (Shown.run ({} : Shown K P) [.start t a, .ask, .start t' b])).2 = ToShow t a := by
    have := C254_stale (Shown.step ({} : Shown K P) (.start t a)) [.start t' b]
    refine Eq.trans this ?_
    exact C254_first_partial t a [] [] (by simp) (by intro e he; cases he)
  rw [e]
  exact h

/-- Cases that meet the hypotheses: sources are defined and markers asked for; two maps that differ. -/
example : (.ask : Event Rat) ∉ ([.start [1] [(2, 3)], .define] : List (Event Rat)) := by simp

example : Same ([.ask, .define, .ask] : List (Event Rat)) := by
  intro e he t p
  simp at he
  rcases he with rfl | rfl | rfl <;> simp

example : (ToShow [1] [(34, (5 : Rat))] : List (SinkMarker Rat Rat)) ≠ ToShow [1] [(34, 6)] := by
  simp [ToShow, EndMarkers]

example : (ToShow [] [(34, (5 : Rat))] : List (SinkMarker Rat Rat)) ≠ ToShow [1] [(34, 5)] := by
  simp [ToShow, EndMarkers]

end Verif.Spawn
