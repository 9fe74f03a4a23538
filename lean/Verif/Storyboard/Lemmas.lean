import Verif.Storyboard.Spec
import Mathlib.Data.List.Nodup
/-
Helper lemmas: reasoning rules for the dispatch loop, frame lemmas, basic facts about logs.
-/
namespace Verif.Storyboard

/-! ### Rules for `dispatch` and `evaluate` -/

/-- Invariant rule for the dispatch loop: `I s n w` must hold whenever the loop is at state `s`
with execution count `n`, `Q` is established at each `return`. -/
theorem dispatch_rule (h : Hooks) (I : St → Nat → World → Prop) (Q : World → Prop)
    (hret : ∀ n w, I .standby n w → (h.startTrigger w).1 = false → Q (h.startTrigger w).2)
    (hveto : ∀ n w, I .standby n w → (h.startTrigger w).1 = true →
      h.veto ((h.startTrigger w).2.goto h.ref .start) = true →
      Q (((h.startTrigger w).2.goto h.ref .start).goto h.ref .standby))
    (hgo : ∀ n w, I .standby n w → (h.startTrigger w).1 = true →
      h.veto ((h.startTrigger w).2.goto h.ref .start) = false →
      I .start n ((h.startTrigger w).2.goto h.ref .start))
    (hstart : ∀ n w, I .start n w →
      I .running (n + 1) (((h.start w).goto h.ref .running).setCnt h.ref (n + 1)))
    (hend : ∀ n w, I .running n w → h.accomplished (h.run w) = true →
      I .end n ((h.run w).goto h.ref .end))
    (hrun : ∀ n w, I .running n w → h.accomplished (h.run w) = false → Q (h.run w))
    (hagain : ∀ n w, I .end n w → n < h.max → I .standby n (w.goto h.ref .standby))
    (hdone : ∀ n w, I .end n w → ¬ n < h.max → I .complete n (w.goto h.ref .complete))
    (hcomplete : ∀ n w, I .complete n w → Q w)
    (hskip : ∀ n w, I .skip n w → Q w)
    (hstop : ∀ n w, I .stop n w →
      I .complete n ((if h.accomplished w then w else h.stop w).goto h.ref .complete)) :
    ∀ s n w, I s n w → Q (dispatch h s n w) := by
  intro s n w hI
  fun_induction dispatch h s n w with
  | case1 n w w1 w2 hv ht =>
    have e1 : w1 = (h.startTrigger w).2 := by rw [ht]
    have e2 : (h.startTrigger w).1 = true := by rw [ht]
    subst e1
    exact hveto n w hI e2 hv
  | case2 n w w1 w2 hv ht ih =>
    have e1 : w1 = (h.startTrigger w).2 := by rw [ht]
    have e2 : (h.startTrigger w).1 = true := by rw [ht]
    subst e1
    exact ih (hgo n w hI e2 (by simpa using hv))
  | case3 n w t w1 ht hv =>
    have e1 : w1 = (h.startTrigger w).2 := by rw [ht]
    have e2 : (h.startTrigger w).1 = false := by rw [ht]; simpa using hv
    subst e1
    exact hret n w hI e2
  | case4 n w w1 w2 w3 ih => exact ih (hstart n w hI)
  | case5 n w w1 hacc ih => exact ih (hend n w hI hacc)
  | case6 n w w1 hacc => exact hrun n w hI (by simpa using hacc)
  | case7 n w hlt ih => exact ih (hagain n w hI hlt)
  | case8 n w hlt ih => exact ih (hdone n w hI hlt)
  | case9 n w => exact hcomplete n w hI
  | case10 n w => exact hskip n w hI
  | case11 n w w1 ih => exact ih (hstop n w hI)

/-- A predicate stable under every step of an element is preserved by its evaluation. -/
theorem evaluate_pres (h : Hooks) (P : World → Prop)
    (hvis : ∀ w, P w → P (w.emit (.visit h.ref)))
    (hstopT : ∀ w, P w → P (h.stopTrigger w).2)
    (hstartT : ∀ w, P w → P (h.startTrigger w).2)
    (hgoto : ∀ w s, P w → P (w.goto h.ref s))
    (hcnt : ∀ w n, P w → P (w.setCnt h.ref n))
    (hstart : ∀ w, P w → P (h.start w))
    (hrun : ∀ w, P w → P (h.run w))
    (hstop : ∀ w, P w → P (h.stop w)) :
    ∀ w, P w → P (evaluate h w) := by
  have hd : ∀ s n w, P w → P (dispatch h s n w) := by
    apply dispatch_rule h (fun _ _ w => P w) P
    · intro n w hw _; exact hstartT _ hw
    · intro n w hw _ _; exact hgoto _ _ (hgoto _ _ (hstartT _ hw))
    · intro n w hw _ _; exact hgoto _ _ (hstartT _ hw)
    · intro n w hw; exact hcnt _ _ (hgoto _ _ (hstart _ hw))
    · intro n w hw _; exact hgoto _ _ (hrun _ hw)
    · intro n w hw _; exact hrun _ hw
    · intro n w hw _; exact hgoto _ _ hw
    · intro n w hw _; exact hgoto _ _ hw
    · intro n w hw; exact hw
    · intro n w hw; exact hw
    · intro n w hw
      split
      · exact hgoto _ _ hw
      · exact hgoto _ _ (hstop _ hw)
  intro w hw
  unfold evaluate
  apply hd
  have := hstopT _ (hvis _ hw)
  split
  · unfold World.override; split
    · exact hgoto _ _ this
    · exact this
  · exact this

theorem foldl_pres {α : Type} (P : World → Prop) (f : World → α → World) (l : List α)
    (hf : ∀ w, ∀ x ∈ l, P w → P (f w x)) : ∀ w, P w → P (l.foldl f w) := by
  induction l with
  | nil => intro w hw; exact hw
  | cons x l ih =>
    intro w hw
    exact ih (fun w y hy => hf w y (List.mem_cons_of_mem _ hy)) _ (hf w x List.mem_cons_self hw)

/-! ### Projections -/

@[simp] theorem goto_st_self (w : World) (r : Ref) (s : St) : (w.goto r s).st r = s := by
  simp [World.goto]
theorem goto_st_ne (w : World) {r r' : Ref} (s : St) (h : r' ≠ r) :
    (w.goto r s).st r' = w.st r' := by simp [World.goto, h]
theorem goto_st (w : World) (r r' : Ref) (s : St) :
    (w.goto r s).st r' = if r' = r then s else w.st r' := rfl
@[simp] theorem goto_cnt (w : World) (r : Ref) (s : St) : (w.goto r s).cnt = w.cnt := rfl
@[simp] theorem goto_ovr (w : World) (r : Ref) (s : St) : (w.goto r s).ovr = w.ovr := rfl
@[simp] theorem goto_log (w : World) (r : Ref) (s : St) :
    (w.goto r s).log = .trans r (w.st r) s :: w.log := rfl
@[simp] theorem emit_st (w : World) (e : Entry) : (w.emit e).st = w.st := rfl
@[simp] theorem emit_cnt (w : World) (e : Entry) : (w.emit e).cnt = w.cnt := rfl
@[simp] theorem emit_ovr (w : World) (e : Entry) : (w.emit e).ovr = w.ovr := rfl
@[simp] theorem emit_log (w : World) (e : Entry) : (w.emit e).log = e :: w.log := rfl
@[simp] theorem setCnt_st (w : World) (r : Ref) (n : Nat) : (w.setCnt r n).st = w.st := rfl
@[simp] theorem setCnt_ovr (w : World) (r : Ref) (n : Nat) : (w.setCnt r n).ovr = w.ovr := rfl
@[simp] theorem setCnt_log (w : World) (r : Ref) (n : Nat) : (w.setCnt r n).log = w.log := rfl
@[simp] theorem setCnt_cnt_self (w : World) (r : Ref) (n : Nat) : (w.setCnt r n).cnt r = n := by
  simp [World.setCnt]
theorem setCnt_cnt_ne (w : World) {r r' : Ref} (n : Nat) (h : r' ≠ r) :
    (w.setCnt r n).cnt r' = w.cnt r' := by simp [World.setCnt, h]

theorem override_st (w : World) (r r' : Ref) :
    (w.override r).st r' =
      if r' = r ∧ w.st r ≠ .standby then .stop else w.st r' := by
  unfold World.override
  by_cases h : r' = r
  · subst h
    by_cases h1 : w.st r' = .standby <;> by_cases h2 : w.st r' = .stop <;>
      simp_all
  · split <;> simp [h, goto_st_ne]
@[simp] theorem override_cnt (w : World) (r : Ref) : (w.override r).cnt = w.cnt := by
  unfold World.override; split <;> rfl
@[simp] theorem override_ovr (w : World) (r : Ref) : (w.override r).ovr = w.ovr := by
  unfold World.override; split <;> rfl

/-! ### Footprints -/

/-- The element a log entry is about lies in `T`. -/
def Entry.within (T : Ref → Prop) : Entry → Prop
  | .trans r _ _ => T r
  | .startAction r => T r
  | .runAction r => T r
  | .startTrigger r => T r
  | .stopTrigger r => T r
  | .visit r => T r
  | .frame => False

/-- From `w` to `w'` only elements in `T` have been touched. -/
structure Only (T : Ref → Prop) (w w' : World) : Prop where
  st : ∀ r, ¬ T r → w'.st r = w.st r
  cnt : ∀ r, ¬ T r → w'.cnt r = w.cnt r
  ovr : ∀ r, ¬ T r → w'.ovr r = w.ovr r
  log : ∃ d, w'.log = d ++ w.log ∧ ∀ x ∈ d, x.within T

theorem Entry.within.mono {T U : Ref → Prop} (h : ∀ r, T r → U r) {x : Entry}
    (hx : x.within T) : x.within U := by
  cases x <;> first | exact h _ hx | exact hx

theorem Only.refl (T : Ref → Prop) (w : World) : Only T w w :=
  ⟨fun _ _ => rfl, fun _ _ => rfl, fun _ _ => rfl, [], rfl, by simp⟩

theorem Only.trans {T : Ref → Prop} {w w' w'' : World} (h : Only T w w') (h' : Only T w' w'') :
    Only T w w'' := by
  obtain ⟨d, hd, hT⟩ := h.log
  obtain ⟨d', hd', hT'⟩ := h'.log
  refine ⟨fun r hr => (h'.st r hr).trans (h.st r hr), fun r hr => (h'.cnt r hr).trans (h.cnt r hr),
    fun r hr => (h'.ovr r hr).trans (h.ovr r hr), d' ++ d, by simp [hd, hd'], ?_⟩
  intro x hx
  rcases List.mem_append.1 hx with hx | hx
  · exact hT' x hx
  · exact hT x hx

theorem Only.mono {T U : Ref → Prop} (hTU : ∀ r, T r → U r) {w w' : World} (h : Only T w w') :
    Only U w w' := by
  obtain ⟨d, hd, hT⟩ := h.log
  exact ⟨fun r hr => h.st r (fun t => hr (hTU r t)), fun r hr => h.cnt r (fun t => hr (hTU r t)),
    fun r hr => h.ovr r (fun t => hr (hTU r t)), d, hd, fun x hx => (hT x hx).mono hTU⟩

theorem only_goto {T : Ref → Prop} (w : World) {r : Ref} (s : St) (h : T r) :
    Only T w (w.goto r s) := by
  refine ⟨fun r' hr' => ?_, fun _ _ => rfl, fun _ _ => rfl, [.trans r (w.st r) s], rfl, ?_⟩
  · rw [goto_st_ne]; rintro rfl; exact hr' h
  · simpa [Entry.within] using h

theorem only_setCnt {T : Ref → Prop} (w : World) {r : Ref} (n : Nat) (h : T r) :
    Only T w (w.setCnt r n) := by
  refine ⟨fun _ _ => rfl, fun r' hr' => ?_, fun _ _ => rfl, [], rfl, by simp⟩
  rw [setCnt_cnt_ne]; rintro rfl; exact hr' h

theorem only_emit {T : Ref → Prop} (w : World) {x : Entry} (h : x.within T) :
    Only T w (w.emit x) :=
  ⟨fun _ _ => rfl, fun _ _ => rfl, fun _ _ => rfl, [x], rfl, by simpa using h⟩

theorem only_override {T : Ref → Prop} (w : World) {r : Ref} (h : T r) :
    Only T w (w.override r) := by
  unfold World.override; split
  · exact only_goto w _ h
  · exact Only.refl _ _

theorem only_foldl {α : Type} {T : Ref → Prop} (f : World → α → World) (l : List α)
    (hf : ∀ w, ∀ x ∈ l, Only T w (f w x)) (w : World) : Only T w (l.foldl f w) :=
  foldl_pres (Only T w) f l (fun w' x hx h => h.trans (hf w' x hx)) w (Only.refl _ _)

theorem only_evaluate {T : Ref → Prop} (h : Hooks) (hr : T h.ref)
    (hstopT : ∀ w, Only T w (h.stopTrigger w).2)
    (hstartT : ∀ w, Only T w (h.startTrigger w).2)
    (hstart : ∀ w, Only T w (h.start w))
    (hrun : ∀ w, Only T w (h.run w))
    (hstop : ∀ w, Only T w (h.stop w)) (w : World) : Only T w (evaluate h w) := by
  apply evaluate_pres h (Only T w)
  · intro w' h'; exact h'.trans (only_emit _ hr)
  · intro w' h'; exact h'.trans (hstopT _)
  · intro w' h'; exact h'.trans (hstartT _)
  · intro w' s h'; exact h'.trans (only_goto _ _ hr)
  · intro w' n h'; exact h'.trans (only_setCnt _ _ hr)
  · intro w' h'; exact h'.trans (hstart _)
  · intro w' h'; exact h'.trans (hrun _)
  · intro w' h'; exact h'.trans (hstop _)
  · exact Only.refl _ _

/-! Footprint of each kind of element. -/

def Event.owns (sib : List Event) (e : Event) (r : Ref) : Prop :=
  r = e.ref ∨ (∃ s ∈ sib, r = s.ref) ∨ ∃ a ∈ e.actions, r = actionRef a
def Maneuver.owns (m : Maneuver) (r : Ref) : Prop :=
  r = m.ref ∨ ∃ e ∈ m.events, e.owns m.events r
def Group.owns (g : Group) (r : Ref) : Prop := r = g.ref ∨ ∃ m ∈ g.maneuvers, m.owns r
def Act.owns (a : Act) (r : Ref) : Prop := r = a.ref ∨ ∃ g ∈ a.groups, g.owns r
def Story.owns (s : Story) (r : Ref) : Prop := r = s.ref ∨ ∃ a ∈ s.acts, a.owns r
def Board.owns (b : Board) (r : Ref) : Prop :=
  r = b.ref ∨ r = b.initRef ∨ ∃ s ∈ b.stories, s.owns r

theorem only_forceStart {T : Ref → Prop} (cs : List Ref) (h : ∀ c ∈ cs, T c) (w : World) :
    Only T w (forceStart cs w) :=
  only_foldl _ cs (fun w c hc => only_goto w _ (h c hc)) w

theorem only_overrideEvents {T : Ref → Prop} (es : List Event) (h : ∀ e ∈ es, T e.ref)
    (w : World) : Only T w (overrideEvents es w) :=
  only_foldl _ es (fun w e he => only_override w (h e he)) w

theorem only_overrideThen {T : Ref → Prop} (r : Ref) (ev : World → World) (hr : T r)
    (hev : ∀ w, Only T w (ev w)) (w : World) : Only T w (overrideThen r ev w) :=
  (only_override w hr).trans (hev _)

theorem only_evalAction (env : Env) (a : Nat) (w : World) :
    Only (· = actionRef a) w (evalAction env a w) := by
  apply only_evaluate (T := (· = actionRef a)) (actionHooks env a) rfl
  · intro w; exact Only.refl _ _
  · intro w; exact Only.refl _ _
  · intro w; exact only_emit _ rfl
  · intro w; exact only_emit _ rfl
  · intro w
    simp only [actionHooks]
    split
    · exact ⟨fun r hr => if_neg hr, fun _ _ => rfl, fun _ _ => rfl, [], rfl, by simp⟩
    · exact ⟨fun _ _ => rfl, fun _ _ => rfl, fun r hr => if_neg hr, [], rfl, by simp⟩

theorem only_evalEvent (env : Env) (sib : List Event) (e : Event) (w : World) :
    Only (e.owns sib) w (evalEvent env sib e w) := by
  have hact : ∀ a ∈ e.actions, ∀ w, Only (e.owns sib) w (evalAction env a w) := fun a ha w =>
    (only_evalAction env a w).mono (by rintro r rfl; exact Or.inr (Or.inr ⟨a, ha, rfl⟩))
  apply only_evaluate (eventHooks env sib e) (Or.inl rfl)
  · intro w; exact Only.refl _ _
  · intro w; exact only_emit _ (Or.inl rfl)
  · intro w
    simp only [eventHooks]
    refine Only.trans ?_ (only_forceStart _ ?_ _)
    · split
      · exact only_overrideEvents _ (fun s hs => Or.inr (Or.inl ⟨s, hs, rfl⟩)) _
      · exact Only.refl _ _
    · intro c hc
      obtain ⟨a, ha, rfl⟩ := List.mem_map.1 hc
      exact Or.inr (Or.inr ⟨a, ha, rfl⟩)
  · intro w; exact only_foldl _ _ (fun w a ha => hact a ha w) w
  · intro w
    exact only_foldl _ _ (fun w a ha =>
      only_overrideThen _ _ (Or.inr (Or.inr ⟨a, ha, rfl⟩)) (hact a ha) w) w

theorem only_evalManeuver (env : Env) (m : Maneuver) (w : World) :
    Only m.owns w (evalManeuver env m w) := by
  have hev : ∀ e ∈ m.events, ∀ w, Only m.owns w (evalEvent env m.events e w) := fun e he w =>
    (only_evalEvent env m.events e w).mono (fun r hr => Or.inr ⟨e, he, hr⟩)
  apply only_evaluate (maneuverHooks env m) (Or.inl rfl)
  · intro w; exact Only.refl _ _
  · intro w; exact Only.refl _ _
  · intro w; exact Only.refl _ _
  · intro w; exact only_foldl _ _ (fun w e he => hev e he w) w
  · intro w
    exact only_foldl _ _ (fun w e he =>
      only_overrideThen _ _ (Or.inr ⟨e, he, Or.inl rfl⟩) (hev e he) w) w

theorem only_evalGroup (env : Env) (g : Group) (w : World) :
    Only g.owns w (evalGroup env g w) := by
  have hm : ∀ m ∈ g.maneuvers, ∀ w, Only g.owns w (evalManeuver env m w) := fun m hm w =>
    (only_evalManeuver env m w).mono (fun r hr => Or.inr ⟨m, hm, hr⟩)
  apply only_evaluate (groupHooks env g) (Or.inl rfl)
  · intro w; exact Only.refl _ _
  · intro w; exact Only.refl _ _
  · intro w
    refine only_forceStart _ ?_ _
    intro c hc
    obtain ⟨m, hm, rfl⟩ := List.mem_map.1 hc
    exact Or.inr ⟨m, hm, Or.inl rfl⟩
  · intro w; exact only_foldl _ _ (fun w m h => hm m h w) w
  · intro w
    exact only_foldl _ _ (fun w m h =>
      only_overrideThen _ _ (Or.inr ⟨m, h, Or.inl rfl⟩) (hm m h) w) w

theorem only_evalAct (env : Env) (a : Act) (w : World) : Only a.owns w (evalAct env a w) := by
  have hg : ∀ g ∈ a.groups, ∀ w, Only a.owns w (evalGroup env g w) := fun g hg w =>
    (only_evalGroup env g w).mono (fun r hr => Or.inr ⟨g, hg, hr⟩)
  apply only_evaluate (actHooks env a) (Or.inl rfl)
  · intro w; exact only_emit _ (Or.inl rfl)
  · intro w; exact only_emit _ (Or.inl rfl)
  · intro w; exact Only.refl _ _
  · intro w; exact only_foldl _ _ (fun w g h => hg g h w) w
  · intro w
    exact only_foldl _ _ (fun w g h =>
      only_overrideThen _ _ (Or.inr ⟨g, h, Or.inl rfl⟩) (hg g h) w) w

theorem only_evalStory (env : Env) (s : Story) (w : World) :
    Only s.owns w (evalStory env s w) := by
  have ha : ∀ a ∈ s.acts, ∀ w, Only s.owns w (evalAct env a w) := fun a ha w =>
    (only_evalAct env a w).mono (fun r hr => Or.inr ⟨a, ha, hr⟩)
  apply only_evaluate (storyHooks env s) (Or.inl rfl)
  · intro w; exact Only.refl _ _
  · intro w; exact Only.refl _ _
  · intro w; exact Only.refl _ _
  · intro w; exact only_foldl _ _ (fun w a h => ha a h w) w
  · intro w
    exact only_foldl _ _ (fun w a h =>
      only_overrideThen _ _ (Or.inr ⟨a, h, Or.inl rfl⟩) (ha a h) w) w

theorem only_evalInit (env : Env) (b : Board) (w : World) :
    Only (· = b.initRef) w (evalInit env b w) := by
  apply only_evaluate (T := (· = b.initRef)) (initHooks env b) rfl
  · intro w; exact Only.refl _ _
  · intro w; exact Only.refl _ _
  · intro w; exact only_emit _ rfl
  · intro w; exact only_emit _ rfl
  · intro w; exact Only.refl _ _

end Verif.Storyboard
