import Verif.Storyboard.InvBoard
/-
C07: if no start trigger fires below an element that is being stopped, everything below a complete
element is at rest.
-/
namespace Verif.Storyboard

/-- Not started, or finished. -/
def Calm (r : Ref) (w : World) : Prop := w.st r = .standby ∨ w.st r = .complete

/-- The heap agrees with the log (actions are not needed here). -/
def Coh (w : World) : Prop := ∀ r, r.kind ≠ .action → w.st r = lastState r w.log

theorem Coh.goto {w : World} (h : Coh w) (r : Ref) (s : St) : Coh (w.goto r s) := by
  intro r' hk
  rw [goto_st, goto_log, lastState, h r' hk]
  by_cases hr : r' = r
  · simp [hr]
  · simp [hr, Ne.symm hr]

theorem Coh.setCnt {w : World} (h : Coh w) (r : Ref) (n : Nat) : Coh (w.setCnt r n) := h

theorem Coh.emit {w : World} (h : Coh w) {x : Entry} (hx : ∀ r s d, x ≠ .trans r s d) :
    Coh (w.emit x) := by
  intro r hk
  have : lastState r (w.emit x).log = lastState r w.log := by
    cases x with
    | trans r s d => exact absurd rfl (hx r s d)
    | _ => rfl
  rw [this]; exact h r hk

theorem Coh.override {w : World} (h : Coh w) (r : Ref) : Coh (w.override r) := by
  unfold World.override; split
  · exact h.goto _ _
  · exact h

theorem coh_evalAction (env : Env) (a : Nat) (w : World) (h : Coh w) : Coh (evalAction env a w) := by
  apply evaluate_pres (actionHooks env a) Coh
  · intro w h; exact h.emit (by simp)
  · intro w h; exact h
  · intro w h; exact h
  · intro w s h; exact h.goto _ _
  · intro w n h; exact h
  · intro w h; exact h.emit (by simp)
  · intro w h; exact h.emit (by simp)
  · intro w h
    simp only [actionHooks]
    split
    · intro r hk
      have : r ≠ actionRef a := fun hr => hk (by rw [hr]; rfl)
      simp only [if_neg this]; exact h r hk
    · exact h
  · exact h

theorem coh_forceStart (cs : List Ref) (w : World) (h : Coh w) : Coh (forceStart cs w) :=
  foldl_pres Coh _ _ (fun _ _ _ h => h.goto _ _) w h

theorem coh_evalEvent (env : Env) (sib : List Event) (e : Event) (w : World) (h : Coh w) :
    Coh (evalEvent env sib e w) := by
  apply evaluate_pres (eventHooks env sib e) Coh
  · intro w h; exact h.emit (by simp)
  · intro w h; exact h
  · intro w h; exact h.emit (by simp)
  · intro w s h; exact h.goto _ _
  · intro w n h; exact h
  · intro w h
    simp only [eventHooks]
    apply coh_forceStart
    split
    · exact foldl_pres Coh _ _ (fun _ _ _ h => h.override _) w h
    · exact h
  · intro w h; exact foldl_pres Coh _ _ (fun _ _ _ h => coh_evalAction env _ _ h) w h
  · intro w h
    exact foldl_pres Coh _ _ (fun _ _ _ h => coh_evalAction env _ _ (h.override _)) w h
  · exact h

/-! ### Generic rule -/

/-- Relation between an element `p` and its children `cs` between two evaluations. `auto` means that
the children have no start trigger of their own. -/
structure Pair (auto : Prop) (p : Ref) (cs : List Ref) (w : World) : Prop where
  standby : w.st p = .standby → ∀ c ∈ cs, Calm c w
  complete : w.st p = .complete → ∀ c ∈ cs, Calm c w ∧ (auto → w.st c = .complete)
  busy : auto → w.st p = .running ∨ w.st p = .stop → ∀ c ∈ cs, w.st c ≠ .standby
  rest : w.st p ≠ .end ∧ w.st p ≠ .skip ∧ (auto → w.st p ≠ .start)

theorem Pair.congr {auto : Prop} {p : Ref} {cs : List Ref} {w w' : World} (h : Pair auto p cs w)
    (hp : w'.st p = w.st p) (hc : ∀ c ∈ cs, w'.st c = w.st c) : Pair auto p cs w' := by
  refine ⟨fun hs c hm => ?_, fun hs c hm => ?_, fun ha hs c hm => ?_, ?_⟩
  · rw [hp] at hs; simp only [Calm, hc c hm]; exact h.standby hs c hm
  · rw [hp] at hs; simp only [Calm, hc c hm]; exact h.complete hs c hm
  · rw [hp] at hs; rw [hc c hm]; exact h.busy ha hs c hm
  · rw [hp]; exact h.rest

theorem Pair.override {auto : Prop} {p : Ref} {cs : List Ref} {w : World} (h : Pair auto p cs w)
    (hp : p ∉ cs) : Pair auto p cs (w.override p) := by
  have hst := override_st w p
  have hc : ∀ c ∈ cs, (w.override p).st c = w.st c := by
    intro c hm; rw [hst, if_neg]; rintro ⟨rfl, -⟩; exact hp hm
  have hps : w.st p = .standby ∨ (w.override p).st p = .stop := by
    by_cases h : w.st p = .standby
    · exact Or.inl h
    · right; rw [hst]; simp [h]
  rcases hps with hps | hps
  · refine h.congr ?_ hc
    rw [hst]; simp [hps]
  · refine ⟨fun hs => absurd (hps.symm.trans hs) (by decide),
      fun hs => absurd (hps.symm.trans hs) (by decide), fun ha _ c hm => ?_, by simp [hps]⟩
    rw [hc c hm]
    have hne : w.st p ≠ .standby := by
      intro hs; rw [hst] at hps; simp [hs] at hps
    have hr := h.rest
    cases h' : w.st p
    · exact absurd h' hne
    · exact absurd h' (hr.2.2 ha)
    · exact h.busy ha (Or.inl h') c hm
    · exact absurd h' hr.1
    · rw [(h.complete h' c hm).2 ha]; decide
    · exact absurd h' hr.2.1
    · exact h.busy ha (Or.inr h') c hm

theorem composite_calm (h : Hooks) (cs : List Ref) (auto : Prop) (J : World → Prop)
    (hp : h.ref ∉ cs)
    (hvis : ∀ w, J w → J (w.emit (.visit h.ref)))
    (hstopT : ∀ w, J w → J (h.stopTrigger w).2 ∧ (h.stopTrigger w).2.st = w.st)
    (hstartT : ∀ w, J w → J (h.startTrigger w).2 ∧ (h.startTrigger w).2.st = w.st)
    (hveto : ∀ w, h.veto w = false)
    (hgoto : ∀ w s, J w → J (w.goto h.ref s))
    (hcnt : ∀ w n, J w → J (w.setCnt h.ref n))
    (hstart : ∀ w, h.start w = w)
    (hrun : ∀ w, J w → J (h.run w) ∧ (h.run w).st h.ref = w.st h.ref ∧
      (auto → ∀ c ∈ cs, (h.run w).st c ≠ .standby))
    (hacc : ∀ w, h.accomplished w = true → ∀ c ∈ cs, w.st c = .complete)
    (hstop : ∀ w, J w → w.st h.ref = .stop → (auto → ∀ c ∈ cs, w.st c ≠ .standby) →
      J (h.stop w) ∧ ∀ c ∈ cs, Calm c (h.stop w) ∧ (auto → (h.stop w).st c = .complete))
    {w : World} (hJ : J w) (hP : Pair auto h.ref cs w) :
    J (evaluate h w) ∧ Pair auto h.ref cs (evaluate h w) := by
  have hne : ∀ c ∈ cs, c ≠ h.ref := fun c hm hc => hp (hc ▸ hm)
  have key := dispatch_rule h
    (fun s _ w => J w ∧ w.st h.ref = s ∧ (s = .standby → ∀ c ∈ cs, Calm c w) ∧
      (s = .end → ∀ c ∈ cs, w.st c = .complete) ∧
      (s = .complete → ∀ c ∈ cs, Calm c w ∧ (auto → w.st c = .complete)) ∧
      (s = .stop → auto → ∀ c ∈ cs, w.st c ≠ .standby) ∧ s ≠ .skip)
    (fun w => J w ∧ Pair auto h.ref cs w) ?_ ?_ ?_ ?_ ?_ ?_ ?_ ?_ ?_ ?_ ?_
  · obtain ⟨j1, e1⟩ := hstopT _ (hvis _ hJ)
    have hP1 : Pair auto h.ref cs (h.stopTrigger (w.emit (.visit h.ref))).2 :=
      hP.congr (by rw [e1]; rfl) (fun c _ => by rw [e1]; rfl)
    have hev : evaluate h w = (let w1 := (h.stopTrigger (w.emit (.visit h.ref))).2
        let w := if (h.stopTrigger (w.emit (.visit h.ref))).1 then w1.override h.ref else w1
        dispatch h (w.st h.ref) (w.cnt h.ref) w) := rfl
    rw [hev]
    generalize (h.stopTrigger (w.emit (.visit h.ref))).2 = w1 at j1 hP1
    have hmain : ∀ w2, J w2 → Pair auto h.ref cs w2 →
        J (dispatch h (w2.st h.ref) (w2.cnt h.ref) w2) ∧
        Pair auto h.ref cs (dispatch h (w2.st h.ref) (w2.cnt h.ref) w2) := by
      intro w2 j2 p2
      exact key _ _ _ ⟨j2, rfl, p2.standby, fun he => absurd he p2.rest.1, p2.complete,
        fun hs ha => p2.busy ha (Or.inr hs), p2.rest.2.1⟩
    split
    · refine hmain _ ?_ (hP1.override hp)
      unfold World.override; split
      · exact hgoto _ _ j1
      · exact j1
    · exact hmain _ j1 hP1
  · -- start trigger false
    rintro n w ⟨h1, h2, h3, h4, h5, h6, h7⟩ _
    obtain ⟨j1, e1⟩ := hstartT w h1
    refine ⟨j1, ?_, ?_, ?_, ?_⟩ <;> rw [e1, h2]
    · intro _ c hm; simp only [Calm, e1]; exact h3 rfl c hm
    · intro hs; cases hs
    · intro _ hs; rcases hs with hs | hs <;> cases hs
    · exact ⟨by decide, by decide, fun _ => by decide⟩
  · intro n w _ _ hv; rw [hveto] at hv; cases hv
  · rintro n w ⟨h1, h2, h3, h4, h5, h6, h7⟩ - -
    obtain ⟨j1, e1⟩ := hstartT w h1
    exact ⟨hgoto _ _ j1, by simp, by simp, by simp, by simp, by simp, by simp⟩
  · rintro n w ⟨h1, h2, h3, h4, h5, h6, h7⟩
    rw [hstart]
    exact ⟨hcnt _ _ (hgoto _ _ h1), by simp, by simp, by simp, by simp, by simp, by simp⟩
  · rintro n w ⟨h1, h2, h3, h4, h5, h6, h7⟩ ha
    obtain ⟨j1, e1, -⟩ := hrun w h1
    refine ⟨hgoto _ _ j1, by simp, by simp, fun _ c hm => ?_, by simp, by simp, by simp⟩
    rw [goto_st_ne _ _ (hne c hm)]; exact hacc _ ha c hm
  · rintro n w ⟨h1, h2, h3, h4, h5, h6, h7⟩ -
    obtain ⟨j1, e1, b1⟩ := hrun w h1
    refine ⟨j1, ?_, ?_, ?_, ?_⟩ <;> rw [e1, h2]
    · intro hs; cases hs
    · intro hs; cases hs
    · intro ha _; exact b1 ha
    · exact ⟨by decide, by decide, fun _ => by decide⟩
  · rintro n w ⟨h1, h2, h3, h4, h5, h6, h7⟩ -
    refine ⟨hgoto _ _ h1, by simp, fun _ c hm => ?_, by simp, by simp, by simp, by simp⟩
    right; rw [goto_st_ne _ _ (hne c hm)]; exact h4 rfl c hm
  · rintro n w ⟨h1, h2, h3, h4, h5, h6, h7⟩ -
    refine ⟨hgoto _ _ h1, by simp, by simp, by simp, fun _ c hm => ?_, by simp, by simp⟩
    simp only [Calm]; rw [goto_st_ne _ _ (hne c hm), h4 rfl c hm]
    exact ⟨Or.inr rfl, fun _ => rfl⟩
  · rintro n w ⟨h1, h2, h3, h4, h5, h6, h7⟩
    refine ⟨h1, ?_, ?_, ?_, ?_⟩ <;> rw [h2]
    · intro hs; cases hs
    · intro _; exact h5 rfl
    · intro _ hs; rcases hs with hs | hs <;> cases hs
    · exact ⟨by decide, by decide, fun _ => by decide⟩
  · rintro n w ⟨h1, h2, h3, h4, h5, h6, h7⟩; exact absurd rfl h7
  · rintro n w ⟨h1, h2, h3, h4, h5, h6, h7⟩
    have : J (if h.accomplished w then w else h.stop w) ∧ ∀ c ∈ cs,
        Calm c (if h.accomplished w then w else h.stop w) ∧
        (auto → (if h.accomplished w then w else h.stop w).st c = .complete) := by
      split
      · rename_i ha
        exact ⟨h1, fun c hm => ⟨Or.inr (hacc w ha c hm), fun _ => hacc w ha c hm⟩⟩
      · exact hstop w h1 h2 (h6 rfl)
    refine ⟨hgoto _ _ this.1, by simp, by simp, by simp, fun _ c hm => ?_, by simp, by simp⟩
    simp only [Calm]; rw [goto_st_ne _ _ (hne c hm)]; exact this.2 c hm


/-- Rule for loops over children that need not be distinct. -/
theorem foldl_all {α : Type} (K : World → Prop) (P : α → World → Prop) (f : World → α → World)
    (l : List α) (hf : ∀ w, ∀ x ∈ l, K w → K (f w x) ∧ P x (f w x) ∧ ∀ y ∈ l, P y w → P y (f w x)) :
    ∀ w, K w → K (l.foldl f w) ∧ ∀ x ∈ l, P x (l.foldl f w) := by
  suffices H : ∀ l2 : List α, (∀ x ∈ l2, x ∈ l) → ∀ w, K w →
      K (l2.foldl f w) ∧ (∀ x ∈ l2, P x (l2.foldl f w)) ∧ ∀ y ∈ l, P y w → P y (l2.foldl f w) by
    intro w hK
    have := H l (fun _ h => h) w hK
    exact ⟨this.1, this.2.1⟩
  intro l2
  induction l2 with
  | nil => intro _ w hK; exact ⟨hK, by simp, fun _ _ h => h⟩
  | cons x l2 ih =>
    intro hl w hK
    obtain ⟨k1, p1, q1⟩ := hf w x (hl x List.mem_cons_self) hK
    obtain ⟨k2, p2, q2⟩ := ih (fun y hy => hl y (List.mem_cons_of_mem _ hy)) _ k1
    refine ⟨k2, ?_, fun y hy h => q2 y hy (q1 y hy h)⟩
    intro y hy
    rcases List.mem_cons.1 hy with rfl | hy
    · exact q2 _ (hl _ List.mem_cons_self) p1
    · exact p2 y hy

/-- Stopping an element: it becomes complete. -/
theorem evaluate_stopped (h : Hooks) {w : World} (hs : w.st h.ref = .stop)
    (hT : ∀ w, (h.stopTrigger w).2.st = w.st) :
    ∃ w1, evaluate h w = (if h.accomplished w1 then w1 else h.stop w1).goto h.ref .complete ∧
      w1.st = w.st ∧ (w1 = (h.stopTrigger (w.emit (.visit h.ref))).2 ) := by
  refine ⟨(h.stopTrigger (w.emit (.visit h.ref))).2, ?_, hT _, rfl⟩
  have hst : (h.stopTrigger (w.emit (.visit h.ref))).2.st h.ref = .stop := by rw [hT]; exact hs
  have hov : (h.stopTrigger (w.emit (.visit h.ref))).2.override h.ref =
      (h.stopTrigger (w.emit (.visit h.ref))).2 := by
    unfold World.override; rw [if_neg]; simp [hst]
  have hev : evaluate h w = dispatch h .stop ((h.stopTrigger (w.emit (.visit h.ref))).2.cnt h.ref)
      (h.stopTrigger (w.emit (.visit h.ref))).2 := by
    unfold evaluate
    simp only [hov, ite_self, hst]
  rw [hev, dispatch, dispatch]

section
variable {b : Board}

/-- Stopping an event whose start trigger does not fire. -/
theorem stopEvent_calm (env : Env) (sib : List Event) (e : Event) (w : World)
    (hq : w.st e.ref = .standby →
      env.startTrigger e.ref (.visit e.ref :: w.log) = false) :
    Calm e.ref (overrideThen e.ref (evalEvent env sib e) w) ∧
    ∀ r, r.kind ≠ .action → r ≠ e.ref →
      (overrideThen e.ref (evalEvent env sib e) w).st r = w.st r := by
  by_cases hs : w.st e.ref = .standby
  · have hov : w.override e.ref = w := by unfold World.override; simp [hs]
    have hev : evalEvent env sib e w =
        (w.emit (.visit e.ref)).emit (.startTrigger e.ref) := by
      unfold evalEvent evaluate
      simp only [eventHooks, falsy, Bool.false_eq_true, if_false, emit_st, hs]
      rw [dispatch]
      simp [hq hs]
    unfold overrideThen
    rw [hov, hev]
    exact ⟨Or.inl hs, fun _ _ _ => rfl⟩
  · have hst : (w.override e.ref).st e.ref = .stop := by rw [override_st]; simp [hs]
    obtain ⟨w1, h1, h2, -⟩ := evaluate_stopped (eventHooks env sib e) (w := w.override e.ref) hst
      (fun _ => rfl)
    unfold overrideThen
    have h1' : evalEvent env sib e (w.override e.ref) = _ := h1
    rw [h1']
    refine ⟨Or.inr (goto_st_self _ _ _), fun r hk hr => ?_⟩
    rw [show (eventHooks env sib e).ref = e.ref from rfl, goto_st_ne _ _ hr]
    have ho : Only (fun r => ∃ a ∈ e.actions, r = actionRef a) w1
        (if (eventHooks env sib e).accomplished w1 then w1 else (eventHooks env sib e).stop w1) := by
      split
      · exact Only.refl _ _
      · exact only_foldl _ _ (fun w a ha => only_overrideThen _ _ ⟨a, ha, rfl⟩
          (fun w => (only_evalAction env a w).mono fun r hr => ⟨a, ha, hr⟩) w) w1
    rw [ho.st, h2, override_st, if_neg]
    · rintro ⟨h, -⟩; exact hr h
    · rintro ⟨a, _, rfl⟩; exact hk rfl

/-- No start trigger fires below an element that is in stopTransition. -/
structure Quiet (env : Env) (b : Board) : Prop where
  event : ∀ m ∈ b.maneuvers, ∀ e ∈ m.events, ∀ l, lastState m.ref l = .stop →
    env.startTrigger e.ref l = false
  act : ∀ s ∈ b.stories, ∀ a ∈ s.acts, ∀ l, lastState s.ref l = .stop →
    env.startTrigger a.ref l = false

/-! ### Maneuver -/

def PairM (m : Maneuver) (w : World) : Prop := Pair False m.ref (m.events.map Event.ref) w

/-- Maneuvers other than those in `X`. -/
def PM (b : Board) (X : Maneuver → Prop) (w : World) : Prop :=
  Coh w ∧ ∀ m ∈ b.maneuvers, ¬ X m → PairM m w

theorem PM.goto_self (wf : b.WF) {m : Maneuver} (hm : m ∈ b.maneuvers) {w : World} (s : St)
    (h : PM b (· = m) w) : PM b (· = m) (w.goto m.ref s) := by
  refine ⟨h.1.goto _ _, fun m' hm' hne => ?_⟩
  refine (h.2 m' hm' hne).congr (goto_st_ne _ _ fun h => hne (wf.maneuver_inj hm' hm h)) ?_
  intro c hc
  obtain ⟨e, _, rfl⟩ := List.mem_map.1 hc
  exact goto_st_ne _ _ (ref_ne_of_kind (by simp))

theorem PM.goto_other {X : Maneuver → Prop} {r : Ref} (h1 : r.kind ≠ .maneuver) (h2 : r.kind ≠ .event)
    {w : World} (s : St) (h : PM b X w) : PM b X (w.goto r s) := by
  refine ⟨h.1.goto _ _, fun m' hm' hne => ?_⟩
  refine (h.2 m' hm' hne).congr (goto_st_ne _ _ (ref_ne_of_kind (Ne.symm h1))) ?_
  intro c hc
  obtain ⟨e, _, rfl⟩ := List.mem_map.1 hc
  exact goto_st_ne _ _ (ref_ne_of_kind (Ne.symm h2))

theorem PM.emit {X : Maneuver → Prop} {w : World} (h : PM b X w) {x : Entry}
    (hx : ∀ r s d, x ≠ .trans r s d) : PM b X (w.emit x) :=
  ⟨h.1.emit hx, fun m hm hne => (h.2 m hm hne).congr (w := w) rfl (fun _ _ => rfl)⟩

theorem PM.setCnt {X : Maneuver → Prop} {w : World} (h : PM b X w) (r : Ref) (n : Nat) :
    PM b X (w.setCnt r n) :=
  ⟨h.1, fun m hm hne => (h.2 m hm hne).congr (w := w) rfl (fun _ _ => rfl)⟩

theorem PM.events (wf : b.WF) {m : Maneuver} (hm : m ∈ b.maneuvers) {w w' : World}
    (h : PM b (· = m) w) (hc : Coh w')
    (ho : Only (fun r => ∃ e ∈ m.events, e.owns m.events r) w w') : PM b (· = m) w' := by
  refine ⟨hc, fun m' hm' hne => ?_⟩
  refine (h.2 m' hm' hne).congr (ho.st _ (not_owns_events (by simp) (by simp))) ?_
  intro c hcm
  obtain ⟨e, he, rfl⟩ := List.mem_map.1 hcm
  refine ho.st _ ?_
  have key : ∀ x ∈ m.events, e.ref ≠ x.ref := by
    intro x hx hr
    have := wf.event_inj (mem_events hm' he) (mem_events hm hx) hr
    subst this
    exact hne (wf.event_owner hm' hm he hx)
  rintro ⟨x, hx, hr | ⟨y, hy, hr⟩ | ⟨a, _, hr⟩⟩
  · exact key x hx hr
  · exact key y hy hr
  · simp [Event.ref, actionRef] at hr

theorem only_runEvents (env : Env) (m : Maneuver) (w : World) :
    Only (fun r => ∃ e ∈ m.events, e.owns m.events r) w ((maneuverHooks env m).run w) :=
  only_foldl _ _ (fun w e he => (only_evalEvent env m.events e w).mono fun _ hr => ⟨e, he, hr⟩) w

theorem only_stopEvents (env : Env) (m : Maneuver) (w : World) :
    Only (fun r => ∃ e ∈ m.events, e.owns m.events r) w ((maneuverHooks env m).stop w) :=
  only_foldl _ _ (fun w e he => only_overrideThen _ _ ⟨e, he, Or.inl rfl⟩
      (fun w => (only_evalEvent env m.events e w).mono fun _ hr => ⟨e, he, hr⟩) w) w

theorem evalManeuver_PM (wf : b.WF) {env : Env} (hq : Quiet env b) {m : Maneuver}
    (hm : m ∈ b.maneuvers) {w : World} (h : PM b (· = m) w) (hp : PairM m w) :
    PM b (fun _ => False) (evalManeuver env m w) := by
  have hno : ¬ ∃ e ∈ m.events, e.owns m.events m.ref := not_owns_events (by simp) (by simp)
  have key := composite_calm (maneuverHooks env m) (m.events.map Event.ref) False (PM b (· = m))
    (by
      intro hc
      obtain ⟨e, _, he⟩ := List.mem_map.1 hc
      exact absurd he (ref_ne_of_kind (by simp [maneuverHooks])))
    (fun w h => h.emit (by simp)) (fun w h => ⟨h, rfl⟩) (fun w h => ⟨h, rfl⟩) (fun _ => rfl)
    (fun w s h => h.goto_self wf hm s) (fun w n h => h.setCnt _ n) (fun _ => rfl)
    (fun w h => ⟨h.events wf hm
        (foldl_pres Coh _ _ (fun _ _ _ h => coh_evalEvent env _ _ _ h) w h.1) (only_runEvents env m w),
      (only_runEvents env m w).st _ hno, False.elim⟩)
    (fun w ha c hc => by
      obtain ⟨e, he, rfl⟩ := List.mem_map.1 hc
      exact allComplete_map ha e he)
    (fun w h hs _ => by
      refine ⟨h.events wf hm
        (foldl_pres Coh _ _ (fun _ _ _ h => coh_evalEvent env _ _ _ (h.override _)) w h.1)
        (only_stopEvents env m w), ?_⟩
      have := foldl_all (fun w => Coh w ∧ w.st m.ref = .stop) (fun (e : Event) w => Calm e.ref w)
        (fun w e => overrideThen e.ref (evalEvent env m.events e) w) m.events ?_ w ⟨h.1, hs⟩
      · intro c hc
        obtain ⟨e, he, rfl⟩ := List.mem_map.1 hc
        exact ⟨this.2 e he, False.elim⟩
      · rintro w e he ⟨hc, hs⟩
        obtain ⟨c1, c2⟩ := stopEvent_calm env m.events e w (fun _ => by
          refine hq.event m hm e he _ ?_
          have : lastState m.ref (.visit e.ref :: w.log) = lastState m.ref w.log := rfl
          rw [this, ← hc _ (by simp)]; exact hs)
        refine ⟨⟨coh_evalEvent env _ _ _ (hc.override _), ?_⟩, c1, fun y _ hy => ?_⟩
        · rw [c2 _ (by simp) (ref_ne_of_kind (by simp))]; exact hs
        · by_cases hr : y.ref = e.ref
          · rw [hr]; exact c1
          · simp only [Calm]; rw [c2 _ (by simp) hr]; exact hy)
    h hp
  obtain ⟨k1, k2⟩ := key
  refine ⟨k1.1, fun m' hm' _ => ?_⟩
  by_cases hne : m' = m
  · subst hne; exact k2
  · exact k1.2 m' hm' hne

theorem PM.except {w : World} (h : PM b (fun _ => False) w) (X : Maneuver → Prop) : PM b X w :=
  ⟨h.1, fun m hm _ => h.2 m hm (fun h => h)⟩

theorem maneuver_notin (m : Maneuver) : m.ref ∉ m.events.map Event.ref := by
  intro hc
  obtain ⟨e, _, he⟩ := List.mem_map.1 hc
  exact absurd he (ref_ne_of_kind (by simp))

/-! ### ManeuverGroup -/

theorem PM.goto_start (wf : b.WF) {m : Maneuver} (hm : m ∈ b.maneuvers) {w : World}
    (h : PM b (fun _ => False) w) : PM b (fun _ => False) (w.goto m.ref .start) := by
  have h' := (h.except (· = m)).goto_self wf hm .start
  refine ⟨h'.1, fun m' hm' _ => ?_⟩
  by_cases hne : m' = m
  · subst hne
    refine ⟨?_, ?_, fun hf => hf.elim, ?_⟩ <;> simp
  · exact h'.2 m' hm' hne

theorem PM.override_self (wf : b.WF) {m : Maneuver} (hm : m ∈ b.maneuvers) {w : World}
    (h : PM b (fun _ => False) w) : PM b (· = m) (w.override m.ref) ∧ PairM m (w.override m.ref) := by
  refine ⟨?_, (h.2 m hm (fun h => h)).override (maneuver_notin m)⟩
  unfold World.override; split
  · exact (h.except _).goto_self wf hm _
  · exact h.except _

theorem evalGroup_PM (wf : b.WF) {env : Env} (hq : Quiet env b) {g : Group} (hg : g ∈ b.groups)
    {w : World} (h : PM b (fun _ => False) w) : PM b (fun _ => False) (evalGroup env g w) := by
  apply evaluate_pres (groupHooks env g) (PM b fun _ => False)
  · intro w h; exact h.emit (by simp)
  · intro w h; exact h
  · intro w h; exact h
  · intro w s h; exact h.goto_other (by simp [groupHooks]) (by simp [groupHooks]) s
  · intro w n h; exact h.setCnt _ n
  · intro w h
    refine foldl_pres (PM b fun _ => False) _ _ (fun w c hc h => ?_) w h
    obtain ⟨m, hm, rfl⟩ := List.mem_map.1 hc
    exact h.goto_start wf (mem_maneuvers hg hm)
  · intro w h
    exact foldl_pres (PM b fun _ => False) _ _ (fun w m hm h =>
      evalManeuver_PM wf hq (mem_maneuvers hg hm) (h.except _)
        (h.2 m (mem_maneuvers hg hm) (fun h => h))) w h
  · intro w h
    exact foldl_pres (PM b fun _ => False) _ _ (fun w m hm h => by
      obtain ⟨h1, h2⟩ := h.override_self wf (mem_maneuvers hg hm)
      exact evalManeuver_PM wf hq (mem_maneuvers hg hm) h1 h2) w h
  · exact h

theorem PM.override_other {X : Maneuver → Prop} {r : Ref} (h1 : r.kind ≠ .maneuver)
    (h2 : r.kind ≠ .event) {w : World} (h : PM b X w) : PM b X (w.override r) := by
  unfold World.override; split
  · exact h.goto_other h1 h2 _
  · exact h

/-- Elements without a start trigger of their own have left standby after an evaluation. -/
theorem evaluate_not_standby (h : Hooks) (ht : ∀ w, (h.startTrigger w).1 = true)
    (hveto : ∀ w, h.veto w = false)
    (hrun : ∀ w, (h.run w).st h.ref = w.st h.ref) (w : World) :
    (evaluate h w).st h.ref ≠ .standby := by
  have key := dispatch_rule h (fun s _ w => w.st h.ref = s) (fun w => w.st h.ref ≠ .standby)
    ?_ ?_ ?_ ?_ ?_ ?_ ?_ ?_ ?_ ?_ ?_
  · unfold evaluate; exact key _ _ _ rfl
  · intro n w _ hf; rw [ht] at hf; cases hf
  · intro n w _ _ hv; rw [hveto] at hv; cases hv
  · intro n w _ _ _; simp
  · intro n w _; simp
  · intro n w _ _; simp
  · intro n w h1 _; rw [hrun, h1]; decide
  · intro n w _ _; simp
  · intro n w _ _; simp
  · intro n w h1; rw [h1]; decide
  · intro n w h1; rw [h1]; decide
  · intro n w _; simp

theorem evalGroup_not_standby (env : Env) (g : Group) (w : World) :
    (evalGroup env g w).st g.ref ≠ .standby := by
  refine evaluate_not_standby (groupHooks env g) (fun _ => rfl) (fun _ => rfl) ?_ w
  intro w
  have ho : Only (fun r => ∃ m ∈ g.maneuvers, m.owns r) w ((groupHooks env g).run w) :=
    only_foldl _ _ (fun w m hm => (only_evalManeuver env m w).mono fun _ hr => ⟨m, hm, hr⟩) w
  refine ho.st _ ?_
  rintro ⟨m, _, h⟩
  exact not_owns_maneuver (by simp [groupHooks]) (by simp [groupHooks]) (by simp [groupHooks]) h

theorem stopGroup_complete (env : Env) (g : Group) (w : World) (h : w.st g.ref ≠ .standby) :
    (overrideThen g.ref (evalGroup env g) w).st g.ref = .complete := by
  have hst : (w.override g.ref).st g.ref = .stop := by rw [override_st]; simp [h]
  obtain ⟨w1, h1, -, -⟩ := evaluate_stopped (groupHooks env g) (w := w.override g.ref) hst
    (fun _ => rfl)
  unfold overrideThen
  have h1' : evalGroup env g (w.override g.ref) = _ := h1
  rw [h1']
  exact goto_st_self _ _ _

/-! ### Act -/

def PairA (a : Act) (w : World) : Prop := Pair True a.ref (a.groups.map Group.ref) w

/-- Everything below the stories, except the acts in `X`. -/
def PA (b : Board) (X : Act → Prop) (w : World) : Prop :=
  PM b (fun _ => False) w ∧ ∀ a ∈ b.acts, ¬ X a → PairA a w

theorem PA.except {w : World} (h : PA b (fun _ => False) w) (X : Act → Prop) : PA b X w :=
  ⟨h.1, fun a ha _ => h.2 a ha (fun h => h)⟩

theorem PA.goto_self (wf : b.WF) {a : Act} (ha : a ∈ b.acts) {w : World} (s : St)
    (h : PA b (· = a) w) : PA b (· = a) (w.goto a.ref s) := by
  refine ⟨h.1.goto_other (by simp) (by simp) s, fun a' ha' hne => ?_⟩
  refine (h.2 a' ha' hne).congr (goto_st_ne _ _ fun h => hne (wf.act_inj ha' ha h)) ?_
  intro c hc
  obtain ⟨e, _, rfl⟩ := List.mem_map.1 hc
  exact goto_st_ne _ _ (ref_ne_of_kind (by simp))

theorem PA.goto_other {X : Act → Prop} {r : Ref} (h1 : r.kind ≠ .maneuver) (h2 : r.kind ≠ .event)
    (h3 : r.kind ≠ .act) (h4 : r.kind ≠ .group) {w : World} (s : St) (h : PA b X w) :
    PA b X (w.goto r s) := by
  refine ⟨h.1.goto_other h1 h2 s, fun m' hm' hne => ?_⟩
  refine (h.2 m' hm' hne).congr (goto_st_ne _ _ (ref_ne_of_kind (Ne.symm h3))) ?_
  intro c hc
  obtain ⟨e, _, rfl⟩ := List.mem_map.1 hc
  exact goto_st_ne _ _ (ref_ne_of_kind (Ne.symm h4))

theorem PA.emit {X : Act → Prop} {w : World} (h : PA b X w) {x : Entry}
    (hx : ∀ r s d, x ≠ .trans r s d) : PA b X (w.emit x) :=
  ⟨h.1.emit hx, fun m hm hne => (h.2 m hm hne).congr (w := w) rfl (fun _ _ => rfl)⟩

theorem PA.setCnt {X : Act → Prop} {w : World} (h : PA b X w) (r : Ref) (n : Nat) :
    PA b X (w.setCnt r n) :=
  ⟨h.1.setCnt r n, fun m hm hne => (h.2 m hm hne).congr (w := w) rfl (fun _ _ => rfl)⟩

theorem group_not_owned (wf : b.WF) {g g' : Group} (hg : g ∈ b.groups) (hg' : g' ∈ b.groups)
    (hne : g' ≠ g) : ¬ g.owns g'.ref := by
  rintro (h | ⟨m, _, h⟩)
  · exact hne (wf.group_inj hg' hg h)
  · exact not_owns_maneuver (by simp) (by simp) (by simp) h

theorem act_notin (a : Act) : a.ref ∉ a.groups.map Group.ref := by
  intro hc
  obtain ⟨e, _, he⟩ := List.mem_map.1 hc
  exact absurd he (ref_ne_of_kind (by simp))

theorem evalAct_PA (wf : b.WF) {env : Env} (hq : Quiet env b) {a : Act}
    (ha : a ∈ b.acts) {w : World} (h : PA b (· = a) w) (hp : PairA a w) :
    PA b (fun _ => False) (evalAct env a w) := by
  -- one group evaluated or stopped
  have step : ∀ (w w' : World), ∀ g ∈ a.groups, PM b (fun _ => False) w' → Only g.owns w w' →
      PA b (· = a) w → PA b (· = a) w' ∧ w'.st a.ref = w.st a.ref ∧
      ∀ x ∈ a.groups, x ≠ g → w'.st x.ref = w.st x.ref := by
    intro w w' g hg hM ho h
    refine ⟨⟨hM, fun a' ha' hne => ?_⟩, ho.st _ (not_owns_group (by simp) (by simp) (by simp) (by simp)),
      fun x hx hne => ho.st _ (group_not_owned wf (mem_groups ha hg) (mem_groups ha hx) hne)⟩
    refine (h.2 a' ha' hne).congr (ho.st _ (not_owns_group (by simp) (by simp) (by simp) (by simp))) ?_
    intro c hc
    obtain ⟨x, hx, rfl⟩ := List.mem_map.1 hc
    refine ho.st _ (group_not_owned wf (mem_groups ha hg) (mem_groups ha' hx) ?_)
    rintro rfl
    exact hne (wf.group_owner ha' ha hx hg)
  have key := composite_calm (actHooks env a) (a.groups.map Group.ref) True (PA b (· = a))
    (act_notin a)
    (fun w h => h.emit (by simp)) (fun w h => ⟨h.emit (by simp), rfl⟩)
    (fun w h => ⟨h.emit (by simp), rfl⟩) (fun _ => rfl)
    (fun w s h => h.goto_self wf ha s) (fun w n h => h.setCnt _ n) (fun _ => rfl)
    (fun w h => by
      have := foldl_all (fun w' => PA b (· = a) w' ∧ w'.st a.ref = w.st a.ref)
        (fun (g : Group) w => w.st g.ref ≠ .standby)
        (fun w g => evalGroup env g w) a.groups ?_ w ⟨h, rfl⟩
      · refine ⟨this.1.1, this.1.2, fun _ c hc => ?_⟩
        obtain ⟨g, hg, rfl⟩ := List.mem_map.1 hc
        exact this.2 g hg
      · rintro w' g hg ⟨h1, h2⟩
        obtain ⟨s1, s2, s3⟩ := step w' _ g hg (evalGroup_PM wf hq (mem_groups ha hg) h1.1)
          (only_evalGroup env g w') h1
        refine ⟨⟨s1, s2.trans h2⟩, evalGroup_not_standby env g w', fun y hy hP => ?_⟩
        by_cases hne : y = g
        · subst hne; exact evalGroup_not_standby env y w'
        · rw [s3 y hy hne]; exact hP)
    (fun w hacc c hc => by
      obtain ⟨e, he, rfl⟩ := List.mem_map.1 hc
      exact allComplete_map hacc e he)
    (fun w h _ hb => by
      have := foldl_all (fun w' => PA b (· = a) w' ∧ ∀ g ∈ a.groups, w'.st g.ref ≠ .standby)
        (fun (g : Group) w => w.st g.ref = .complete)
        (fun w g => overrideThen g.ref (evalGroup env g) w) a.groups ?_ w
        ⟨h, fun g hg => hb trivial _ (List.mem_map.2 ⟨g, hg, rfl⟩)⟩
      · refine ⟨this.1.1, fun c hc => ?_⟩
        obtain ⟨g, hg, rfl⟩ := List.mem_map.1 hc
        exact ⟨Or.inr (this.2 g hg), fun _ => this.2 g hg⟩
      · rintro w' g hg ⟨h1, h2⟩
        obtain ⟨s1, s2, s3⟩ := step w' (overrideThen g.ref (evalGroup env g) w') g hg
          (evalGroup_PM wf hq (mem_groups ha hg) (h1.1.override_other (by simp) (by simp)))
          (only_overrideThen _ _ (Or.inl rfl) (only_evalGroup env g) w') h1
        have hc := stopGroup_complete env g w' (h2 g hg)
        refine ⟨⟨s1, fun y hy => ?_⟩, hc, fun y hy hP => ?_⟩
        · by_cases hne : y = g
          · subst hne; rw [hc]; decide
          · rw [s3 y hy hne]; exact h2 y hy
        · by_cases hne : y = g
          · subst hne; exact hc
          · rw [s3 y hy hne]; exact hP)
    h hp
  obtain ⟨k1, k2⟩ := key
  refine ⟨k1.1, fun m' hm' _ => ?_⟩
  by_cases hne : m' = a
  · subst hne; exact k2
  · exact k1.2 m' hm' hne

theorem PA.override_self (wf : b.WF) {a : Act} (ha : a ∈ b.acts) {w : World}
    (h : PA b (fun _ => False) w) : PA b (· = a) (w.override a.ref) ∧ PairA a (w.override a.ref) := by
  refine ⟨?_, (h.2 a ha (fun h => h)).override (act_notin a)⟩
  unfold World.override; split
  · exact (h.except _).goto_self wf ha _
  · exact h.except _

/-- Stopping an act whose start trigger does not fire. -/
theorem stopAct_calm (env : Env) (a : Act) (w : World)
    (hq : w.st a.ref = .standby →
      env.startTrigger a.ref (.stopTrigger a.ref :: .visit a.ref :: w.log) = false) :
    Calm a.ref (overrideThen a.ref (evalAct env a) w) := by
  by_cases hs : w.st a.ref = .standby
  · have hov : ∀ w : World, w.st a.ref = .standby → w.override a.ref = w := by
      intro w hs; unfold World.override; simp [hs]
    have hev : evalAct env a w =
        ((w.emit (.visit a.ref)).emit (.stopTrigger a.ref)).emit (.startTrigger a.ref) := by
      have h1 : ((w.emit (.visit a.ref)).emit (.stopTrigger a.ref)).override a.ref =
          (w.emit (.visit a.ref)).emit (.stopTrigger a.ref) := hov _ hs
      have h2 : evalAct env a w = dispatch (actHooks env a) .standby
          (((w.emit (.visit a.ref)).emit (.stopTrigger a.ref)).cnt a.ref)
          ((w.emit (.visit a.ref)).emit (.stopTrigger a.ref)) := by
        have h3 : evalAct env a w = (fun w' => dispatch (actHooks env a) (w'.st a.ref) (w'.cnt a.ref) w')
          (if env.stopTrigger a.ref (w.emit (.visit a.ref)).log then
            ((w.emit (.visit a.ref)).emit (.stopTrigger a.ref)).override a.ref
            else (w.emit (.visit a.ref)).emit (.stopTrigger a.ref)) := rfl
        rw [h3, h1, ite_self]
        simp only [emit_st, hs]
      rw [h2, dispatch]
      have h4 : ((actHooks env a).startTrigger ((w.emit (.visit a.ref)).emit (.stopTrigger a.ref))) =
        (false, ((w.emit (.visit a.ref)).emit (.stopTrigger a.ref)).emit (.startTrigger a.ref)) :=
        Prod.ext (hq hs) rfl
      simp [h4]
    unfold overrideThen
    rw [hov w hs, hev]
    exact Or.inl hs
  · have hst : (w.override a.ref).st a.ref = .stop := by rw [override_st]; simp [hs]
    obtain ⟨w1, h1, -, -⟩ := evaluate_stopped (actHooks env a) (w := w.override a.ref) hst
      (fun _ => rfl)
    unfold overrideThen
    have h1' : evalAct env a (w.override a.ref) = _ := h1
    rw [h1']
    exact Or.inr (goto_st_self _ _ _)

/-! ### Story -/

def PairS (s : Story) (w : World) : Prop := Pair False s.ref (s.acts.map Act.ref) w

/-- Everything below the storyboard, except the stories in `X`. -/
def PS (b : Board) (X : Story → Prop) (w : World) : Prop :=
  PA b (fun _ => False) w ∧ ∀ a ∈ b.stories, ¬ X a → PairS a w

theorem PS.except {w : World} (h : PS b (fun _ => False) w) (X : Story → Prop) : PS b X w :=
  ⟨h.1, fun a ha _ => h.2 a ha (fun h => h)⟩

theorem PS.goto_self (wf : b.WF) {a : Story} (ha : a ∈ b.stories) {w : World} (s : St)
    (h : PS b (· = a) w) : PS b (· = a) (w.goto a.ref s) := by
  refine ⟨h.1.goto_other (by simp) (by simp) (by simp) (by simp) s, fun a' ha' hne => ?_⟩
  refine (h.2 a' ha' hne).congr (goto_st_ne _ _ fun h => hne (wf.story_inj ha' ha h)) ?_
  intro c hc
  obtain ⟨e, _, rfl⟩ := List.mem_map.1 hc
  exact goto_st_ne _ _ (ref_ne_of_kind (by simp))

theorem PS.goto_other {X : Story → Prop} {r : Ref} (h1 : r.kind ≠ .maneuver) (h2 : r.kind ≠ .event)
    (h3 : r.kind ≠ .act) (h4 : r.kind ≠ .group) (h5 : r.kind ≠ .story) {w : World} (s : St)
    (h : PS b X w) : PS b X (w.goto r s) := by
  refine ⟨h.1.goto_other h1 h2 h3 h4 s, fun m' hm' hne => ?_⟩
  refine (h.2 m' hm' hne).congr (goto_st_ne _ _ (ref_ne_of_kind (Ne.symm h5))) ?_
  intro c hc
  obtain ⟨e, _, rfl⟩ := List.mem_map.1 hc
  exact goto_st_ne _ _ (ref_ne_of_kind (Ne.symm h3))

theorem PS.emit {X : Story → Prop} {w : World} (h : PS b X w) {x : Entry}
    (hx : ∀ r s d, x ≠ .trans r s d) : PS b X (w.emit x) :=
  ⟨h.1.emit hx, fun m hm hne => (h.2 m hm hne).congr (w := w) rfl (fun _ _ => rfl)⟩

theorem PS.setCnt {X : Story → Prop} {w : World} (h : PS b X w) (r : Ref) (n : Nat) :
    PS b X (w.setCnt r n) :=
  ⟨h.1.setCnt r n, fun m hm hne => (h.2 m hm hne).congr (w := w) rfl (fun _ _ => rfl)⟩

theorem act_not_owned (wf : b.WF) {g g' : Act} (hg : g ∈ b.acts) (hg' : g' ∈ b.acts)
    (hne : g' ≠ g) : ¬ g.owns g'.ref := by
  rintro (h | ⟨m, _, h⟩)
  · exact hne (wf.act_inj hg' hg h)
  · exact not_owns_group (by simp) (by simp) (by simp) (by simp) h

theorem story_notin (a : Story) : a.ref ∉ a.acts.map Act.ref := by
  intro hc
  obtain ⟨e, _, he⟩ := List.mem_map.1 hc
  exact absurd he (ref_ne_of_kind (by simp))

theorem evalStory_PS (wf : b.WF) {env : Env} (hq : Quiet env b) {s : Story}
    (hs : s ∈ b.stories) {w : World} (h : PS b (· = s) w) (hp : PairS s w) :
    PS b (fun _ => False) (evalStory env s w) := by
  have step : ∀ (w w' : World), ∀ a ∈ s.acts, PA b (fun _ => False) w' → Only a.owns w w' →
      PS b (· = s) w → PS b (· = s) w' ∧ w'.st s.ref = w.st s.ref ∧
      ∀ x ∈ s.acts, x ≠ a → w'.st x.ref = w.st x.ref := by
    intro w w' g hg hM ho h
    refine ⟨⟨hM, fun a' ha' hne => ?_⟩,
      ho.st _ (not_owns_act (by simp) (by simp) (by simp) (by simp) (by simp)),
      fun x hx hne => ho.st _ (act_not_owned wf (mem_acts hs hg) (mem_acts hs hx) hne)⟩
    refine (h.2 a' ha' hne).congr
      (ho.st _ (not_owns_act (by simp) (by simp) (by simp) (by simp) (by simp))) ?_
    intro c hc
    obtain ⟨x, hx, rfl⟩ := List.mem_map.1 hc
    refine ho.st _ (act_not_owned wf (mem_acts hs hg) (mem_acts ha' hx) ?_)
    rintro rfl
    exact hne (wf.act_owner ha' hs hx hg)
  have key := composite_calm (storyHooks env s) (s.acts.map Act.ref) False (PS b (· = s))
    (story_notin s)
    (fun w h => h.emit (by simp)) (fun w h => ⟨h, rfl⟩)
    (fun w h => ⟨h, rfl⟩) (fun _ => rfl)
    (fun w st h => h.goto_self wf hs st) (fun w n h => h.setCnt _ n) (fun _ => rfl)
    (fun w h => by
      have := foldl_pres (fun w' => PS b (· = s) w' ∧ w'.st s.ref = w.st s.ref)
        (fun w a => evalAct env a w) s.acts ?_ w ⟨h, rfl⟩
      · exact ⟨this.1, this.2, False.elim⟩
      · rintro w' a ha ⟨h1, h2⟩
        obtain ⟨s1, s2, s3⟩ := step w' _ a ha (evalAct_PA wf hq (mem_acts hs ha) (h1.1.except _)
          (h1.1.2 a (mem_acts hs ha) (fun h => h))) (only_evalAct env a w') h1
        exact ⟨s1, s2.trans h2⟩)
    (fun w hacc c hc => by
      obtain ⟨e, he, rfl⟩ := List.mem_map.1 hc
      exact allComplete_map hacc e he)
    (fun w h hst _ => by
      have := foldl_all (fun w' => PS b (· = s) w' ∧ w'.st s.ref = .stop)
        (fun (a : Act) w => Calm a.ref w)
        (fun w a => overrideThen a.ref (evalAct env a) w) s.acts ?_ w ⟨h, hst⟩
      · refine ⟨this.1.1, fun c hc => ?_⟩
        obtain ⟨g, hg, rfl⟩ := List.mem_map.1 hc
        exact ⟨this.2 g hg, False.elim⟩
      · rintro w' a ha ⟨h1, h2⟩
        obtain ⟨o1, o2⟩ := h1.1.override_self wf (mem_acts hs ha)
        obtain ⟨s1, s2, s3⟩ := step w' (overrideThen a.ref (evalAct env a) w') a ha
          (evalAct_PA wf hq (mem_acts hs ha) o1 o2)
          (only_overrideThen _ _ (Or.inl rfl) (only_evalAct env a) w') h1
        have hc := stopAct_calm env a w' (fun _ => by
          refine hq.act s hs a ha _ ?_
          have : lastState s.ref (.stopTrigger a.ref :: .visit a.ref :: w'.log) =
            lastState s.ref w'.log := rfl
          rw [this, ← h1.1.1.1 _ (by simp)]; exact h2)
        refine ⟨⟨s1, s2.trans h2⟩, hc, fun y hy hP => ?_⟩
        by_cases hne : y = a
        · subst hne; exact hc
        · simp only [Calm]; rw [s3 y hy hne]; exact hP)
    h hp
  obtain ⟨k1, k2⟩ := key
  refine ⟨k1.1, fun m' hm' _ => ?_⟩
  by_cases hne : m' = s
  · subst hne; exact k2
  · exact k1.2 m' hm' hne

theorem PS.override_self (wf : b.WF) {a : Story} (ha : a ∈ b.stories) {w : World}
    (h : PS b (fun _ => False) w) : PS b (· = a) (w.override a.ref) ∧ PairS a (w.override a.ref) := by
  refine ⟨?_, (h.2 a ha (fun h => h)).override (story_notin a)⟩
  unfold World.override; split
  · exact (h.except _).goto_self wf ha _
  · exact h.except _

theorem evalStory_not_standby (env : Env) (s : Story) (w : World) :
    (evalStory env s w).st s.ref ≠ .standby := by
  refine evaluate_not_standby (storyHooks env s) (fun _ => rfl) (fun _ => rfl) ?_ w
  intro w
  have ho : Only (fun r => ∃ m ∈ s.acts, m.owns r) w ((storyHooks env s).run w) :=
    only_foldl _ _ (fun w m hm => (only_evalAct env m w).mono fun _ hr => ⟨m, hm, hr⟩) w
  refine ho.st _ ?_
  rintro ⟨m, _, h⟩
  exact not_owns_act (by simp [storyHooks]) (by simp [storyHooks]) (by simp [storyHooks])
    (by simp [storyHooks]) (by simp [storyHooks]) h

theorem stopStory_complete (env : Env) (s : Story) (w : World) (h : w.st s.ref ≠ .standby) :
    (overrideThen s.ref (evalStory env s) w).st s.ref = .complete := by
  have hst : (w.override s.ref).st s.ref = .stop := by rw [override_st]; simp [h]
  obtain ⟨w1, h1, -, -⟩ := evaluate_stopped (storyHooks env s) (w := w.override s.ref) hst
    (fun _ => rfl)
  unfold overrideThen
  have h1' : evalStory env s (w.override s.ref) = _ := h1
  rw [h1']
  exact goto_st_self _ _ _

/-! ### Storyboard -/

def PairB (b : Board) (w : World) : Prop :=
  Pair True b.ref (b.initRef :: b.stories.map Story.ref) w

theorem PS.init {w w' : World} (h : PS b (fun _ => False) w) (hc : Coh w')
    (ho : Only (· = b.initRef) w w') : PS b (fun _ => False) w' := by
  have key : ∀ r : Ref, r.kind ≠ .init → w'.st r = w.st r := fun r hr =>
    ho.st r (fun h => hr (by rw [h]; rfl))
  refine ⟨⟨⟨hc, fun m hm hn => ?_⟩, fun m hm hn => ?_⟩, fun m hm hn => ?_⟩
  · refine (h.1.1.2 m hm hn).congr (key _ (by simp)) ?_
    intro c hc; obtain ⟨x, _, rfl⟩ := List.mem_map.1 hc; exact key _ (by simp)
  · refine (h.1.2 m hm hn).congr (key _ (by simp)) ?_
    intro c hc; obtain ⟨x, _, rfl⟩ := List.mem_map.1 hc; exact key _ (by simp)
  · refine (h.2 m hm hn).congr (key _ (by simp)) ?_
    intro c hc; obtain ⟨x, _, rfl⟩ := List.mem_map.1 hc; exact key _ (by simp)

theorem coh_evalInit (env : Env) (w : World) (h : Coh w) : Coh (evalInit env b w) := by
  apply evaluate_pres (initHooks env b) Coh
  · intro w h; exact h.emit (by simp)
  · intro w h; exact h
  · intro w h; exact h
  · intro w s h; exact h.goto _ _
  · intro w n h; exact h
  · intro w h; exact h.emit (by simp)
  · intro w h; exact h.emit (by simp)
  · intro w h; exact h
  · exact h

theorem evalBoard_PS (wf : b.WF) {env : Env} (hq : Quiet env b) {w : World}
    (h : PS b (fun _ => False) w) (hp : PairB b w) :
    PS b (fun _ => False) (evalBoard env b w) ∧ PairB b (evalBoard env b w) := by
  have hinit : ∀ w, (evalInit env b w).st b.initRef ≠ .standby := fun w =>
    evaluate_not_standby (initHooks env b) (fun _ => rfl) (fun _ => rfl)
      (fun _ => rfl) w
  have hinitS : ∀ w : World, w.st b.initRef ≠ .standby →
      (overrideThen b.initRef (evalInit env b) w).st b.initRef = .complete := by
    intro w hw
    have hst : (w.override b.initRef).st b.initRef = .stop := by rw [override_st]; simp [hw]
    obtain ⟨w1, h1, -, -⟩ := evaluate_stopped (initHooks env b) (w := w.override b.initRef) hst
      (fun _ => rfl)
    unfold overrideThen
    have h1' : evalInit env b (w.override b.initRef) = _ := h1
    rw [h1']
    exact goto_st_self _ _ _
  have step : ∀ (w w' : World), ∀ a ∈ b.stories, Only a.owns w w' →
      w'.st b.ref = w.st b.ref ∧ w'.st b.initRef = w.st b.initRef ∧
      ∀ x ∈ b.stories, x ≠ a → w'.st x.ref = w.st x.ref := by
    intro w w' g hg ho
    refine ⟨ho.st _ (not_owns_story (by simp) (by simp) (by simp) (by simp) (by simp) (by simp)),
      ho.st _ (not_owns_story (by simp) (by simp) (by simp) (by simp) (by simp) (by simp)),
      fun x hx hne => ho.st _ ?_⟩
    rintro (h | ⟨m, _, h⟩)
    · exact hne (wf.story_inj hx hg h)
    · exact not_owns_act (by simp) (by simp) (by simp) (by simp) (by simp) h
  refine composite_calm (boardHooks env b) (b.initRef :: b.stories.map Story.ref) True
    (PS b fun _ => False) ?_
    (fun w h => h.emit (by simp)) (fun w h => ⟨h.emit (by simp), rfl⟩)
    (fun w h => ⟨h, rfl⟩) (fun _ => rfl)
    (fun w st h => h.goto_other (by simp [boardHooks]) (by simp [boardHooks]) (by simp [boardHooks])
      (by simp [boardHooks]) (by simp [boardHooks]) st) (fun w n h => h.setCnt _ n) (fun _ => rfl)
    (fun w h => ?_) (fun w hacc c hc => ?_) (fun w h hst hb => ?_) h hp
  · intro hc
    rcases List.mem_cons.1 hc with hc | hc
    · exact absurd hc (ref_ne_of_kind (by simp [boardHooks]))
    · obtain ⟨e, _, he⟩ := List.mem_map.1 hc
      exact absurd he (ref_ne_of_kind (by simp [boardHooks]))
  · have hi : PS b (fun _ => False) (evalInit env b w) :=
      h.init (coh_evalInit env w h.1.1.1) (only_evalInit env b w)
    have hib : (evalInit env b w).st b.ref = w.st b.ref :=
      (only_evalInit env b w).st _ (ref_ne_of_kind (by simp))
    have := foldl_all (fun w' => PS b (fun _ => False) w' ∧ w'.st b.ref = w.st b.ref ∧
          w'.st b.initRef ≠ .standby)
        (fun (s : Story) w => w.st s.ref ≠ .standby)
        (fun w s => evalStory env s w) b.stories ?_ (evalInit env b w) ⟨hi, hib, hinit w⟩
    · refine ⟨this.1.1, this.1.2.1, fun _ c hc => ?_⟩
      rcases List.mem_cons.1 hc with rfl | hc
      · exact this.1.2.2
      · obtain ⟨s, hs, rfl⟩ := List.mem_map.1 hc
        exact this.2 s hs
    · rintro w' s hs ⟨h1, h2, h3⟩
      obtain ⟨s1, s2, s3⟩ := step w' _ s hs (only_evalStory env s w')
      refine ⟨⟨evalStory_PS wf hq hs (h1.except _) (h1.2 s hs (fun h => h)), s1.trans h2,
        by rw [s2]; exact h3⟩, evalStory_not_standby env s w', fun y hy hP => ?_⟩
      by_cases hne : y = s
      · subst hne; exact evalStory_not_standby env y w'
      · rw [s3 y hy hne]; exact hP
  · have := hacc
    simp only [boardHooks, allComplete, List.all_cons, List.all_map, Bool.and_eq_true, beq_iff_eq,
      List.all_eq_true, Function.comp] at this
    rcases List.mem_cons.1 hc with rfl | hc
    · exact this.1
    · obtain ⟨s, hs, rfl⟩ := List.mem_map.1 hc
      exact this.2 s hs
  · have hb0 : w.st b.initRef ≠ .standby := hb trivial _ List.mem_cons_self
    have hbs : ∀ s ∈ b.stories, w.st s.ref ≠ .standby := fun s hs =>
      hb trivial _ (List.mem_cons_of_mem _ (List.mem_map.2 ⟨s, hs, rfl⟩))
    have hoi : Only (· = b.initRef) w (overrideThen b.initRef (evalInit env b) w) :=
      only_overrideThen (T := (· = b.initRef)) _ _ rfl (only_evalInit env b) w
    have hi : PS b (fun _ => False) (overrideThen b.initRef (evalInit env b) w) :=
      h.init (coh_evalInit env _ (h.1.1.1.override _)) hoi
    have := foldl_all (fun w' => PS b (fun _ => False) w' ∧ w'.st b.initRef = .complete ∧
          ∀ s ∈ b.stories, w'.st s.ref ≠ .standby)
        (fun (s : Story) w => w.st s.ref = .complete)
        (fun w s => overrideThen s.ref (evalStory env s) w) b.stories ?_
        (overrideThen b.initRef (evalInit env b) w) ⟨hi, hinitS w hb0, fun s hs => by
          rw [hoi.st _ (ref_ne_of_kind (by simp))]; exact hbs s hs⟩
    · refine ⟨this.1.1, fun c hc => ?_⟩
      rcases List.mem_cons.1 hc with rfl | hc
      · exact ⟨Or.inr this.1.2.1, fun _ => this.1.2.1⟩
      · obtain ⟨s, hs, rfl⟩ := List.mem_map.1 hc
        exact ⟨Or.inr (this.2 s hs), fun _ => this.2 s hs⟩
    · rintro w' s hs ⟨h1, h2, h3⟩
      obtain ⟨o1, o2⟩ := h1.override_self wf hs
      obtain ⟨s1, s2, s3⟩ := step w' (overrideThen s.ref (evalStory env s) w') s hs
        (only_overrideThen _ _ (Or.inl rfl) (only_evalStory env s) w')
      have hc := stopStory_complete env s w' (h3 s hs)
      refine ⟨⟨evalStory_PS wf hq hs o1 o2, s2.trans h2, fun y hy => ?_⟩, hc, fun y hy hP => ?_⟩
      · by_cases hne : y = s
        · subst hne; rw [hc]; decide
        · rw [s3 y hy hne]; exact h3 y hy
      · by_cases hne : y = s
        · subst hne; exact hc
        · rw [s3 y hy hne]; exact hP

theorem runFrames_PS (wf : b.WF) {env : Env} (hq : Quiet env b) (n : Nat) :
    PS b (fun _ => False) (runFrames env b n) ∧ PairB b (runFrames env b n) := by
  induction n with
  | zero =>
    have hP : ∀ auto p cs, Pair auto p cs World.initial := fun auto p cs =>
      ⟨fun _ _ _ => Or.inl rfl, (fun h => by cases h), (fun _ h => by rcases h with h | h <;> cases h),
        by simp [World.initial]⟩
    exact ⟨⟨⟨⟨fun _ _ => rfl, fun _ _ _ => hP _ _ _⟩, fun _ _ _ => hP _ _ _⟩, fun _ _ _ => hP _ _ _⟩,
      hP _ _ _⟩
  | succ n ih =>
    exact evalBoard_PS wf hq (ih.1.emit (by simp)) (ih.2.congr (w := runFrames env b n) rfl (fun _ _ => rfl))

end
end Verif.Storyboard
