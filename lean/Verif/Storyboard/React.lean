import Verif.Storyboard.ReactSpec
import Verif.Storyboard.Stop
/-
Invariant behind C69.
-/
namespace Verif.Storyboard

variable {b : Board} {env : Env}

/-- What an entry that is a consequence of a trigger or of an accomplished action follows. -/
structure Caused (env : Env) (l : Log) (x : Entry) : Prop where
  fire : ∀ r, r.triggered → x = .trans r .standby .start →
    ∃ l', l = .startTrigger r :: l' ∧ env.startTrigger r l' = true
  finish : ∀ r, r.acting → x = .trans r .running .end →
    ∃ l', l = .runAction r :: l' ∧ env.accomplished r l = true

def Linked (env : Env) : Log → Prop
  | [] => True
  | x :: l => (Caused env l x ∧ ∀ y, Owes env l y → x = y) ∧ Linked env l

def Settled (env : Env) (l : Log) : Prop := ∀ y, ¬ Owes env l y

structure RI (env : Env) (w : World) : Prop where
  coh : Coh w
  linked : Linked env w.log
  settled : Settled env w.log

theorem Caused.of_not_trans {l : Log} {x : Entry} (h : ∀ r s d, x ≠ .trans r s d) : Caused env l x :=
  ⟨fun _ _ e => absurd e (h _ _ _), fun _ _ e => absurd e (h _ _ _)⟩

theorem Caused.trans {l : Log} {r : Ref} {s d : St} (h1 : r.triggered → d ≠ .start)
    (h2 : r.acting → d ≠ .end) : Caused env l (.trans r s d) := by
  constructor
  · rintro r' hr' h; injection h with e1 e2 e3; subst e1; exact absurd e3 (h1 hr')
  · rintro r' hr' h; injection h with e1 e2 e3; subst e1; exact absurd e3 (h2 hr')

theorem settled_trans {l : Log} {r : Ref} {s d : St} (h : d ≠ .standby ∨ s ≠ .end ∨ ¬ r.triggered) :
    Settled env (.trans r s d :: l) := by
  intro y hy
  cases hy with
  | again hr => rcases h with h | h | h <;> exact h (by first | rfl | exact hr)

theorem RI.goto {w : World} (h : RI env w) {r : Ref} {d : St} (h1 : r.triggered → d ≠ .start)
    (h2 : r.acting → d ≠ .end) (h3 : d ≠ .standby ∨ w.st r ≠ .end ∨ ¬ r.triggered) :
    RI env (w.goto r d) :=
  ⟨h.coh.goto r d, ⟨⟨.trans h1 h2, fun y hy => absurd hy (h.settled y)⟩, h.linked⟩, settled_trans h3⟩

theorem RI.emit {w : World} (h : RI env w) {x : Entry} (hx : ∀ r s d, x ≠ .trans r s d)
    (hs : Settled env (x :: w.log)) : RI env (w.emit x) :=
  ⟨h.coh.emit hx, ⟨⟨.of_not_trans hx, fun y hy => absurd hy (h.settled y)⟩, h.linked⟩, hs⟩

theorem RI.override {w : World} (h : RI env w) (r : Ref) : RI env (w.override r) := by
  unfold World.override; split
  · exact h.goto (by simp) (by simp) (by simp)
  · exact h

theorem settled_startAction (r : Ref) (l : Log) : Settled env (.startAction r :: l) := by
  intro y hy; cases hy

theorem settled_stopTrigger {r : Ref} (hr : r.kind ≠ .act) (l : Log) :
    Settled env (.stopTrigger r :: l) := by
  intro y hy
  cases hy with
  | askAct hk => exact hr hk

theorem RI.visit {w : World} (h : RI env w) {r : Ref} (hr : ¬ r.triggered) :
    RI env (w.emit (.visit r)) := by
  refine h.emit (by simp) fun y hy => ?_
  cases hy with
  | askEvent hk => exact hr (Or.inl hk)
  | askStop hk => exact hr (Or.inr hk)

/-- Evaluation of an element that runs an action. -/
theorem RI.evaluate_acting (h : Hooks) (ht : ¬ h.ref.triggered)
    (h1 : h.stopTrigger = falsy) (h2 : h.startTrigger = truthy) (hv : ∀ w, h.veto w = false)
    (h3 : h.start = fun w => w.emit (.startAction h.ref))
    (h4 : h.run = fun w => w.emit (.runAction h.ref))
    (h5 : ∀ w, RI env w → RI env (h.stop w))
    (h6 : h.accomplished = fun w => env.accomplished h.ref w.log) {w : World} (hw : RI env w) :
    RI env (evaluate h w) := by
  have hd : ∀ s n w, (RI env w ∧ w.st h.ref = s) → RI env (dispatch h s n w) := by
    apply dispatch_rule h (fun s _ w => RI env w ∧ w.st h.ref = s) (RI env)
    · intro n w hw _; rw [h2]; exact hw.1
    · intro n w hw _ h'; rw [hv] at h'; cases h'
    · intro n w hw _ _; rw [h2]
      exact ⟨hw.1.goto (fun h => absurd h ht) (by simp) (by simp), by simp⟩
    · intro n w hw; rw [h3]
      have := (hw.1.emit (by simp) (settled_startAction h.ref _)).goto (r := h.ref) (d := .running)
        (by simp) (by simp) (by simp)
      exact ⟨⟨this.coh, this.linked, this.settled⟩, by simp⟩
    · intro n w hw hacc
      rw [h6, h4] at hacc
      rw [h4]
      refine ⟨⟨(hw.1.coh.emit (by simp)).goto _ _, ?_, settled_trans (by simp)⟩, by simp⟩
      refine ⟨⟨⟨?_, ?_⟩, ?_⟩, ⟨.of_not_trans (by simp), fun y hy => absurd hy (hw.1.settled y)⟩,
        hw.1.linked⟩
      · rintro r hr h; injection h with e1 e2 e3; cases e3
      · rintro r hr h; injection h with e1 e2 e3; subst e1
        exact ⟨_, rfl, hacc⟩
      · intro y hy
        cases hy with
        | finish _ => rw [emit_st, hw.2]
    · intro n w hw hacc
      rw [h6, h4] at hacc
      rw [h4]
      refine hw.1.emit (by simp) fun y hy => ?_
      cases hy with
      | finish h' =>
        have : env.accomplished h.ref (.runAction h.ref :: w.log) = false := hacc
        rw [this] at h'; cases h'
    · intro n w hw _
      exact ⟨hw.1.goto (by simp) (by simp) (Or.inr (Or.inr ht)), by simp⟩
    · intro n w hw _
      exact ⟨hw.1.goto (by simp) (by simp) (by simp), by simp⟩
    · intro n w hw; exact hw.1
    · intro n w hw; exact hw.1
    · intro n w hw
      refine ⟨?_, by simp⟩
      split
      · exact hw.1.goto (by simp) (by simp) (by simp)
      · exact (h5 _ hw.1).goto (by simp) (by simp) (by simp)
  show RI env (let (t, w) := h.stopTrigger (w.emit (.visit h.ref))
    let w := if t then w.override h.ref else w
    dispatch h (w.st h.ref) (w.cnt h.ref) w)
  rw [h1]
  exact hd _ _ _ ⟨hw.visit ht, rfl⟩

/-- Evaluation of an element without a trigger of its own. -/
theorem RI.evaluate_plain (h : Hooks) (ha : ¬ h.ref.acting) (ht : ¬ h.ref.triggered)
    (hT : ∀ w, RI env w → RI env (h.stopTrigger w).2) (h2 : h.startTrigger = truthy)
    (h3 : ∀ w, RI env w → RI env (h.start w))
    (h4 : ∀ w, RI env w → RI env (h.run w))
    (h5 : ∀ w, RI env w → RI env (h.stop w)) {w : World} (hw : RI env w) :
    RI env (evaluate h w) := by
  apply evaluate_pres h (RI env)
  · intro w h; exact h.visit ht
  · exact hT
  · intro w h; rw [h2]; exact h
  · intro w s h; exact h.goto (fun h => absurd h ht) (fun h => absurd h ha) (Or.inr (Or.inr ht))
  · intro w n h; exact ⟨h.coh, h.linked, h.settled⟩
  · exact h3
  · exact h4
  · exact h5
  · exact hw

/-- Evaluation of an element with a start trigger. -/
theorem RI.dispatch_triggered (h : Hooks) (ha : ¬ h.ref.acting)
    (h2 : h.startTrigger = fun w => (env.startTrigger h.ref w.log, w.emit (.startTrigger h.ref)))
    (h3 : ∀ w, RI env w → RI env (h.start w))
    (h4 : ∀ w, RI env w → RI env (h.run w))
    (h5 : ∀ w, RI env w → RI env (h.stop w)) :
    ∀ s n w, (Coh w ∧ w.st h.ref = s ∧ Linked env w.log ∧
      (if s = .standby then ∀ y, Owes env w.log y → .startTrigger h.ref = y
        else Settled env w.log)) → RI env (dispatch h s n w) := by
  have fire : ∀ w : World, Coh w → w.st h.ref = .standby → Linked env w.log →
      (∀ y, Owes env w.log y → .startTrigger h.ref = y) → env.startTrigger h.ref w.log = true →
      RI env ((w.emit (.startTrigger h.ref)).goto h.ref .start) := by
    intro w hc hst hl hs ht
    refine ⟨(hc.emit (by simp)).goto _ _, ?_, settled_trans (by simp)⟩
    refine ⟨⟨⟨?_, ?_⟩, ?_⟩, ⟨.of_not_trans (by simp), hs⟩, hl⟩
    · rintro r hr h'; injection h' with e1 e2 e3; subst e1
      exact ⟨_, rfl, ht⟩
    · rintro r hr h'; injection h' with e1 e2 e3; cases e3
    · intro y hy
      cases hy with
      | fire _ => rw [emit_st, hst]
  apply dispatch_rule h (fun s _ w => Coh w ∧ w.st h.ref = s ∧ Linked env w.log ∧
      (if s = .standby then ∀ y, Owes env w.log y → .startTrigger h.ref = y
        else Settled env w.log)) (RI env)
  · rintro n w ⟨hc, hst, hl, hs⟩ ht
    rw [h2] at ht ⊢
    refine ⟨hc.emit (by simp), ⟨⟨.of_not_trans (by simp), ?_⟩, hl⟩, ?_⟩
    · simpa using hs
    · intro y hy
      cases hy with
      | fire h' =>
        have : env.startTrigger h.ref w.log = false := ht
        rw [this] at h'; cases h'
  · rintro n w ⟨hc, hst, hl, hs⟩ ht hv
    rw [h2] at ht ⊢
    exact (fire w hc hst hl (by simpa using hs) ht).goto (by simp) (by simp) (by simp)
  · rintro n w ⟨hc, hst, hl, hs⟩ ht hv
    rw [h2] at ht ⊢
    have := fire w hc hst hl (by simpa using hs) ht
    exact ⟨this.coh, by simp, this.linked, by simpa using this.settled⟩
  · rintro n w ⟨hc, hst, hl, hs⟩
    have := (h3 w ⟨hc, hl, by simpa using hs⟩).goto (r := h.ref) (d := .running) (by simp) (by simp)
      (by simp)
    exact ⟨this.coh, by simp, this.linked, by simpa using this.settled⟩
  · rintro n w ⟨hc, hst, hl, hs⟩ hacc
    have := (h4 w ⟨hc, hl, by simpa using hs⟩).goto (r := h.ref) (d := .end) (by simp)
      (fun h => absurd h ha) (by simp)
    exact ⟨this.coh, by simp, this.linked, by simpa using this.settled⟩
  · rintro n w ⟨hc, hst, hl, hs⟩ hacc
    exact h4 w ⟨hc, hl, by simpa using hs⟩
  · rintro n w ⟨hc, hst, hl, hs⟩ hlt
    have hs : Settled env w.log := by simpa using hs
    refine ⟨hc.goto _ _, by simp, ⟨⟨.trans (by simp) (by simp), fun y hy => absurd hy (hs y)⟩, hl⟩, ?_⟩
    rw [if_pos rfl]
    intro y hy
    rw [goto_log, hst] at hy
    cases hy with
    | again _ => rfl
  · rintro n w ⟨hc, hst, hl, hs⟩ hlt
    have := RI.goto (r := h.ref) (d := .complete) (w := w) ⟨hc, hl, by simpa using hs⟩ (by simp)
      (by simp) (by simp)
    exact ⟨this.coh, by simp, this.linked, by simpa using this.settled⟩
  · rintro n w ⟨hc, hst, hl, hs⟩; exact ⟨hc, hl, by simpa using hs⟩
  · rintro n w ⟨hc, hst, hl, hs⟩; exact ⟨hc, hl, by simpa using hs⟩
  · rintro n w ⟨hc, hst, hl, hs⟩
    have hw : RI env w := ⟨hc, hl, by simpa using hs⟩
    have hw' : RI env (if h.accomplished w then w else h.stop w) := by
      split
      · exact hw
      · exact h5 _ hw
    have := hw'.goto (r := h.ref) (d := .complete) (by simp) (by simp) (by simp)
    exact ⟨this.coh, by simp, this.linked, by simpa using this.settled⟩

theorem RI_evalAction (a : Nat) {w : World} (h : RI env w) : RI env (evalAction env a w) := by
  refine RI.evaluate_acting (actionHooks env a)
    (by simp [actionHooks, Ref.triggered, actionRef]) rfl rfl (fun _ => rfl) rfl rfl ?_ rfl h
  intro w h
  simp only [actionHooks]
  split
  · refine ⟨fun r hr => ?_, h.linked, h.settled⟩
    have : r ≠ actionRef a := by rintro rfl; exact hr rfl
    show (if r = actionRef a then St.complete else w.st r) = _
    rw [if_neg this]; exact h.coh r hr
  · exact ⟨h.coh, h.linked, h.settled⟩

theorem RI_forceStart (cs : List Ref) (hc : ∀ c ∈ cs, ¬ c.triggered) {w : World} (h : RI env w) :
    RI env (forceStart cs w) :=
  foldl_pres (RI env) _ _ (fun w c hm h => h.goto (fun h => absurd h (hc c hm)) (by simp) (by simp)) w h

theorem RI_evalEvent (sib : List Event) (e : Event) {w : World} (h : RI env w) :
    RI env (evalEvent env sib e w) := by
  have hd := RI.dispatch_triggered (env := env) (eventHooks env sib e)
    (by simp [eventHooks, Ref.acting]) rfl ?_ ?_ ?_
  · unfold evalEvent evaluate
    simp only [eventHooks, falsy, Bool.false_eq_true, if_false]
    refine hd _ _ _ ⟨h.coh.emit (by simp), rfl,
      ⟨⟨.of_not_trans (by simp), fun y hy => absurd hy (h.settled y)⟩, h.linked⟩, ?_⟩
    split
    · intro y hy
      cases hy with
      | askEvent _ _ => rfl
      | askStop hk => cases hk
    · rename_i hs
      intro y hy
      cases hy with
      | askEvent _ h' =>
        refine hs ?_
        rw [emit_st]
        exact (h.coh e.ref (by simp)).trans h'
      | askStop hk => cases hk
  · intro w h
    refine RI_forceStart _ ?_ ?_
    · intro c hc; obtain ⟨a, _, rfl⟩ := List.mem_map.1 hc; simp [Ref.triggered, actionRef]
    · split
      · exact foldl_pres (RI env) _ _ (fun w e _ h => h.override _) w h
      · exact h
  · intro w h; exact foldl_pres (RI env) _ _ (fun w a _ h => RI_evalAction a h) w h
  · intro w h; exact foldl_pres (RI env) _ _ (fun w a _ h => RI_evalAction a (h.override _)) w h

theorem RI_evalManeuver (m : Maneuver) {w : World} (h : RI env w) :
    RI env (evalManeuver env m w) :=
  RI.evaluate_plain (maneuverHooks env m) (by simp [maneuverHooks, Ref.acting])
    (by simp [maneuverHooks, Ref.triggered]) (fun _ h => h) rfl (fun _ h => h)
    (fun w h => foldl_pres (RI env) _ _ (fun w e _ h => RI_evalEvent _ e h) w h)
    (fun w h => foldl_pres (RI env) _ _ (fun w e _ h => RI_evalEvent _ e (h.override _)) w h) h

theorem RI_evalGroup (g : Group) {w : World} (h : RI env w) : RI env (evalGroup env g w) :=
  RI.evaluate_plain (groupHooks env g) (by simp [groupHooks, Ref.acting])
    (by simp [groupHooks, Ref.triggered]) (fun _ h => h) rfl
    (fun w h => RI_forceStart _ (by
      intro c hc; obtain ⟨a, _, rfl⟩ := List.mem_map.1 hc; simp [Ref.triggered]) h)
    (fun w h => foldl_pres (RI env) _ _ (fun w e _ h => RI_evalManeuver e h) w h)
    (fun w h => foldl_pres (RI env) _ _ (fun w e _ h => RI_evalManeuver e (h.override _)) w h) h

theorem RI_evalAct (a : Act) {w : World} (h : RI env w) : RI env (evalAct env a w) := by
  have hd := RI.dispatch_triggered (env := env) (actHooks env a)
    (by simp [actHooks, Ref.acting]) rfl ?_ ?_ ?_
  · have hl : Linked env (.stopTrigger a.ref :: .visit a.ref :: w.log) := by
      refine ⟨⟨.of_not_trans (by simp), fun y hy => ?_⟩, ⟨.of_not_trans (by simp),
        fun y hy => absurd hy (h.settled y)⟩, h.linked⟩
      cases hy with
      | askEvent hk => cases hk
      | askStop hk => rfl
    have hc : Coh ((w.emit (.visit a.ref)).emit (.stopTrigger a.ref)) :=
      (h.coh.emit (by simp)).emit (by simp)
    have go : ∀ w', Coh w' ∧ Linked env w'.log ∧ (if w'.st a.ref = .standby then
        ∀ y, Owes env w'.log y → .startTrigger a.ref = y else Settled env w'.log) →
        RI env (dispatch (actHooks env a) (w'.st a.ref) (w'.cnt a.ref) w') :=
      fun w' h => hd _ _ _ ⟨h.1, rfl, h.2.1, h.2.2⟩
    show RI env ((fun w' => dispatch (actHooks env a) (w'.st a.ref) (w'.cnt a.ref) w')
      (if env.stopTrigger a.ref (.visit a.ref :: w.log) = true then
          ((w.emit (.visit a.ref)).emit (.stopTrigger a.ref)).override a.ref
          else (w.emit (.visit a.ref)).emit (.stopTrigger a.ref)))
    by_cases hs : w.st a.ref = .standby
    · have : (if env.stopTrigger a.ref (.visit a.ref :: w.log) = true then
          ((w.emit (.visit a.ref)).emit (.stopTrigger a.ref)).override a.ref
          else (w.emit (.visit a.ref)).emit (.stopTrigger a.ref)) =
          (w.emit (.visit a.ref)).emit (.stopTrigger a.ref) := by
        split
        · unfold World.override
          rw [if_neg]; simp [hs]
        · rfl
      rw [this]
      refine go _ ⟨hc, hl, ?_⟩
      rw [if_pos (by simpa using hs)]
      intro y hy
      cases hy with
      | askAct _ _ => rfl
    · have hr : RI env ((w.emit (.visit a.ref)).emit (.stopTrigger a.ref)) := by
        refine ⟨hc, hl, fun y hy => ?_⟩
        cases hy with
        | askAct _ h' => exact hs ((h.coh a.ref (by simp)).trans h')
      split
      · have hr' := hr.override a.ref
        refine go _ ⟨hr'.coh, hr'.linked, ?_⟩
        rw [if_neg]
        · exact hr'.settled
        · rw [override_st]
          simp only [emit_st]
          split <;> simp_all
      · refine go _ ⟨hr.coh, hr.linked, ?_⟩
        rw [if_neg]
        · exact hr.settled
        · simpa using hs
  · intro w h; exact h
  · intro w h; exact foldl_pres (RI env) _ _ (fun w a _ h => RI_evalGroup a h) w h
  · intro w h; exact foldl_pres (RI env) _ _ (fun w a _ h => RI_evalGroup a (h.override _)) w h

theorem RI_evalStory (s : Story) {w : World} (h : RI env w) : RI env (evalStory env s w) :=
  RI.evaluate_plain (storyHooks env s) (by simp [storyHooks, Ref.acting])
    (by simp [storyHooks, Ref.triggered]) (fun _ h => h) rfl (fun _ h => h)
    (fun w h => foldl_pres (RI env) _ _ (fun w e _ h => RI_evalAct e h) w h)
    (fun w h => foldl_pres (RI env) _ _ (fun w e _ h => RI_evalAct e (h.override _)) w h) h

theorem RI_evalInit {w : World} (h : RI env w) : RI env (evalInit env b w) :=
  RI.evaluate_acting (initHooks env b)
    (by simp [initHooks, Ref.triggered]) rfl rfl (fun _ => rfl) rfl rfl (fun _ h => h) rfl h

theorem RI_runFrames (env : Env) (b : Board) (n : Nat) : RI env (runFrames env b n) := by
  induction n with
  | zero => exact ⟨fun _ _ => rfl, trivial, fun y hy => by cases hy⟩
  | succ n ih =>
    have h0 : RI env ((runFrames env b n).emit .frame) :=
      ih.emit (by simp) fun y hy => by cases hy
    refine RI.evaluate_plain (boardHooks env b) (by simp [boardHooks, Ref.acting])
      (by simp [boardHooks, Ref.triggered]) ?_ rfl (fun _ h => h) ?_ ?_ h0
    · intro w h
      -- the stop trigger of the storyboard
      exact h.emit (by simp) (settled_stopTrigger (by simp) _)
    · intro w h
      exact foldl_pres (RI env) _ _ (fun w e _ h => RI_evalStory e h) _ (RI_evalInit h)
    · intro w h
      exact foldl_pres (RI env) _ _ (fun w e _ h => RI_evalStory e (h.override _)) _
        (RI_evalInit (h.override _))

theorem Linked.before {l l' : Log} {x : Entry} (h : Linked env l) (hb : Before l x l') :
    Caused env l' x ∧ ∀ y, Owes env l' y → x = y := by
  obtain ⟨later, rfl⟩ := hb
  induction later with
  | nil => exact h.1
  | cons y later ih => exact ih h.2

end Verif.Storyboard
