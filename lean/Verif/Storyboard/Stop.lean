import Verif.Storyboard.Calm
/-
Helper lemmas for C07 (stop triggers).
-/
namespace Verif.Storyboard

variable {b : Board}

/-! ### The stop trigger completes the element -/

/-- In log `l`, a stop trigger that fired outside standby was followed by stopTransition. -/
def Answered (env : Env) (l : Log) : Prop :=
  ∀ r l', Before l (.stopTrigger r) l' → env.stopTrigger r l' = true → lastState r l' ≠ .standby →
    ∃ s, .trans r s .stop ∈ l

theorem Before.cons {l : Log} {x y : Entry} {l' : Log} (h : Before (x :: l) y l') :
    (x = y ∧ l = l') ∨ Before l y l' := by
  obtain ⟨later, h⟩ := h
  cases later with
  | nil => injection h with h1 h2; exact Or.inl ⟨h1, h2⟩
  | cons z later => injection h with h1 h2; exact Or.inr ⟨later, h2⟩

theorem Answered.cons {env : Env} {l : Log} {x : Entry} (h : Answered env l)
    (hx : ∀ r, x ≠ .stopTrigger r) : Answered env (x :: l) := by
  intro r l' hb ht hs
  rcases hb.cons with ⟨h1, -⟩ | hb
  · exact absurd h1 (hx r)
  · obtain ⟨s, hm⟩ := h r l' hb ht hs
    exact ⟨s, List.mem_cons_of_mem _ hm⟩

theorem Answered.append {env : Env} {l d : Log} (h : Answered env l)
    (hd : ∀ x ∈ d, ∀ r, x ≠ .stopTrigger r) : Answered env (d ++ l) := by
  induction d with
  | nil => exact h
  | cons x d ih =>
    exact (ih fun y hy => hd y (List.mem_cons_of_mem _ hy)).cons (hd x List.mem_cons_self)

def AC (env : Env) (w : World) : Prop := Coh w ∧ Answered env w.log

theorem AC.goto {env : Env} {w : World} (h : AC env w) (r : Ref) (s : St) : AC env (w.goto r s) :=
  ⟨h.1.goto r s, h.2.cons (by simp)⟩

theorem AC.emit {env : Env} {w : World} (h : AC env w) {x : Entry}
    (hx : ∀ r s d, x ≠ .trans r s d) (hx' : ∀ r, x ≠ .stopTrigger r) : AC env (w.emit x) :=
  ⟨h.1.emit hx, h.2.cons hx'⟩

theorem AC.override {env : Env} {w : World} (h : AC env w) (r : Ref) : AC env (w.override r) := by
  unfold World.override; split
  · exact h.goto _ _
  · exact h

/-- Evaluation of an element with a stop trigger of its own. -/
theorem evaluate_AC (env : Env) (h : Hooks) (hk : h.ref.kind ≠ .action)
    (hT : ∀ w, h.stopTrigger w = (env.stopTrigger h.ref w.log, w.emit (.stopTrigger h.ref)))
    (hstartT : ∀ w, AC env w → AC env (h.startTrigger w).2)
    (hstart : ∀ w, AC env w → AC env (h.start w))
    (hrun : ∀ w, AC env w → AC env (h.run w))
    (hstop : ∀ w, AC env w → AC env (h.stop w)) {w : World} (hw : AC env w) :
    AC env (evaluate h w) := by
  have hd : ∀ s n w, AC env w → AC env (dispatch h s n w) := by
    apply dispatch_rule h (fun _ _ w => AC env w) (AC env)
    · intro n w hw _; exact hstartT _ hw
    · intro n w hw _ _; exact ((hstartT _ hw).goto _ _).goto _ _
    · intro n w hw _ _; exact (hstartT _ hw).goto _ _
    · intro n w hw; exact (hstart _ hw).goto _ _
    · intro n w hw _; exact (hrun _ hw).goto _ _
    · intro n w hw _; exact hrun _ hw
    · intro n w hw _; exact hw.goto _ _
    · intro n w hw _; exact hw.goto _ _
    · intro n w hw; exact hw
    · intro n w hw; exact hw
    · intro n w hw
      split
      · exact hw.goto _ _
      · exact (hstop _ hw).goto _ _
  show AC env (let (t, w) := h.stopTrigger (w.emit (.visit h.ref))
    let w := if t then w.override h.ref else w
    dispatch h (w.st h.ref) (w.cnt h.ref) w)
  rw [hT]
  apply hd
  have hv : AC env (w.emit (.visit h.ref)) := hw.emit (by simp) (by simp)
  have hc : Coh ((w.emit (.visit h.ref)).emit (.stopTrigger h.ref)) := hv.1.emit (by simp)
  split
  · rename_i ht
    refine ⟨hc.override _, ?_⟩
    by_cases hs : ((w.emit (.visit h.ref)).emit (.stopTrigger h.ref)).st h.ref = .standby
    · -- nothing to answer
      have : ((w.emit (.visit h.ref)).emit (.stopTrigger h.ref)).override h.ref =
        (w.emit (.visit h.ref)).emit (.stopTrigger h.ref) := by
          unfold World.override; simp only [hs, ne_eq, not_true_eq_false, false_and, if_false]
      rw [this]
      intro r l' hb ht' hs'
      rcases hb.cons with ⟨h1, h2⟩ | hb
      · injection h1 with h1
        subst h1 h2
        exact absurd ((hv.1 _ hk).symm.trans hs) hs'
      · obtain ⟨s, hm⟩ := hv.2 r l' hb ht' hs'
        exact ⟨s, List.mem_cons_of_mem _ hm⟩
    · by_cases hs2 : ((w.emit (.visit h.ref)).emit (.stopTrigger h.ref)).st h.ref = .stop
      · -- it is in stopTransition already
        have : ((w.emit (.visit h.ref)).emit (.stopTrigger h.ref)).override h.ref =
          (w.emit (.visit h.ref)).emit (.stopTrigger h.ref) := by
            unfold World.override; simp only [hs2, ne_eq, not_true_eq_false, and_false, if_false]
        rw [this]
        intro r l' hb ht' hs'
        rcases hb.cons with ⟨h1, h2⟩ | hb
        · injection h1 with h1
          subst h1
          have hl := (hc h.ref hk).symm.trans hs2
          have key : ∀ l, lastState h.ref l = .stop → ∃ s, Entry.trans h.ref s .stop ∈ l := by
            intro l
            induction l with
            | nil => intro h; cases h
            | cons x l ih =>
              intro hl
              cases x with
              | trans r s d =>
                rw [lastState] at hl
                split at hl
                · rename_i hr; subst hr hl; exact ⟨s, List.mem_cons_self⟩
                · obtain ⟨s, hm⟩ := ih hl; exact ⟨s, List.mem_cons_of_mem _ hm⟩
              | _ => obtain ⟨s, hm⟩ := ih hl; exact ⟨s, List.mem_cons_of_mem _ hm⟩
          exact key _ hl
        · obtain ⟨s, hm⟩ := hv.2 r l' hb ht' hs'
          exact ⟨s, List.mem_cons_of_mem _ hm⟩
      · have : ((w.emit (.visit h.ref)).emit (.stopTrigger h.ref)).override h.ref =
          ((w.emit (.visit h.ref)).emit (.stopTrigger h.ref)).goto h.ref .stop := by
            unfold World.override; rw [if_pos ⟨hs, hs2⟩]
        rw [this]
        intro r l' hb ht' hs'
        rcases hb.cons with ⟨h1, h2⟩ | hb
        · cases h1
        · rcases hb.cons with ⟨h1, h2⟩ | hb
          · injection h1 with h1
            subst h1
            exact ⟨_, List.mem_cons_self⟩
          · obtain ⟨s, hm⟩ := hv.2 r l' hb ht' hs'
            exact ⟨s, List.mem_cons_of_mem _ (List.mem_cons_of_mem _ hm)⟩
  · rename_i ht
    refine ⟨hc, ?_⟩
    intro r l' hb ht' hs'
    rcases hb.cons with ⟨h1, h2⟩ | hb
    · injection h1 with h1
      subst h1 h2
      exact absurd ht' ht
    · obtain ⟨s, hm⟩ := hv.2 r l' hb ht' hs'
      exact ⟨s, List.mem_cons_of_mem _ hm⟩

theorem coh_evalManeuver (env : Env) (m : Maneuver) (w : World) (h : Coh w) :
    Coh (evalManeuver env m w) := by
  apply evaluate_pres (maneuverHooks env m) Coh
  · intro w h; exact h.emit (by simp)
  · intro w h; exact h
  · intro w h; exact h
  · intro w s h; exact h.goto _ _
  · intro w n h; exact h
  · intro w h; exact h
  · intro w h; exact foldl_pres Coh _ _ (fun w e _ h => coh_evalEvent env m.events e _ h) w h
  · intro w h
    exact foldl_pres Coh _ _ (fun w e _ h => coh_evalEvent env m.events e _ (h.override _)) w h
  · exact h

theorem coh_evalGroup (env : Env) (g : Group) (w : World) (h : Coh w) : Coh (evalGroup env g w) := by
  apply evaluate_pres (groupHooks env g) Coh
  · intro w h; exact h.emit (by simp)
  · intro w h; exact h
  · intro w h; exact h
  · intro w s h; exact h.goto _ _
  · intro w n h; exact h
  · intro w h; exact coh_forceStart _ _ h
  · intro w h; exact foldl_pres Coh _ _ (fun w e _ h => coh_evalManeuver env e w h) w h
  · intro w h
    exact foldl_pres Coh _ _ (fun w e _ h => coh_evalManeuver env e _ (h.override _)) w h
  · exact h

/-- Entries written below an act never concern stop triggers. -/
theorem evalGroup_noStop (env : Env) (g : Group) (w : World) :
    ∃ d, (evalGroup env g w).log = d ++ w.log ∧ ∀ x ∈ d, ∀ r, x ≠ .stopTrigger r := by
  have key : ∃ d, (evalGroup env g w).log = d ++ w.log ∧ ∀ x ∈ d, ∀ r, x ≠ Entry.stopTrigger r := by
    let P : World → World → Prop := fun w0 w => ∃ d, w.log = d ++ w0.log ∧ ∀ x ∈ d, ∀ r, x ≠ Entry.stopTrigger r
    have hcons : ∀ (w0 : World) (l : Log) (x : Entry), (∀ r, x ≠ .stopTrigger r) →
        (∃ d, l = d ++ w0.log ∧ ∀ x ∈ d, ∀ r, x ≠ Entry.stopTrigger r) →
        ∃ d, x :: l = d ++ w0.log ∧ ∀ x ∈ d, ∀ r, x ≠ Entry.stopTrigger r := by
      rintro w0 l x hx ⟨d, rfl, hd⟩
      refine ⟨x :: d, rfl, fun y hy r => ?_⟩
      rcases List.mem_cons.1 hy with rfl | hy
      · exact hx r
      · exact hd y hy r
    have hgoto : ∀ (w0 w : World) (r : Ref) (s : St), P w0 w → P w0 (w.goto r s) :=
      fun w0 w r s h => hcons w0 _ _ (by simp) h
    have hov : ∀ (w0 w : World) (r : Ref), P w0 w → P w0 (w.override r) := by
      intro w0 w r h; unfold World.override; split
      · exact hgoto _ _ _ _ h
      · exact h
    have hforce : ∀ (w0 : World) (cs : List Ref) (w : World), P w0 w → P w0 (forceStart cs w) :=
      fun w0 cs w h => foldl_pres (P w0) _ _ (fun w c _ h => hgoto _ _ _ _ h) w h
    have hact : ∀ (w0 : World) (a : Nat) (w : World), P w0 w → P w0 (evalAction env a w) := by
      intro w0 a w h
      apply evaluate_pres (actionHooks env a) (P w0)
      · intro w h; exact hcons w0 _ _ (by simp) h
      · intro w h; exact h
      · intro w h; exact h
      · intro w s h; exact hgoto _ _ _ _ h
      · intro w n h; exact h
      · intro w h; exact hcons w0 _ _ (by simp) h
      · intro w h; exact hcons w0 _ _ (by simp) h
      · intro w h; simp only [actionHooks]; split <;> exact h
      · exact h
    have hevent : ∀ (w0 : World) (sib : List Event) (e : Event) (w : World), P w0 w →
        P w0 (evalEvent env sib e w) := by
      intro w0 sib e w h
      apply evaluate_pres (eventHooks env sib e) (P w0)
      · intro w h; exact hcons w0 _ _ (by simp) h
      · intro w h; exact h
      · intro w h; exact hcons w0 _ _ (by simp) h
      · intro w s h; exact hgoto _ _ _ _ h
      · intro w n h; exact h
      · intro w h
        refine hforce w0 _ _ ?_
        split
        · exact foldl_pres (P w0) _ _ (fun w e _ h => hov _ _ _ h) w h
        · exact h
      · intro w h; exact foldl_pres (P w0) _ _ (fun w a _ h => hact _ _ _ h) w h
      · intro w h; exact foldl_pres (P w0) _ _ (fun w a _ h => hact _ _ _ (hov _ _ _ h)) w h
      · exact h
    have hman : ∀ (w0 : World) (m : Maneuver) (w : World), P w0 w → P w0 (evalManeuver env m w) := by
      intro w0 m w h
      apply evaluate_pres (maneuverHooks env m) (P w0)
      · intro w h; exact hcons w0 _ _ (by simp) h
      · intro w h; exact h
      · intro w h; exact h
      · intro w s h; exact hgoto _ _ _ _ h
      · intro w n h; exact h
      · intro w h; exact h
      · intro w h; exact foldl_pres (P w0) _ _ (fun w e _ h => hevent _ _ _ _ h) w h
      · intro w h; exact foldl_pres (P w0) _ _ (fun w e _ h => hevent _ _ _ _ (hov _ _ _ h)) w h
      · exact h
    refine evaluate_pres (groupHooks env g) (P w) ?_ ?_ ?_ ?_ ?_ ?_ ?_ ?_ w ⟨[], rfl, by simp⟩
    · intro w' h; exact hcons w _ _ (by simp) h
    · intro w h; exact h
    · intro w h; exact h
    · intro w s h; exact hgoto _ _ _ _ h
    · intro w n h; exact h
    · intro w' h; exact hforce _ _ _ h
    · intro w' h; exact foldl_pres (P w) _ _ (fun w e _ h => hman _ _ _ h) w' h
    · intro w' h; exact foldl_pres (P w) _ _ (fun w e _ h => hman _ _ _ (hov _ _ _ h)) w' h
  exact key

theorem AC_evalGroup (env : Env) (g : Group) {w : World} (h : AC env w) : AC env (evalGroup env g w) := by
  obtain ⟨d, hd, hx⟩ := evalGroup_noStop env g w
  refine ⟨coh_evalGroup env g w h.1, ?_⟩
  rw [hd]; exact h.2.append hx

theorem AC_evalAct (env : Env) (a : Act) {w : World} (h : AC env w) : AC env (evalAct env a w) :=
  evaluate_AC env (actHooks env a) (by simp [actHooks]) (fun _ => rfl)
    (fun w h => h.emit (by simp) (by simp)) (fun w h => h)
    (fun w h => foldl_pres (AC env) _ _ (fun w g _ h => AC_evalGroup env g h) w h)
    (fun w h => foldl_pres (AC env) _ _ (fun w g _ h => AC_evalGroup env g (h.override _)) w h) h

theorem AC_evalStory (env : Env) (s : Story) {w : World} (h : AC env w) :
    AC env (evalStory env s w) := by
  apply evaluate_pres (storyHooks env s) (AC env)
  · intro w h; exact h.emit (by simp) (by simp)
  · intro w h; exact h
  · intro w h; exact h
  · intro w s h; exact h.goto _ _
  · intro w n h; exact h
  · intro w h; exact h
  · intro w h; exact foldl_pres (AC env) _ _ (fun w e _ h => AC_evalAct env e h) w h
  · intro w h; exact foldl_pres (AC env) _ _ (fun w e _ h => AC_evalAct env e (h.override _)) w h
  · exact h

theorem AC_evalInit (env : Env) {w : World} (h : AC env w) : AC env (evalInit env b w) := by
  apply evaluate_pres (initHooks env b) (AC env)
  · intro w h; exact h.emit (by simp) (by simp)
  · intro w h; exact h
  · intro w h; exact h
  · intro w s h; exact h.goto _ _
  · intro w n h; exact h
  · intro w h; exact h.emit (by simp) (by simp)
  · intro w h; exact h.emit (by simp) (by simp)
  · intro w h; exact h
  · exact h

theorem AC_runFrames (env : Env) (b : Board) (n : Nat) : AC env (runFrames env b n) := by
  induction n with
  | zero =>
    refine ⟨fun _ _ => rfl, fun r l' hb => ?_⟩
    obtain ⟨later, h⟩ := hb
    cases later <;> cases h
  | succ n ih =>
    refine evaluate_AC env (boardHooks env b) (by simp [boardHooks]) (fun _ => rfl)
      (fun w h => h) (fun w h => h) (fun w h => ?_) (fun w h => ?_)
      (ih.emit (x := .frame) (by simp) (by simp))
    · exact foldl_pres (AC env) _ _ (fun w e _ h => AC_evalStory env e h) _ (AC_evalInit env h)
    · exact foldl_pres (AC env) _ _ (fun w e _ h => AC_evalStory env e (h.override _)) _
        (AC_evalInit env (h.override _))

/-- Acts, stories, the storyboard and groups that were stopped once are only ever complete or in
stopTransition. -/
theorem stopped_frozen {r : Ref} (hk : r.kind ≠ .event ∧ r.kind ≠ .action ∧ r.kind ≠ .maneuver)
    {s : St} {l later : Log} (hg : Good b (later ++ .trans r s .stop :: l)) :
    lastState r (later ++ .trans r s .stop :: l) = .stop ∨
    lastState r (later ++ .trans r s .stop :: l) = .complete := by
  induction later with
  | nil => left; simp [lastState]
  | cons y later ih =>
    have h1 := ih hg.2
    cases y with
    | trans r' s' d' =>
      simp only [List.cons_append, lastState]
      by_cases hr : r' = r
      · subst hr
        simp only [if_true]
        have hsrc := hg.1.src
        have hleg := hg.1.legal
        have key : ∀ {k : Kind} {s d : St}, k ≠ .event → k ≠ .action → k ≠ .maneuver →
            Legal k s d → s = .stop ∨ s = .complete → d = .stop ∨ d = .complete := by
          intro k s d h1 h2 h3 hl hs
          cases hl <;> simp_all
        exact key hk.1 hk.2.1 hk.2.2 hleg (by rw [hsrc]; exact h1)
      · simp only [if_neg hr]; exact h1
    | _ => exact h1

theorem calm_child (wf : b.WF) {env : Env} (hq : Quiet env b) (n : Nat) {p c : Ref}
    (hc : Child b p c) (h : Calm p (runFrames env b n)) : Calm c (runFrames env b n) := by
  have hF := runFrames_inv wf env n
  obtain ⟨⟨⟨hM, hA⟩, hS⟩, hB⟩ := runFrames_PS wf hq n
  have pair : ∀ {auto : Prop} {p c : Ref} {cs : List Ref}, Pair auto p cs (runFrames env b n) →
      c ∈ cs → Calm p (runFrames env b n) → Calm c (runFrames env b n) := by
    intro auto p c cs hp hc h
    rcases h with h | h
    · exact hp.standby h c hc
    · exact (hp.complete h c hc).1
  cases hc with
  | init => exact pair hB List.mem_cons_self h
  | story hs => exact pair hB (List.mem_cons_of_mem _ (List.mem_map.2 ⟨_, hs, rfl⟩)) h
  | act hs ha => exact pair (hS _ hs (fun h => h)) (List.mem_map.2 ⟨_, ha, rfl⟩) h
  | group ha hg => exact pair (hA _ ha (fun h => h)) (List.mem_map.2 ⟨_, hg, rfl⟩) h
  | @maneuver g m hg hm =>
    have ok := (hF.gg _ hg).ok
    rcases h with h | h <;> rw [h] at ok
    · exact ok _ hm
    · exact Or.inr (ok _ hm)
  | event hm he => exact pair (hM.2 _ hm (fun h => h)) (List.mem_map.2 ⟨_, he, rfl⟩) h
  | @action e a he ha =>
    have ok := (hF.ge _ he).ok
    rcases h with h | h <;> rw [h] at ok
    · exact (ok.2 _ ha).1
    · exact Or.inr (ok.2 _ ha).1

end Verif.Storyboard
