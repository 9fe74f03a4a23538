import Verif.Storyboard.InvGroup
/-
The invariant of Acts, Stories, InitActions, the Storyboard, and of any number of frames.
-/
namespace Verif.Storyboard

section
variable {b : Board}

/-- Everything below the acts. -/
def KG (b : Board) (w : World) : Prop := KM b w ∧ GG b w

theorem not_owns_maneuver {m : Maneuver} {r : Ref} (h1 : r.kind ≠ .event) (h2 : r.kind ≠ .action)
    (h3 : r.kind ≠ .maneuver) : ¬ m.owns r := by
  rintro (rfl | h)
  · exact h3 rfl
  · exact not_owns_events h1 h2 h

theorem not_owns_group {g : Group} {r : Ref} (h1 : r.kind ≠ .event) (h2 : r.kind ≠ .action)
    (h3 : r.kind ≠ .maneuver) (h4 : r.kind ≠ .group) : ¬ g.owns r := by
  rintro (rfl | ⟨m, _, h⟩)
  · exact h4 rfl
  · exact not_owns_maneuver h1 h2 h3 h

theorem not_owns_act {g : Act} {r : Ref} (h1 : r.kind ≠ .event) (h2 : r.kind ≠ .action)
    (h3 : r.kind ≠ .maneuver) (h4 : r.kind ≠ .group) (h5 : r.kind ≠ .act) : ¬ g.owns r := by
  rintro (rfl | ⟨m, _, h⟩)
  · exact h5 rfl
  · exact not_owns_group h1 h2 h3 h4 h

theorem not_owns_story {g : Story} {r : Ref} (h1 : r.kind ≠ .event) (h2 : r.kind ≠ .action)
    (h3 : r.kind ≠ .maneuver) (h4 : r.kind ≠ .group) (h5 : r.kind ≠ .act)
    (h6 : r.kind ≠ .story) : ¬ g.owns r := by
  rintro (rfl | ⟨m, _, h⟩)
  · exact h6 rfl
  · exact not_owns_act h1 h2 h3 h4 h5 h

theorem GRest.frame (wf : b.WF) {g g' : Group} (hg : g ∈ b.groups) (hg' : g' ∈ b.groups)
    (hne : g' ≠ g) {w w' : World} (ho : Only g.owns w w') (h : GRest g' w) : GRest g' w' := by
  have h0 : ¬ g.owns g'.ref := by
    rintro (h | ⟨m, _, h⟩)
    · exact hne (wf.group_inj hg' hg h)
    · exact not_owns_maneuver (by simp) (by simp) (by simp) h
  have h1 : ∀ m ∈ g'.maneuvers, ¬ g.owns m.ref := by
    rintro m hm (h | ⟨m', hm', h | h⟩)
    · exact absurd h (ref_ne_of_kind (by simp))
    · have := wf.maneuver_inj (mem_maneuvers hg' hm) (mem_maneuvers hg hm') h
      subst this; exact hne (wf.maneuver_owner hg' hg hm hm')
    · exact not_owns_events (by simp) (by simp) h
  exact h.congr (ho.st _ h0) (ho.cnt _ h0) (fun m hm => ⟨ho.st _ (h1 m hm), ho.cnt _ (h1 m hm)⟩)

theorem evalGroup_KG (wf : b.WF) {env : Env} {g : Group} (hg : g ∈ b.groups) {w : World}
    (h : KG b w) : KG b (evalGroup env g w) := by
  have hr := h.2 g hg
  obtain ⟨h1, h2, -⟩ := evalGroup_inv (env := env) wf hg h.1 (Or.inr hr.rest) hr.ok
  refine ⟨h1, fun g' hg' => ?_⟩
  by_cases hne : g' = g
  · subst hne; exact h2
  · exact (h.2 g' hg').frame wf hg hg' hne (only_evalGroup env g w)

theorem override_KM {r : Ref} (h1 : r.kind ≠ .event) (h2 : r.kind ≠ .action) {w : World}
    (hs : w.st r = .standby ∨ w.st r = .running ∨ w.st r = .complete) (h : KM b w) :
    KM b (w.override r) := by
  refine ⟨h.1.override (by rcases hs with h | h | h <;> simp [h]), ?_⟩
  unfold World.override
  split
  · exact h.2.goto _ h1 h2
  · exact h.2

theorem stopGroup_KG (wf : b.WF) {env : Env} {g : Group} (hg : g ∈ b.groups) {w : World}
    (h : KG b w) : KG b (overrideThen g.ref (evalGroup env g) w) ∧
      (w.st g.ref ≠ .standby → (overrideThen g.ref (evalGroup env g) w).st g.ref = .complete) := by
  have hr := h.2 g hg
  have hst := override_st w g.ref g.ref
  simp only [true_and] at hst
  have hm : ∀ m ∈ g.maneuvers, (w.override g.ref).st m.ref = w.st m.ref := fun m _ => by
    rw [override_st, if_neg]; rintro ⟨h, -⟩; simp [Maneuver.ref, Group.ref] at h
  obtain ⟨h1, h2, -, h4⟩ := evalGroup_inv (env := env) wf hg
    (override_KM (r := g.ref) (by simp) (by simp) hr.rest.state h.1) (by
      rcases hr.rest.state with h | h | h
      · right; exact ⟨by simp [hst, h], by simp [hst, h]⟩
      · left; simp [hst, h]
      · left; simp [hst, h]) (by
      have hok := hr.ok
      rw [hst]
      rcases hr.rest.state with h | h | h
      · rw [h] at hok; simp only [h, ne_eq, not_true_eq_false, if_false]
        exact hok.congr fun m hm' => ⟨hm m hm', by simp⟩
      · rw [h] at hok; simp only [h, ne_eq]
        intro m hm'
        rw [hm m hm']
        rcases hok m hm' with h | h | h
        · exact absurd h (hr.notStart m hm')
        · left; simpa using h
        · right; exact h
      · rw [h] at hok; simp only [h, ne_eq]
        intro m hm'
        rw [hm m hm']
        exact Or.inr (hok m hm'))
  refine ⟨⟨h1, fun g' hg' => ?_⟩, fun hne => h4 (Or.inr (by simp [hst, hne]))⟩
  by_cases hne : g' = g
  · subst hne; exact h2
  · exact (h.2 g' hg').frame wf hg hg' hne
      (only_overrideThen _ _ (Or.inl rfl) (only_evalGroup env g) w)

/-! ### Act -/

theorem evalAct_inv (wf : b.WF) {env : Env} {a : Act} (ha : a ∈ b.acts) {w : World}
    (hw : KG b w) (hs : w.st a.ref = .stop ∨ SRest a.ref w) :
    KG b (evalAct env a w) ∧ SRest a.ref (evalAct env a w) ∧
    (w.st a.ref = .complete ∨ w.st a.ref = .stop ∨
      (env.stopTrigger a.ref (.visit a.ref :: w.log) = true ∧ w.st a.ref ≠ .standby) →
      (evalAct env a w).st a.ref = .complete) := by
  have honly : ∀ w, Only (fun r => ∃ g ∈ a.groups, g.owns r) w ((actHooks env a).run w) := fun w =>
    only_foldl _ _ (fun w g hg => (only_evalGroup env g w).mono fun r hr => ⟨g, hg, hr⟩) w
  have honly' : ∀ w, Only (fun r => ∃ g ∈ a.groups, g.owns r) w ((actHooks env a).stop w) := fun w =>
    only_foldl _ _ (fun w g hg => only_overrideThen _ _ ⟨g, hg, Or.inl rfl⟩
      (fun w => (only_evalGroup env g w).mono fun r hr => ⟨g, hg, hr⟩) w) w
  have hno : ¬ ∃ g ∈ a.groups, g.owns a.ref := by
    rintro ⟨g, _, h⟩; exact not_owns_group (by simp) (by simp) (by simp) (by simp) h
  obtain ⟨h1, h2, h3, h4⟩ := composite_inv (b := b) (actHooks env a) (KG b) (fun w h => h.1.1)
    (by simp [actHooks]) (by simp [actHooks]) rfl (fun _ => rfl)
    (fun w h => ⟨h, rfl, rfl⟩)
    (fun w h => ⟨⟨⟨h.1.1.emit (by simp), h.1.2.emit _⟩, h.2.emit _⟩, rfl, rfl⟩)
    (fun w h => ⟨⟨⟨h.1.1.emit (by simp), h.1.2.emit _⟩, h.2.emit _⟩, rfl, rfl⟩)
    (fun w h => ⟨⟨h.1.1.emit (by simp), h.1.2.emit _⟩, h.2.emit _⟩)
    (fun w s h h' => ⟨⟨h', h.1.2.goto s (by simp [actHooks]) (by simp [actHooks])⟩,
      h.2.goto s (by simp [actHooks]) (by simp [actHooks])⟩)
    (fun w n h h' => ⟨⟨h', (h.1.2.goto _ (by simp [actHooks]) (by simp [actHooks])).setCnt n
      (by simp [actHooks]) (by simp [actHooks])⟩,
      (h.2.goto _ (by simp [actHooks]) (by simp [actHooks])).setCnt n
      (by simp [actHooks]) (by simp [actHooks])⟩)
    (fun w h hacc c hc => by
      obtain ⟨e, he, rfl⟩ := child_act wf ha hc
      exact allComplete_map hacc e he)
    (fun w h => ⟨foldl_pres (KG b) _ _ (fun _ _ hg h => evalGroup_KG wf (mem_groups ha hg) h) w h,
      (honly w).st _ hno, (honly w).cnt _ hno⟩)
    (fun w h => ⟨foldl_pres (KG b) _ _ (fun _ _ hg h => (stopGroup_KG wf (mem_groups ha hg) h).1) w h,
      (honly' w).st _ hno, (honly' w).cnt _ hno⟩)
    hw (Or.inr hs)
  exact ⟨h1, h2, h4⟩

/-- Everything below the stories. -/
def KA (b : Board) (w : World) : Prop := KG b w ∧ ∀ a ∈ b.acts, SRest a.ref w

theorem SRest.goto_ne {r r' : Ref} {w : World} {s : St} (h : SRest r w) (hr : r ≠ r') :
    SRest r (w.goto r' s) := h.congr (goto_st_ne _ _ hr) rfl

theorem KG.goto {w : World} {r : Ref} {s : St} (h : KG b w) (h' : WI b (w.goto r s))
    (h1 : r.kind ≠ .event) (h2 : r.kind ≠ .action)
    (h3 : r.kind ≠ .maneuver) (h4 : r.kind ≠ .group) : KG b (w.goto r s) :=
  ⟨⟨h', h.1.2.goto s h1 h2⟩, h.2.goto s h4 h3⟩

theorem KG.run {w : World} {r : Ref} {s : St} {n : Nat} (h : KG b w)
    (h' : WI b ((w.goto r s).setCnt r n)) (h1 : r.kind ≠ .event) (h2 : r.kind ≠ .action)
    (h3 : r.kind ≠ .maneuver) (h4 : r.kind ≠ .group) : KG b ((w.goto r s).setCnt r n) :=
  ⟨⟨h', (h.1.2.goto s h1 h2).setCnt n h1 h2⟩, (h.2.goto s h4 h3).setCnt n h4 h3⟩

theorem KG.emit {w : World} (h : KG b w) {x : Entry}
    (hx : x.Plain) : KG b (w.emit x) :=
  ⟨⟨h.1.1.emit hx, h.1.2.emit x⟩, h.2.emit x⟩

theorem SRest.emit {w : World} {r : Ref} (h : SRest r w) (x : Entry) : SRest r (w.emit x) :=
  h.congr (w := w) rfl rfl

theorem KG.override {w : World} {r : Ref} (h : KG b w) (h1 : r.kind ≠ .event) (h2 : r.kind ≠ .action)
    (h3 : r.kind ≠ .maneuver) (h4 : r.kind ≠ .group)
    (hs : w.st r = .standby ∨ w.st r = .running ∨ w.st r = .complete) : KG b (w.override r) := by
  refine ⟨override_KM h1 h2 hs h.1, ?_⟩
  unfold World.override
  split
  · exact h.2.goto _ h4 h3
  · exact h.2

theorem override_stop {w : World} {r : Ref} (h : SRest r w) :
    (w.override r).st r = .stop ∨ SRest r (w.override r) := by
  have hst := override_st w r r
  simp only [true_and] at hst
  rcases h.state with h | h | h
  · right; exact ⟨by simp [hst, h], by simp [hst, h]⟩
  · left; simp [hst, h]
  · left; simp [hst, h]

theorem act_frame (wf : b.WF) {a a' : Act} (ha : a ∈ b.acts) (ha' : a' ∈ b.acts) (hne : a' ≠ a)
    {w w' : World} (ho : Only a.owns w w') (h : SRest a'.ref w) : SRest a'.ref w' := by
  have h0 : ¬ a.owns a'.ref := by
    rintro (h | ⟨m, _, h⟩)
    · exact hne (wf.act_inj ha' ha h)
    · exact not_owns_group (by simp) (by simp) (by simp) (by simp) h
  exact h.congr (ho.st _ h0) (ho.cnt _ h0)

theorem evalAct_KA (wf : b.WF) {env : Env} {a : Act} (ha : a ∈ b.acts) {w : World}
    (h : KA b w) : KA b (evalAct env a w) := by
  obtain ⟨h1, h2, -⟩ := evalAct_inv (env := env) wf ha h.1 (Or.inr (h.2 a ha))
  refine ⟨h1, fun a' ha' => ?_⟩
  by_cases hne : a' = a
  · subst hne; exact h2
  · exact act_frame wf ha ha' hne (only_evalAct env a w) (h.2 a' ha')

theorem stopAct_KA (wf : b.WF) {env : Env} {a : Act} (ha : a ∈ b.acts) {w : World}
    (h : KA b w) : KA b (overrideThen a.ref (evalAct env a) w) ∧
      (w.st a.ref ≠ .standby → (overrideThen a.ref (evalAct env a) w).st a.ref = .complete) := by
  have hr := h.2 a ha
  have hst := override_st w a.ref a.ref
  simp only [true_and] at hst
  obtain ⟨h1, h2, h4⟩ := evalAct_inv (env := env) wf ha
    (h.1.override (r := a.ref) (by simp) (by simp) (by simp) (by simp) hr.state) (override_stop hr)
  refine ⟨⟨h1, fun a' ha' => ?_⟩, fun hne => h4 (Or.inr (Or.inl (by simp [hst, hne])))⟩
  by_cases hne : a' = a
  · subst hne; exact h2
  · exact act_frame wf ha ha' hne
      (only_overrideThen _ _ (Or.inl rfl) (only_evalAct env a) w) (h.2 a' ha')

/-! ### Story -/

theorem KA.goto {w : World} {r : Ref} {s : St} (h : KA b w) (h' : WI b (w.goto r s))
    (h1 : r.kind ≠ .event) (h2 : r.kind ≠ .action)
    (h3 : r.kind ≠ .maneuver) (h4 : r.kind ≠ .group) (h5 : r.kind ≠ .act) : KA b (w.goto r s) :=
  ⟨h.1.goto h' h1 h2 h3 h4, fun a ha => (h.2 a ha).goto_ne (ref_ne_of_kind (Ne.symm h5))⟩

theorem KA.run {w : World} {r : Ref} {s : St} {n : Nat} (h : KA b w)
    (h' : WI b ((w.goto r s).setCnt r n)) (h1 : r.kind ≠ .event) (h2 : r.kind ≠ .action)
    (h3 : r.kind ≠ .maneuver) (h4 : r.kind ≠ .group) (h5 : r.kind ≠ .act) :
    KA b ((w.goto r s).setCnt r n) :=
  ⟨h.1.run h' h1 h2 h3 h4, fun a ha =>
    ((h.2 a ha).goto_ne (ref_ne_of_kind (Ne.symm h5))).congr (w := w.goto r s) rfl
      (setCnt_cnt_ne _ _ (ref_ne_of_kind (Ne.symm h5)))⟩

theorem KA.emit {w : World} (h : KA b w) {x : Entry}
    (hx : x.Plain) : KA b (w.emit x) :=
  ⟨h.1.emit hx, fun a ha => (h.2 a ha).emit x⟩

theorem KA.override {w : World} {r : Ref} (h : KA b w) (h1 : r.kind ≠ .event) (h2 : r.kind ≠ .action)
    (h3 : r.kind ≠ .maneuver) (h4 : r.kind ≠ .group) (h5 : r.kind ≠ .act)
    (hs : w.st r = .standby ∨ w.st r = .running ∨ w.st r = .complete) : KA b (w.override r) := by
  refine ⟨h.1.override h1 h2 h3 h4 hs, fun a ha => ?_⟩
  unfold World.override
  split
  · exact (h.2 a ha).goto_ne (ref_ne_of_kind (Ne.symm h5))
  · exact h.2 a ha

theorem evalStory_inv (wf : b.WF) {env : Env} {s : Story} (hsb : s ∈ b.stories) {w : World}
    (hw : KA b w) (hs : w.st s.ref = .stop ∨ SRest s.ref w) :
    KA b (evalStory env s w) ∧ SRest s.ref (evalStory env s w) ∧
    (evalStory env s w).st s.ref ≠ .standby ∧
    (w.st s.ref = .complete ∨ w.st s.ref = .stop → (evalStory env s w).st s.ref = .complete) := by
  have honly : ∀ w, Only (fun r => ∃ g ∈ s.acts, g.owns r) w ((storyHooks env s).run w) := fun w =>
    only_foldl _ _ (fun w g hg => (only_evalAct env g w).mono fun r hr => ⟨g, hg, hr⟩) w
  have honly' : ∀ w, Only (fun r => ∃ g ∈ s.acts, g.owns r) w ((storyHooks env s).stop w) := fun w =>
    only_foldl _ _ (fun w g hg => only_overrideThen _ _ ⟨g, hg, Or.inl rfl⟩
      (fun w => (only_evalAct env g w).mono fun r hr => ⟨g, hg, hr⟩) w) w
  have hno : ¬ ∃ g ∈ s.acts, g.owns s.ref := by
    rintro ⟨g, _, h⟩; exact not_owns_act (by simp) (by simp) (by simp) (by simp) (by simp) h
  obtain ⟨h1, h2, h3, h4⟩ := composite_inv (b := b) (storyHooks env s) (KA b) (fun w h => h.1.1.1)
    (by simp [storyHooks]) (by simp [storyHooks]) rfl (fun _ => rfl)
    (fun w h => ⟨h, rfl, rfl⟩) (fun w h => ⟨h, rfl, rfl⟩) (fun w h => ⟨h, rfl, rfl⟩)
    (fun w h => h.emit (by simp))
    (fun w s h h' => h.goto h' (by simp [storyHooks]) (by simp [storyHooks]) (by simp [storyHooks])
      (by simp [storyHooks]) (by simp [storyHooks]))
    (fun w n h h' => h.run h' (by simp [storyHooks]) (by simp [storyHooks]) (by simp [storyHooks])
      (by simp [storyHooks]) (by simp [storyHooks]))
    (fun w h hacc c hc => by
      obtain ⟨e, he, rfl⟩ := child_story wf hsb hc
      exact allComplete_map hacc e he)
    (fun w h => ⟨foldl_pres (KA b) _ _ (fun _ _ hg h => evalAct_KA wf (mem_acts hsb hg) h) w h,
      (honly w).st _ hno, (honly w).cnt _ hno⟩)
    (fun w h => ⟨foldl_pres (KA b) _ _ (fun _ _ hg h => (stopAct_KA wf (mem_acts hsb hg) h).1) w h,
      (honly' w).st _ hno, (honly' w).cnt _ hno⟩)
    hw (Or.inr hs)
  refine ⟨h1, h2, h3 (fun _ => rfl), fun h => h4 ?_⟩
  rcases h with h | h
  · exact Or.inl h
  · exact Or.inr (Or.inl h)

/-! ### InitActions -/

theorem evalInit_inv (_wf : b.WF) {env : Env} {w : World}
    (hw : KA b w) (hs : w.st b.initRef = .stop ∨ SRest b.initRef w) :
    KA b (evalInit env b w) ∧ SRest b.initRef (evalInit env b w) ∧
    (evalInit env b w).st b.initRef ≠ .standby ∧
    (w.st b.initRef = .complete ∨ w.st b.initRef = .stop →
      (evalInit env b w).st b.initRef = .complete) := by
  have hinit : ∀ w, KA b w → KA b (w.emit (.startAction b.initRef)) := fun w h =>
    ⟨⟨⟨⟨h.1.1.1.coh, ⟨fun e _ a _ h => by simp [Board.initRef, actionRef] at h, h.1.1.1.good⟩, fun r => by
        simpa [executions] using h.1.1.1.cnt r, fun a => by
        have := h.1.1.1.starts a
        have hne : b.initRef ≠ actionRef a := ref_ne_of_kind (by simp)
        simpa [Verif.Storyboard.starts, hne] using this⟩, h.1.1.2.emit _⟩, h.1.2.emit _⟩,
      fun a ha => (h.2 a ha).emit _⟩
  obtain ⟨h1, h2, h3, h4⟩ := composite_inv (b := b) (initHooks env b) (KA b) (fun w h => h.1.1.1)
    (by simp [initHooks]) (by simp [initHooks]) rfl (fun _ => rfl)
    (fun w h => ⟨hinit w h, rfl, rfl⟩) (fun w h => ⟨h, rfl, rfl⟩) (fun w h => ⟨h, rfl, rfl⟩)
    (fun w h => h.emit (by simp))
    (fun w s h h' => h.goto h' (by simp [initHooks]) (by simp [initHooks]) (by simp [initHooks])
      (by simp [initHooks]) (by simp [initHooks]))
    (fun w n h h' => h.run h' (by simp [initHooks]) (by simp [initHooks]) (by simp [initHooks])
      (by simp [initHooks]) (by simp [initHooks]))
    (fun w h hacc c hc => (no_child_init hc).elim)
    (fun w h => ⟨h.emit ⟨by simp, by simp, fun a h => by
      simp [Board.initRef, actionRef] at h⟩, rfl, rfl⟩)
    (fun w h => ⟨h, rfl, rfl⟩)
    hw (Or.inr hs)
  refine ⟨h1, h2, h3 (fun _ => rfl), fun h => h4 ?_⟩
  rcases h with h | h
  · exact Or.inl h
  · exact Or.inr (Or.inl h)

/-! ### Storyboard -/

/-- Everything below the storyboard itself. -/
def KS (b : Board) (w : World) : Prop :=
  KA b w ∧ SRest b.initRef w ∧ ∀ s ∈ b.stories, SRest s.ref w

theorem KS.emit {w : World} (h : KS b w) {x : Entry}
    (hx : x.Plain) : KS b (w.emit x) :=
  ⟨h.1.emit hx, h.2.1.emit x, fun a ha => (h.2.2 a ha).emit x⟩

theorem story_frame (wf : b.WF) {a a' : Story} (ha : a ∈ b.stories) (ha' : a' ∈ b.stories)
    (hne : a' ≠ a) {w w' : World} (ho : Only a.owns w w') (h : SRest a'.ref w) :
    SRest a'.ref w' := by
  have h0 : ¬ a.owns a'.ref := by
    rintro (h | ⟨m, _, h⟩)
    · exact hne (wf.story_inj ha' ha h)
    · exact not_owns_act (by simp) (by simp) (by simp) (by simp) (by simp) h
  exact h.congr (ho.st _ h0) (ho.cnt _ h0)

theorem evalStory_KS (wf : b.WF) {env : Env} {s : Story} (hs : s ∈ b.stories) {w : World}
    (h : KS b w) : KS b (evalStory env s w) := by
  obtain ⟨h1, h2, -, -⟩ := evalStory_inv (env := env) wf hs h.1 (Or.inr (h.2.2 s hs))
  have ho := only_evalStory env s w
  refine ⟨h1, ?_, fun a' ha' => ?_⟩
  · have hn : ¬ s.owns b.initRef :=
      not_owns_story (by simp) (by simp) (by simp) (by simp) (by simp) (by simp)
    exact h.2.1.congr (ho.st _ hn) (ho.cnt _ hn)
  · by_cases hne : a' = s
    · subst hne; exact h2
    · exact story_frame wf hs ha' hne ho (h.2.2 a' ha')

theorem stopStory_KS (wf : b.WF) {env : Env} {s : Story} (hs : s ∈ b.stories) {w : World}
    (h : KS b w) : KS b (overrideThen s.ref (evalStory env s) w) := by
  have hr := h.2.2 s hs
  obtain ⟨h1, h2, -, -⟩ := evalStory_inv (env := env) wf hs
    (h.1.override (r := s.ref) (by simp) (by simp) (by simp) (by simp) (by simp) hr.state)
    (override_stop hr)
  have ho : Only s.owns w (overrideThen s.ref (evalStory env s) w) :=
    only_overrideThen _ _ (Or.inl rfl) (only_evalStory env s) w
  refine ⟨h1, ?_, fun a' ha' => ?_⟩
  · have hn : ¬ s.owns b.initRef :=
      not_owns_story (by simp) (by simp) (by simp) (by simp) (by simp) (by simp)
    exact h.2.1.congr (ho.st _ hn) (ho.cnt _ hn)
  · by_cases hne : a' = s
    · subst hne; exact h2
    · exact story_frame wf hs ha' hne ho (h.2.2 a' ha')

theorem evalInit_KS (wf : b.WF) {env : Env} {w : World} (h : KS b w) : KS b (evalInit env b w) := by
  obtain ⟨h1, h2, -, -⟩ := evalInit_inv (env := env) wf h.1 (Or.inr h.2.1)
  have ho := only_evalInit env b w
  refine ⟨h1, h2, fun a' ha' => ?_⟩
  have hn : ¬ (a'.ref = b.initRef) := ref_ne_of_kind (by simp)
  exact (h.2.2 a' ha').congr (ho.st _ hn) (ho.cnt _ hn)

theorem stopInit_KS (wf : b.WF) {env : Env} {w : World} (h : KS b w) :
    KS b (overrideThen b.initRef (evalInit env b) w) := by
  have hr := h.2.1
  obtain ⟨h1, h2, -, -⟩ := evalInit_inv (env := env) wf
    (h.1.override (r := b.initRef) (by simp) (by simp) (by simp) (by simp) (by simp) hr.state)
    (override_stop hr)
  have ho : Only (· = b.initRef) w (overrideThen b.initRef (evalInit env b) w) :=
    only_overrideThen (T := (· = b.initRef)) _ _ rfl (only_evalInit env b) w
  refine ⟨h1, h2, fun a' ha' => ?_⟩
  have hn : ¬ (a'.ref = b.initRef) := ref_ne_of_kind (by simp)
  exact (h.2.2 a' ha').congr (ho.st _ hn) (ho.cnt _ hn)

/-- The invariant of the whole storyboard between two frames. -/
def FI (b : Board) (w : World) : Prop := KS b w ∧ SRest b.ref w

theorem only_boardRun (env : Env) (b : Board) (w : World) :
    Only (fun r => r = b.initRef ∨ ∃ s ∈ b.stories, s.owns r) w ((boardHooks env b).run w) :=
  ((only_evalInit env b w).mono (fun _ h => Or.inl h)).trans
    (only_foldl _ _ (fun w s hs => (only_evalStory env s w).mono fun _ hr => Or.inr ⟨s, hs, hr⟩) _)

theorem only_boardStop (env : Env) (b : Board) (w : World) :
    Only (fun r => r = b.initRef ∨ ∃ s ∈ b.stories, s.owns r) w ((boardHooks env b).stop w) :=
  (only_overrideThen _ _ (Or.inl rfl) (fun w => (only_evalInit env b w).mono fun _ h => Or.inl h)
    w).trans
    (only_foldl _ _ (fun w s hs => only_overrideThen _ _ (Or.inr ⟨s, hs, Or.inl rfl⟩)
      (fun w => (only_evalStory env s w).mono fun _ hr => Or.inr ⟨s, hs, hr⟩) w) _)

theorem board_not_owned : ¬ (b.ref = b.initRef ∨ ∃ s ∈ b.stories, s.owns b.ref) := by
  rintro (h | ⟨s, _, h⟩)
  · exact absurd h (ref_ne_of_kind (by simp))
  · exact not_owns_story (by simp) (by simp) (by simp) (by simp) (by simp) (by simp) h

theorem KS.goto {w : World} {s : St} (h : KS b w) (h' : WI b (w.goto b.ref s)) :
    KS b (w.goto b.ref s) :=
  ⟨h.1.goto h' (by simp) (by simp) (by simp) (by simp) (by simp),
    h.2.1.goto_ne (ref_ne_of_kind (by simp)),
    fun a ha => (h.2.2 a ha).goto_ne (ref_ne_of_kind (by simp))⟩

theorem KS.run {w : World} {s : St} {n : Nat} (h : KS b w)
    (h' : WI b ((w.goto b.ref s).setCnt b.ref n)) : KS b ((w.goto b.ref s).setCnt b.ref n) :=
  ⟨h.1.run h' (by simp) (by simp) (by simp) (by simp) (by simp),
    (h.2.1.goto_ne (ref_ne_of_kind (by simp))).congr (w := w.goto b.ref s) rfl
      (setCnt_cnt_ne _ _ (ref_ne_of_kind (by simp))),
    fun a ha => ((h.2.2 a ha).goto_ne (ref_ne_of_kind (by simp))).congr (w := w.goto b.ref s) rfl
      (setCnt_cnt_ne _ _ (ref_ne_of_kind (by simp)))⟩

theorem evalBoard_inv (wf : b.WF) {env : Env} {w : World} (h : FI b w) :
    FI b (evalBoard env b w) ∧
    (w.st b.ref = .complete ∨
      (env.stopTrigger b.ref (.visit b.ref :: w.log) = true ∧ w.st b.ref ≠ .standby) →
      (evalBoard env b w).st b.ref = .complete) := by
  obtain ⟨h1, h2, -, h4⟩ := composite_inv (b := b) (boardHooks env b) (KS b)
    (fun w h => h.1.1.1.1)
    (by simp [boardHooks]) (by simp [boardHooks]) rfl (fun _ => rfl)
    (fun w h => ⟨h, rfl, rfl⟩)
    (fun w h => ⟨h.emit (by simp), rfl, rfl⟩) (fun w h => ⟨h, rfl, rfl⟩)
    (fun w h => h.emit (by simp))
    (fun w s h h' => h.goto h')
    (fun w n h h' => h.run h')
    (fun w h hacc c hc => by
      rcases child_board hc with rfl | ⟨s, hs, rfl⟩
      · simp only [boardHooks, allComplete, List.all_cons, Bool.and_eq_true, beq_iff_eq] at hacc
        exact hacc.1
      · simp only [boardHooks, allComplete, List.all_cons, Bool.and_eq_true, beq_iff_eq,
          List.all_map, List.all_eq_true, Function.comp] at hacc
        exact hacc.2 s hs)
    (fun w h => ⟨foldl_pres (KS b) _ _ (fun _ _ hg h => evalStory_KS wf hg h) _ (evalInit_KS wf h),
      (only_boardRun env b w).st _ board_not_owned, (only_boardRun env b w).cnt _ board_not_owned⟩)
    (fun w h => ⟨foldl_pres (KS b) _ _ (fun _ _ hg h => stopStory_KS wf hg h) _ (stopInit_KS wf h),
      (only_boardStop env b w).st _ board_not_owned, (only_boardStop env b w).cnt _ board_not_owned⟩)
    h.1 (Or.inr (Or.inr h.2))
  refine ⟨⟨h1, h2⟩, fun h => h4 ?_⟩
  rcases h with h | h
  · exact Or.inl h
  · exact Or.inr (Or.inr h)

theorem FI.initial : FI b World.initial :=
  ⟨⟨⟨⟨⟨WI.initial b, fun e _ => ⟨⟨Or.inl rfl, fun _ _ => ⟨Or.inl rfl, rfl, rfl⟩⟩, by simp [World.initial],
    by simp [World.initial], by simp [World.initial]⟩⟩,
    fun g _ => ⟨⟨Or.inl rfl, by simp [World.initial]⟩, fun _ _ => Or.inl rfl, by simp [World.initial]⟩⟩,
    fun _ _ => ⟨Or.inl rfl, by simp [World.initial]⟩⟩, ⟨Or.inl rfl, by simp [World.initial]⟩,
    fun _ _ => ⟨Or.inl rfl, by simp [World.initial]⟩⟩, ⟨Or.inl rfl, by simp [World.initial]⟩⟩

theorem FI.emit {w : World} (h : FI b w) {x : Entry}
    (hx : x.Plain) : FI b (w.emit x) :=
  ⟨h.1.emit hx, h.2.emit x⟩

theorem frame_inv (wf : b.WF) {env : Env} {w : World} (h : FI b w) : FI b (frame env b w) :=
  (evalBoard_inv wf (h.emit (x := .frame) (by simp))).1

/-- The invariant holds after any number of frames, whatever the environment does. -/
theorem runFrames_inv (wf : b.WF) (env : Env) (n : Nat) : FI b (runFrames env b n) := by
  induction n with
  | zero => exact FI.initial
  | succ n ih => exact frame_inv wf ih

theorem FI.wi {w : World} (h : FI b w) : WI b w := h.1.1.1.1.1
theorem FI.ge {w : World} (h : FI b w) : GE b w := h.1.1.1.1.2
theorem FI.gg {w : World} (h : FI b w) : GG b w := h.1.1.1.2

end
end Verif.Storyboard
