import Verif.Storyboard.InvTree
/-
The invariant of a ManeuverGroup.
-/
namespace Verif.Storyboard

section
variable {b : Board}

theorem maneuver_not_owned (wf : b.WF) {m m' : Maneuver} (hm : m ∈ b.maneuvers)
    (hm' : m' ∈ b.maneuvers) (hne : m' ≠ m) : ¬ m.owns m'.ref := by
  rintro (h | h)
  · exact hne (wf.maneuver_inj hm' hm h)
  · exact not_owns_events (by simp) (by simp) h

/-- `ManeuverGroup::run`. -/
theorem runManeuvers_inv (wf : b.WF) {env : Env} {g : Group} (hg : g ∈ b.groups) {w : World}
    (h : KM b w)
    (hm : ∀ m ∈ g.maneuvers, w.st m.ref = .start ∨ (w.st m.ref = .running ∧ 0 < w.cnt m.ref) ∨
      w.st m.ref = .complete) :
    let w' := g.maneuvers.foldl (fun w m => evalManeuver env m w) w
    KM b w' ∧ ∀ m ∈ g.maneuvers, (w'.st m.ref = .running ∧ 0 < w'.cnt m.ref) ∨
      w'.st m.ref = .complete := by
  refine foldl_each (KM b)
    (fun m w => w.st m.ref = .start ∨ (w.st m.ref = .running ∧ 0 < w.cnt m.ref) ∨
      w.st m.ref = .complete)
    (fun m w => (w.st m.ref = .running ∧ 0 < w.cnt m.ref) ∨ w.st m.ref = .complete)
    (fun w m => evalManeuver env m w) g.maneuvers (wf.maneuvers_nodup hg) ?_ ?_ w h hm
  · intro w m hmg hw hp
    obtain ⟨h1, h2, h3, -⟩ := evalManeuver_inv (env := env) wf (mem_maneuvers hg hmg) hw (by
      rcases hp with h | h | h
      · exact Or.inl h
      · exact Or.inr (Or.inr ⟨by simp [h.1], fun _ => h.2⟩)
      · exact Or.inr (Or.inr ⟨by simp [h], by simp [h]⟩))
    refine ⟨h1, ?_⟩
    rcases h2.state with h | h | h
    · exact absurd h h3
    · exact Or.inl ⟨h, h2.cnt h⟩
    · exact Or.inr h
  · intro w m hmg m' hmg' hne _ _
    have ho := only_evalManeuver env m w
    have hn := maneuver_not_owned wf (mem_maneuvers hg hmg) (mem_maneuvers hg hmg') hne
    simp only [ho.st _ hn, ho.cnt _ hn]
    exact ⟨fun h => h, fun h => h⟩

/-- `ManeuverGroup::stop`. -/
theorem stopManeuvers_inv (wf : b.WF) {env : Env} {g : Group} (hg : g ∈ b.groups) {w : World}
    (h : KM b w)
    (hm : ∀ m ∈ g.maneuvers, (w.st m.ref = .running ∧ 0 < w.cnt m.ref) ∨ w.st m.ref = .complete) :
    let w' := g.maneuvers.foldl (fun w m => overrideThen m.ref (evalManeuver env m) w) w
    KM b w' ∧ ∀ m ∈ g.maneuvers, w'.st m.ref = .complete := by
  refine foldl_each (KM b)
    (fun m w => (w.st m.ref = .running ∧ 0 < w.cnt m.ref) ∨ w.st m.ref = .complete)
    (fun m w => w.st m.ref = .complete)
    (fun w m => overrideThen m.ref (evalManeuver env m) w) g.maneuvers (wf.maneuvers_nodup hg) ?_ ?_
    w h hm
  · intro w m hmg hw hp
    have hst : (w.override m.ref).st m.ref = .stop := by
      rw [override_st]; rcases hp with h | h <;> simp [h]
    have hw' : KM b (w.override m.ref) := by
      refine ⟨hw.1.override (by rcases hp with h | h <;> simp [h]), ?_⟩
      unfold World.override
      split
      · exact hw.2.goto _ (by simp) (by simp)
      · exact hw.2
    obtain ⟨h1, h2, h3, h4⟩ := evalManeuver_inv (env := env) wf (mem_maneuvers hg hmg) hw'
      (Or.inr (Or.inl hst))
    exact ⟨h1, h4 (Or.inr hst)⟩
  · intro w m hmg m' hmg' hne _ _
    have ho : Only m.owns w (overrideThen m.ref (evalManeuver env m) w) :=
      only_overrideThen _ _ (Or.inl rfl) (only_evalManeuver env m) w
    have hn := maneuver_not_owned wf (mem_maneuvers hg hmg) (mem_maneuvers hg hmg') hne
    simp only [ho.st _ hn, ho.cnt _ hn]
    exact ⟨fun h => h, fun h => h⟩

theorem forceStart_maneuvers (wf : b.WF) {g : Group} (hg : g ∈ b.groups) {w : World} (hI : KM b w)
    (hact : ∀ m ∈ g.maneuvers, w.st m.ref = .standby ∨ w.st m.ref = .complete) :
    let w' := forceStart (g.maneuvers.map Maneuver.ref) w
    KM b w' ∧ w'.cnt = w.cnt ∧ (∀ m ∈ g.maneuvers, w'.st m.ref = .start) ∧
    (∀ r, (∀ m ∈ g.maneuvers, r ≠ m.ref) → w'.st r = w.st r) := by
  have hfold : forceStart (g.maneuvers.map Maneuver.ref) w =
      g.maneuvers.foldl (fun w a => w.goto a.ref .start) w := by
    simp [forceStart, List.foldl_map]
  rw [hfold]
  have := foldl_each
    (fun w' => KM b w' ∧ w'.cnt = w.cnt ∧ (∀ r, (∀ m ∈ g.maneuvers, r ≠ m.ref) → w'.st r = w.st r))
    (fun m w' => w'.st m.ref = .standby ∨ w'.st m.ref = .complete)
    (fun m w' => w'.st m.ref = .start)
    (fun w m => w.goto m.ref .start) g.maneuvers (wf.maneuvers_nodup hg) ?_ ?_ w
    ⟨hI, rfl, fun _ _ => rfl⟩ hact
  · obtain ⟨⟨h1, h2, h4⟩, h5⟩ := this
    exact ⟨h1, h2, h5, h4⟩
  · rintro w' a ha ⟨h1, h2, h4⟩ hp
    refine ⟨⟨⟨h1.1.goto' (by decide) (by decide) ?_, h1.2.goto _ (by simp) (by simp)⟩, h2, ?_⟩,
      by simp⟩
    · rcases hp with hp | hp <;> rw [hp]
      · exact .start
      · exact .restartManeuver
    · intro r hr; rw [goto_st_ne _ _ (hr a ha)]; exact h4 r hr
  · intro w' a ha a' ha' hne _ _
    have : a'.ref ≠ a.ref := fun h =>
      hne (wf.maneuver_inj (mem_maneuvers hg ha') (mem_maneuvers hg ha) h)
    simp only [goto_st_ne _ _ this]
    exact ⟨fun h => h, fun h => h⟩

theorem evalGroup_inv (wf : b.WF) {env : Env} {g : Group} (hg : g ∈ b.groups) {w : World}
    (hw : KM b w) (hs : w.st g.ref = .stop ∨ SRest g.ref w) (hok : GroupOk g (w.st g.ref) w) :
    KM b (evalGroup env g w) ∧ GRest g (evalGroup env g w) ∧
    (evalGroup env g w).st g.ref ≠ .standby ∧
    (w.st g.ref = .complete ∨ w.st g.ref = .stop → (evalGroup env g w).st g.ref = .complete) := by
  have hmg : ∀ m ∈ g.maneuvers, m.ref ≠ g.ref := fun m _ => ref_ne_of_kind (by simp)
  have hno : ¬ ∃ m ∈ g.maneuvers, m.owns g.ref := by
    rintro ⟨m, _, h | h⟩
    · exact absurd h (ref_ne_of_kind (by simp))
    · exact not_owns_events (by simp) (by simp) h
  have honly : ∀ w, Only (fun r => ∃ m ∈ g.maneuvers, m.owns r) w ((groupHooks env g).run w) :=
    fun w => only_foldl _ _ (fun w m hm => (only_evalManeuver env m w).mono
      fun r hr => ⟨m, hm, hr⟩) w
  have honly' : ∀ w, Only (fun r => ∃ m ∈ g.maneuvers, m.owns r) w ((groupHooks env g).stop w) :=
    fun w => only_foldl _ _ (fun w m hm => only_overrideThen _ _ ⟨m, hm, Or.inl rfl⟩
      (fun w => (only_evalManeuver env m w).mono fun r hr => ⟨m, hm, hr⟩) w) w
  have hgoto : ∀ (w : World) (s : St), GE b w → GE b (w.goto g.ref s) := fun w s h =>
    h.goto s (by simp) (by simp)
  have hcongr : ∀ (w : World) (s s' : St), GroupOk g s w → GroupOk g s (w.goto g.ref s') :=
    fun w s s' h => h.congr (fun m hm => ⟨goto_st_ne _ _ (hmg m hm), rfl⟩)
  have key := fun (Z : Prop) => dispatch_rule (groupHooks env g)
    (fun s n w => KM b w ∧ w.st g.ref = s ∧ w.cnt g.ref = n ∧ GroupOk g s w ∧
      (s = .running ∨ s = .end → 0 < n) ∧ (Z → s = .complete ∨ s = .stop))
    (fun w => KM b w ∧ GRest g w ∧ w.st g.ref ≠ .standby ∧ (Z → w.st g.ref = .complete))
    ?_ ?_ ?_ ?_ ?_ ?_ ?_ ?_ ?_ ?_ ?_
  · have heq : evalGroup env g w = dispatch (groupHooks env g) (w.st g.ref)
        (w.cnt g.ref) (w.emit (.visit g.ref)) := by
      simp [evalGroup, evaluate, groupHooks, falsy]
    rw [heq]
    refine key _ _ _ _ ⟨⟨hw.1.emit (by simp), hw.2.emit _⟩, rfl, rfl, hok.congr (w := w)
      (fun _ _ => ⟨rfl, rfl⟩), ?_, id⟩
    rcases hs with hs | hs
    · simp [hs]
    · rcases hs.state with h | h | h
      · simp [h]
      · simp [h, hs.cnt h]
      · simp [h]
  · intro n w _ ht; exact absurd ht (by simp [groupHooks, truthy])
  · intro n w _ _ hv; exact absurd hv (by simp [groupHooks])
  · rintro n w ⟨h1, h2, h3, h4, h5, h6⟩ - -
    simp only [groupHooks, truthy]
    refine ⟨⟨h1.1.goto' (by decide) (by decide) (by rw [h2]; exact .start), hgoto _ _ h1.2⟩, by simp,
      by simp [h3], hcongr _ .standby _ h4, by simp, fun z => by simpa using h6 z⟩
  · rintro n w ⟨h1, h2, h3, h4, h5, h6⟩
    obtain ⟨f1, f2, f3, f4⟩ := forceStart_maneuvers wf hg h1 h4
    simp only [groupHooks]
    have hst : (forceStart (g.maneuvers.map Maneuver.ref) w).st g.ref = .start := by
      rw [f4 _ (fun m hm => (hmg m hm).symm), h2]
    refine ⟨⟨f1.1.run (by simp) (by rw [f2, h3]) (f1.1.ok ?_ (by simp) (by simp) (by simp [hst])),
      (hgoto _ _ f1.2).setCnt _ (by simp) (by simp)⟩, by simp, by simp, ?_, by simp,
      fun z => by simpa using h6 z⟩
    · rw [hst]; exact .running
    · intro m hm
      left
      rw [setCnt_st, goto_st_ne _ _ (hmg m hm)]; exact f3 m hm
  · rintro n w ⟨h1, h2, h3, h4, h5, h6⟩ hacc
    obtain ⟨r1, r2⟩ := runManeuvers_inv (env := env) wf hg h1 h4
    have ho := honly w
    have hst : ((groupHooks env g).run w).st g.ref = .running := by rw [ho.st _ hno, h2]
    have hcn : ((groupHooks env g).run w).cnt g.ref = n := by rw [ho.cnt _ hno, h3]
    have r1' : KM b ((groupHooks env g).run w) := r1
    have hall := allComplete_map hacc
    refine ⟨⟨r1'.1.goto (r1'.1.ok ?_ (by simp) ?_) (by decide), hgoto _ _ r1'.2⟩,
      by simp [groupHooks], hcn, ?_, fun _ => h5 (Or.inl rfl), fun z => by simpa using h6 z⟩
    · rw [show (groupHooks env g).ref = g.ref from rfl, hst]; exact .finish
    · intro _ c hc
      obtain ⟨m, hm, rfl⟩ := child_group wf hg hc
      exact hall m hm
    · intro m hm
      rw [goto_st_ne _ _ (by exact hmg m hm)]; exact hall m hm
  · rintro n w ⟨h1, h2, h3, h4, h5, h6⟩ hacc
    obtain ⟨r1, r2⟩ := runManeuvers_inv (env := env) wf hg h1 h4
    have ho := honly w
    have hst : ((groupHooks env g).run w).st g.ref = .running := by rw [ho.st _ hno, h2]
    have hcn : ((groupHooks env g).run w).cnt g.ref = n := by rw [ho.cnt _ hno, h3]
    refine ⟨r1, ⟨⟨by simp [hst], fun _ => by rw [hcn]; exact h5 (Or.inl rfl)⟩, ?_, ?_⟩, by simp [hst],
      fun z => by simpa using h6 z⟩
    · rw [hst]; intro m hm; exact Or.inr (r2 m hm)
    · intro m hm; have := r2 m hm
      show ¬ (((groupHooks env g).run w).st m.ref = .start)
      simp only [groupHooks]
      rcases this with h | h
      · rw [h.1]; decide
      · rw [h]; decide
  · rintro n w ⟨h1, h2, h3, h4, h5, h6⟩ -
    refine ⟨⟨h1.1.goto' (by decide) (by decide) ?_, hgoto _ _ h1.2⟩, by simp [groupHooks], h3,
      ?_, by simp, fun z => by simpa using h6 z⟩
    · rw [show (groupHooks env g).ref = g.ref from rfl, h2]; exact .again
    · intro m hm
      rw [goto_st_ne _ _ (by exact hmg m hm)]; exact Or.inr (h4 m hm)
  · rintro n w ⟨h1, h2, h3, h4, h5, h6⟩ -
    refine ⟨⟨h1.1.goto' (by decide) (by decide) ?_, hgoto _ _ h1.2⟩, by simp [groupHooks], h3,
      hcongr _ .complete _ h4, by simp, by simp⟩
    rw [show (groupHooks env g).ref = g.ref from rfl, h2]; exact .done
  · rintro n w ⟨h1, h2, h3, h4, h5, h6⟩
    exact ⟨h1, ⟨⟨by simp [h2], by simp [h2]⟩, by rw [h2]; exact h4, fun m hm => by
      rw [h4 m hm]; decide⟩, by simp [h2], fun _ => h2⟩
  · rintro n w ⟨_, _, _, h4, _⟩; exact h4.elim
  · rintro n w ⟨h1, h2, h3, h4, h5, h6⟩
    by_cases hacc : (groupHooks env g).accomplished w = true
    · rw [if_pos hacc]
      have hall := allComplete_map hacc
      refine ⟨⟨h1.1.goto' (by decide) (by decide) ?_, hgoto _ _ h1.2⟩, by simp [groupHooks], h3,
        ?_, by simp, by simp⟩
      · rw [show (groupHooks env g).ref = g.ref from rfl, h2]; exact .stopped
      · intro m hm; rw [goto_st_ne _ _ (by exact hmg m hm)]; exact hall m hm
    · rw [if_neg hacc]
      obtain ⟨r1, r2⟩ := stopManeuvers_inv (env := env) wf hg h1 h4
      have r1' : KM b ((groupHooks env g).stop w) := r1
      have ho := honly' w
      have hst : ((groupHooks env g).stop w).st g.ref = .stop := by rw [ho.st _ hno, h2]
      have hcn : ((groupHooks env g).stop w).cnt g.ref = n := by rw [ho.cnt _ hno, h3]
      refine ⟨⟨r1'.1.goto' (by decide) (by decide) ?_, hgoto _ _ r1'.2⟩, by simp [groupHooks], hcn,
        ?_, by simp, by simp⟩
      · rw [show (groupHooks env g).ref = g.ref from rfl, hst]; exact .stopped
      · intro m hm; rw [goto_st_ne _ _ (by exact hmg m hm)]; exact r2 m hm

end
end Verif.Storyboard
