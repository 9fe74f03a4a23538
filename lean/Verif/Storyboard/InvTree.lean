import Verif.Storyboard.InvEvent
/-
The invariant lifted through Maneuver, ManeuverGroup, Act, Story and Storyboard.
-/
namespace Verif.Storyboard

/-- A non-event element between two evaluations. -/
structure SRest (r : Ref) (w : World) : Prop where
  state : w.st r = .standby ∨ w.st r = .running ∨ w.st r = .complete
  cnt : w.st r = .running → 0 < w.cnt r

/-- Rule for elements that execute once, whose children invariants are summarised by `K`. -/
theorem composite_inv {b : Board} (h : Hooks) (K : World → Prop)
    (hWI : ∀ w, K w → WI b w) (hk : h.ref.kind ≠ .event) (hk' : h.ref.kind ≠ .action)
    (hmax : h.max = 1) (hveto : ∀ w, h.veto w = false) 
    (hid : ∀ w, K w → K (h.start w) ∧ (h.start w).st = w.st ∧ (h.start w).cnt = w.cnt)
    (hstopT : ∀ w, K w → K (h.stopTrigger w).2 ∧
      (h.stopTrigger w).2.st = w.st ∧ (h.stopTrigger w).2.cnt = w.cnt)
    (hstartT : ∀ w, K w → K (h.startTrigger w).2 ∧
      (h.startTrigger w).2.st = w.st ∧ (h.startTrigger w).2.cnt = w.cnt)
    (hvis : ∀ w, K w → K (w.emit (.visit h.ref)))
    (hK : ∀ w s, K w → WI b (w.goto h.ref s) → K (w.goto h.ref s))
    (hKc : ∀ w n, K w → WI b ((w.goto h.ref .running).setCnt h.ref n) →
      K ((w.goto h.ref .running).setCnt h.ref n))
    (hch : ∀ w, K w → h.accomplished w = true → ∀ c, Child b h.ref c → w.st c = .complete)
    (hrun : ∀ w, K w → K (h.run w) ∧ (h.run w).st h.ref = w.st h.ref ∧
      (h.run w).cnt h.ref = w.cnt h.ref)
    (hstop : ∀ w, K w → K (h.stop w) ∧ (h.stop w).st h.ref = w.st h.ref ∧
      (h.stop w).cnt h.ref = w.cnt h.ref)
    {w : World} (hw : K w)
    (hs : (w.st h.ref = .start ∧ ∀ w, (h.stopTrigger w).1 = false) ∨ w.st h.ref = .stop ∨
      SRest h.ref w) :
    K (evaluate h w) ∧ SRest h.ref (evaluate h w) ∧
    ((∀ w, (h.startTrigger w).1 = true) → (evaluate h w).st h.ref ≠ .standby) ∧
    (w.st h.ref = .complete ∨ w.st h.ref = .stop ∨
      ((h.stopTrigger (w.emit (.visit h.ref))).1 = true ∧ w.st h.ref ≠ .standby) →
      (evaluate h w).st h.ref = .complete) := by
  have key := fun (Z : Prop) => dispatch_rule h
    (fun s n w => K w ∧ w.st h.ref = s ∧ w.cnt h.ref = n ∧ (s = .running ∨ s = .end → 0 < n) ∧
      s ≠ .skip ∧ (Z → s = .complete ∨ s = .stop))
    (fun w => K w ∧ SRest h.ref w ∧
      ((∀ w, (h.startTrigger w).1 = true) → w.st h.ref ≠ .standby) ∧
      (Z → w.st h.ref = .complete)) ?_ ?_ ?_ ?_ ?_ ?_ ?_ ?_ ?_ ?_ ?_
  · -- entry
    obtain ⟨s1, s2, s3⟩ := hstopT _ (hvis _ hw)
    simp only [emit_st, emit_cnt] at s2 s3
    obtain ⟨w1, hw1⟩ : ∃ w1, w1 = (h.stopTrigger (w.emit (.visit h.ref))).2 := ⟨_, rfl⟩
    rw [← hw1] at s1 s2 s3
    obtain ⟨t, ht⟩ : ∃ t, t = (h.stopTrigger (w.emit (.visit h.ref))).1 := ⟨_, rfl⟩
    have hev : evaluate h w = (let w := if t then w1.override h.ref else w1
        dispatch h (w.st h.ref) (w.cnt h.ref) w) := by rw [hw1, ht]; rfl
    rw [hev, ← ht]
    have hcase : w1.st h.ref = .standby ∨ (w1.st h.ref = .start ∧ t = false) ∨
        (w1.st h.ref = .running ∧ 0 < w1.cnt h.ref) ∨ w1.st h.ref = .complete ∨
        w1.st h.ref = .stop := by
      rw [s2, s3]
      rcases hs with ⟨h1, h2⟩ | h1 | h1
      · simp [h1, ht, h2]
      · simp [h1]
      · rcases h1.state with h2 | h2 | h2
        · simp [h2]
        · simp [h2, h1.cnt h2]
        · simp [h2]
    rw [← s2]
    cases t with
    | false =>
      simp only [Bool.false_eq_true, false_and, or_false, if_false]
      refine key _ _ _ _ ⟨s1, rfl, rfl, ?_, ?_, id⟩
      · rcases hcase with h | h | h | h | h <;> simp [h]
      · rcases hcase with h | h | h | h | h <;> simp [h]
    | true =>
      simp only [true_and, if_true]
      have hst := override_st w1 h.ref h.ref
      simp only [true_and] at hst
      have hwo : WI b (w1.override h.ref) := (hWI _ s1).override (by
        rcases hcase with h | h | h | h | h <;> simp_all)
      have hko : K (w1.override h.ref) := by
        have := hwo
        unfold World.override at this ⊢
        split
        · rename_i hc; rw [if_pos hc] at this; exact hK _ _ s1 this
        · exact s1
      refine key _ _ _ _ ⟨hko, rfl, rfl, ?_, ?_, ?_⟩
      · rw [hst]; rcases hcase with h | h | h | h | h <;> simp_all
      · rw [hst]; rcases hcase with h | h | h | h | h <;> simp_all
      · intro hz; rw [hst]; rcases hcase with h | h | h | h | h <;> simp_all
  · -- start trigger false
    rintro n w ⟨h1, h2, h3, h4, h5, h6⟩ hf
    obtain ⟨s1, s2, s3⟩ := hstartT w h1
    refine ⟨s1, ⟨by simp [s2, h2], by simp [s2, h2]⟩, fun ht => ?_, fun z => ?_⟩
    · rw [ht w] at hf; exact absurd hf (by decide)
    · simpa using h6 z
  · intro n w _ _ hv; rw [hveto] at hv; exact absurd hv (by decide)
  · rintro n w ⟨h1, h2, h3, h4, h5, h6⟩ - -
    obtain ⟨s1, s2, s3⟩ := hstartT w h1
    refine ⟨hK _ _ s1 ((hWI _ s1).goto' (by decide) (by decide) ?_), by simp, by simp [s3, h3],
      by simp, by simp, fun z => by simpa using h6 z⟩
    rw [s2, h2]; exact .start
  · rintro n w ⟨h1, h2, h3, h4, h5, h6⟩
    obtain ⟨h1, e1, e2⟩ := hid w h1
    rw [← e1] at h2; rw [← e2] at h3
    refine ⟨hKc _ _ h1 ((hWI _ h1).run hk' h3 ((hWI _ h1).ok ?_ (fun _ => hk) (by simp) (by simp [h2]))),
      by simp, by simp, by simp, by simp, fun z => by simpa using h6 z⟩
    rw [h2]; exact .running
  · rintro n w ⟨h1, h2, h3, h4, h5, h6⟩ hacc
    obtain ⟨r1, r2, r3⟩ := hrun w h1
    refine ⟨hK _ _ r1 ((hWI _ r1).goto ((hWI _ r1).ok ?_ (by simp) (fun _ => hch _ r1 hacc))
      (by decide)), by simp, by simp [r3, h3], fun _ => h4 (Or.inl rfl), by simp,
      fun z => by simpa using h6 z⟩
    rw [r2, h2]; exact .finish
  · rintro n w ⟨h1, h2, h3, h4, h5, h6⟩ -
    obtain ⟨r1, r2, r3⟩ := hrun w h1
    refine ⟨r1, ⟨by simp [r2, h2], fun _ => by rw [r3, h3]; exact h4 (Or.inl rfl)⟩,
      fun _ => by simp [r2, h2], fun z => by simpa using h6 z⟩
  · rintro n w ⟨h1, h2, h3, h4, h5, h6⟩ hlt
    have := h4 (Or.inr rfl); omega
  · rintro n w ⟨h1, h2, h3, h4, h5, h6⟩ -
    refine ⟨hK _ _ h1 ((hWI _ h1).goto' (by decide) (by decide) ?_), by simp, by simp [h3],
      by simp, by simp, by simp⟩
    rw [h2]; exact .done
  · rintro n w ⟨h1, h2, h3, h4, h5, h6⟩
    exact ⟨h1, ⟨by simp [h2], by simp [h2]⟩, fun _ => by simp [h2], fun _ => h2⟩
  · rintro n w ⟨h1, h2, h3, h4, h5, h6⟩; exact absurd rfl h5
  · rintro n w ⟨h1, h2, h3, h4, h5, h6⟩
    have : K (if h.accomplished w then w else h.stop w) ∧
        (if h.accomplished w then w else h.stop w).st h.ref = .stop ∧
        (if h.accomplished w then w else h.stop w).cnt h.ref = n := by
      split
      · exact ⟨h1, h2, h3⟩
      · obtain ⟨r1, r2, r3⟩ := hstop w h1
        exact ⟨r1, by rw [r2, h2], by rw [r3, h3]⟩
    obtain ⟨g1, g2, g3⟩ := this
    refine ⟨hK _ _ g1 ((hWI _ g1).goto' (by decide) (by decide) ?_), by simp, by simp [g3],
      by simp, by simp, by simp⟩
    rw [g2]; exact .stopped

/-! ### Stability of the per-level invariants -/

section
variable {b : Board}

/-- All events are at rest. -/
def GE (b : Board) (w : World) : Prop := ∀ e ∈ b.events, EvRest e w

theorem GE.goto {w : World} (h : GE b w) {r : Ref} (s : St) (h1 : r.kind ≠ .event)
    (h2 : r.kind ≠ .action) : GE b (w.goto r s) := fun e he =>
  (h e he).goto_ne (ref_ne_of_kind (Ne.symm h1)) (fun _ _ => ref_ne_of_kind (Ne.symm h2))

theorem GE.setCnt {w : World} (h : GE b w) {r : Ref} (n : Nat) (h1 : r.kind ≠ .event)
    (h2 : r.kind ≠ .action) : GE b (w.setCnt r n) := fun e he =>
  (h e he).setCnt_ne (ref_ne_of_kind (Ne.symm h1)) (fun _ _ => ref_ne_of_kind (Ne.symm h2))

theorem GE.emit {w : World} (h : GE b w) (x : Entry) : GE b (w.emit x) := fun e he =>
  (h e he).emit x

theorem SRest.congr {r : Ref} {w w' : World} (h : SRest r w) (h1 : w'.st r = w.st r)
    (h2 : w'.cnt r = w.cnt r) : SRest r w' :=
  ⟨by rw [h1]; exact h.state, by rw [h1, h2]; exact h.cnt⟩

/-- How the maneuvers of a group in state `s` look like. -/
def GroupOk (g : Group) (s : St) (w : World) : Prop :=
  match s with
  | .standby | .start => ∀ m ∈ g.maneuvers, w.st m.ref = .standby ∨ w.st m.ref = .complete
  | .running => ∀ m ∈ g.maneuvers, w.st m.ref = .start ∨ (w.st m.ref = .running ∧ 0 < w.cnt m.ref) ∨
      w.st m.ref = .complete
  | .end | .complete => ∀ m ∈ g.maneuvers, w.st m.ref = .complete
  | .stop => ∀ m ∈ g.maneuvers, (w.st m.ref = .running ∧ 0 < w.cnt m.ref) ∨ w.st m.ref = .complete
  | .skip => False

/-- A group between two evaluations. -/
structure GRest (g : Group) (w : World) : Prop where
  rest : SRest g.ref w
  ok : GroupOk g (w.st g.ref) w
  notStart : ∀ m ∈ g.maneuvers, w.st m.ref ≠ .start

theorem GroupOk.congr {g : Group} {s : St} {w w' : World} (h : GroupOk g s w)
    (hm : ∀ m ∈ g.maneuvers, w'.st m.ref = w.st m.ref ∧ w'.cnt m.ref = w.cnt m.ref) :
    GroupOk g s w' := by
  cases s <;> simp only [GroupOk] at h ⊢ <;> intro m hmm <;>
    simp only [(hm m hmm).1, (hm m hmm).2] <;> exact h m hmm

theorem GRest.congr {g : Group} {w w' : World} (h : GRest g w) (h1 : w'.st g.ref = w.st g.ref)
    (h2 : w'.cnt g.ref = w.cnt g.ref)
    (hm : ∀ m ∈ g.maneuvers, w'.st m.ref = w.st m.ref ∧ w'.cnt m.ref = w.cnt m.ref) :
    GRest g w' :=
  ⟨h.rest.congr h1 h2, by rw [h1]; exact h.ok.congr hm, fun m hmm => by
    rw [(hm m hmm).1]; exact h.notStart m hmm⟩

/-- All groups are at rest. -/
def GG (b : Board) (w : World) : Prop := ∀ g ∈ b.groups, GRest g w

theorem GG.emit {w : World} (h : GG b w) (x : Entry) : GG b (w.emit x) := fun g hg =>
  (h g hg).congr (w := w) rfl rfl (fun _ _ => ⟨rfl, rfl⟩)

theorem GG.goto {w : World} (h : GG b w) {r : Ref} (s : St) (h1 : r.kind ≠ .group)
    (h2 : r.kind ≠ .maneuver) : GG b (w.goto r s) := fun g hg =>
  (h g hg).congr (goto_st_ne _ _ (ref_ne_of_kind (Ne.symm h1))) rfl
    (fun _ _ => ⟨goto_st_ne _ _ (ref_ne_of_kind (Ne.symm h2)), rfl⟩)

theorem GG.setCnt {w : World} (h : GG b w) {r : Ref} (n : Nat) (h1 : r.kind ≠ .group)
    (h2 : r.kind ≠ .maneuver) : GG b (w.setCnt r n) := fun g hg =>
  (h g hg).congr (w := w) rfl (setCnt_cnt_ne _ _ (ref_ne_of_kind (Ne.symm h1)))
    (fun _ _ => ⟨rfl, setCnt_cnt_ne _ _ (ref_ne_of_kind (Ne.symm h2))⟩)

/-! ### Children of each kind of element -/

theorem child_maneuver (wf : b.WF) {m : Maneuver} (hm : m ∈ b.maneuvers) {c : Ref}
    (h : Child b m.ref c) : ∃ e ∈ m.events, c = e.ref := by
  generalize hr : m.ref = r at h
  cases h <;> simp [Event.ref, Board.ref, Story.ref, Act.ref, Group.ref, Maneuver.ref] at hr
  case event m' e hm' he =>
    have := wf.maneuver_inj hm hm' (by simp [Maneuver.ref, hr])
    subst this; exact ⟨e, he, rfl⟩

theorem child_group (wf : b.WF) {m : Group} (hm : m ∈ b.groups) {c : Ref}
    (h : Child b m.ref c) : ∃ e ∈ m.maneuvers, c = e.ref := by
  generalize hr : m.ref = r at h
  cases h <;> simp [Event.ref, Board.ref, Story.ref, Act.ref, Group.ref, Maneuver.ref] at hr
  case maneuver m' e hm' he =>
    have := wf.group_inj hm hm' (by simp [Group.ref, hr])
    subst this; exact ⟨e, he, rfl⟩

theorem child_act (wf : b.WF) {m : Act} (hm : m ∈ b.acts) {c : Ref}
    (h : Child b m.ref c) : ∃ e ∈ m.groups, c = e.ref := by
  generalize hr : m.ref = r at h
  cases h <;> simp [Event.ref, Board.ref, Story.ref, Act.ref, Group.ref, Maneuver.ref] at hr
  case group m' e hm' he =>
    have := wf.act_inj hm hm' (by simp [Act.ref, hr])
    subst this; exact ⟨e, he, rfl⟩

theorem child_story (wf : b.WF) {m : Story} (hm : m ∈ b.stories) {c : Ref}
    (h : Child b m.ref c) : ∃ e ∈ m.acts, c = e.ref := by
  generalize hr : m.ref = r at h
  cases h <;> simp [Event.ref, Board.ref, Story.ref, Act.ref, Group.ref, Maneuver.ref] at hr
  case act m' e hm' he =>
    have := wf.story_inj hm hm' (by simp [Story.ref, hr])
    subst this; exact ⟨e, he, rfl⟩

theorem child_board {c : Ref}
    (h : Child b b.ref c) : c = b.initRef ∨ ∃ e ∈ b.stories, c = e.ref := by
  generalize hr : b.ref = r at h
  cases h <;> simp [Event.ref, Board.ref, Story.ref, Act.ref, Group.ref, Maneuver.ref] at hr
  case init => exact Or.inl rfl
  case story s hs => exact Or.inr ⟨s, hs, rfl⟩

theorem allComplete_map {α : Type} {l : List α} {f : α → Ref} {w : World}
    (h : allComplete (l.map f) w = true) : ∀ x ∈ l, w.st (f x) = .complete := by
  simpa [allComplete, List.all_map] using h

/-! ### Maneuver -/

/-- Everything below the groups. -/
def KM (b : Board) (w : World) : Prop := WI b w ∧ GE b w

theorem evalEvents_KM (wf : b.WF) {env : Env} {m : Maneuver} (hm : m ∈ b.maneuvers) {w : World}
    (h : KM b w) : KM b (m.events.foldl (fun w e => evalEvent env m.events e w) w) :=
  foldl_pres (KM b) _ _ (fun _ _ he h => evalEvent_inv wf hm he h.1 h.2) w h

theorem stopEvents_KM (wf : b.WF) {env : Env} {m : Maneuver} (hm : m ∈ b.maneuvers) {w : World}
    (h : KM b w) :
    KM b (m.events.foldl (fun w e => overrideThen e.ref (evalEvent env m.events e) w) w) :=
  foldl_pres (KM b) _ _ (fun w e he h => by
    have hr := h.2 e (mem_events hm he)
    refine evalEvent_inv wf hm he (h.1.override ?_) (fun x hx => (h.2 x hx).override)
    rcases hr.state with h | h | h | h <;> simp [h]) w h

theorem not_owns_events {m : Maneuver} {r : Ref} (h1 : r.kind ≠ .event) (h2 : r.kind ≠ .action) :
    ¬ ∃ e ∈ m.events, e.owns m.events r := by
  rintro ⟨e, _, rfl | ⟨s, _, rfl⟩ | ⟨a, _, rfl⟩⟩
  · exact h1 rfl
  · exact h1 rfl
  · exact h2 rfl

theorem evalManeuver_inv (wf : b.WF) {env : Env} {m : Maneuver} (hm : m ∈ b.maneuvers) {w : World}
    (hw : KM b w) (hs : w.st m.ref = .start ∨ w.st m.ref = .stop ∨ SRest m.ref w) :
    KM b (evalManeuver env m w) ∧ SRest m.ref (evalManeuver env m w) ∧
    (evalManeuver env m w).st m.ref ≠ .standby ∧
    (w.st m.ref = .complete ∨ w.st m.ref = .stop →
      (evalManeuver env m w).st m.ref = .complete) := by
  have honly : ∀ w, Only (fun r => ∃ e ∈ m.events, e.owns m.events r) w
      ((maneuverHooks env m).run w) := fun w =>
    only_foldl _ _ (fun w e he => (only_evalEvent env m.events e w).mono fun r hr => ⟨e, he, hr⟩) w
  have honly' : ∀ w, Only (fun r => ∃ e ∈ m.events, e.owns m.events r) w
      ((maneuverHooks env m).stop w) := fun w =>
    only_foldl _ _ (fun w e he => only_overrideThen _ _ ⟨e, he, Or.inl rfl⟩
      (fun w => (only_evalEvent env m.events e w).mono fun r hr => ⟨e, he, hr⟩) w) w
  have hno : ¬ ∃ e ∈ m.events, e.owns m.events m.ref := not_owns_events (by simp) (by simp)
  obtain ⟨h1, h2, h3, h4⟩ := composite_inv (b := b) (maneuverHooks env m) (KM b) (fun w h => h.1)
    (by simp [maneuverHooks]) (by simp [maneuverHooks]) rfl (fun _ => rfl)
    (fun w h => ⟨h, rfl, rfl⟩) (fun w h => ⟨h, rfl, rfl⟩) (fun w h => ⟨h, rfl, rfl⟩)
    (fun w h => ⟨h.1.emit (by simp), h.2.emit _⟩)
    (fun w s h h' => ⟨h', h.2.goto s (by simp [maneuverHooks]) (by simp [maneuverHooks])⟩)
    (fun w n h h' => ⟨h', (h.2.goto _ (by simp [maneuverHooks]) (by simp [maneuverHooks])).setCnt n
      (by simp [maneuverHooks]) (by simp [maneuverHooks])⟩)
    (fun w h hacc c hc => by
      obtain ⟨e, he, rfl⟩ := child_maneuver wf hm hc
      exact allComplete_map hacc e he)
    (fun w h => ⟨evalEvents_KM wf hm h, (honly w).st _ hno, (honly w).cnt _ hno⟩)
    (fun w h => ⟨stopEvents_KM wf hm h, (honly' w).st _ hno, (honly' w).cnt _ hno⟩)
    hw (by rcases hs with h | h
           · exact Or.inl ⟨h, fun _ => rfl⟩
           · exact Or.inr h)
  refine ⟨h1, h2, h3 (fun _ => rfl), fun h => h4 ?_⟩
  rcases h with h | h
  · exact Or.inl h
  · exact Or.inr (Or.inl h)

end
end Verif.Storyboard
