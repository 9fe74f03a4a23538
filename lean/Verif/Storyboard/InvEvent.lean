import Verif.Storyboard.InvAction
/-
Invariant of Events and of the siblings they may override.
-/
namespace Verif.Storyboard

/-- Rule for loops over distinct children. -/
theorem foldl_each {α : Type} (K : World → Prop) (Pre Post : α → World → Prop)
    (f : World → α → World) (l : List α) (hl : l.Nodup)
    (hf : ∀ w, ∀ x ∈ l, K w → Pre x w → K (f w x) ∧ Post x (f w x))
    (hfr : ∀ w, ∀ x ∈ l, ∀ y ∈ l, y ≠ x → K w → Pre x w →
      (Pre y w → Pre y (f w x)) ∧ (Post y w → Post y (f w x))) :
    ∀ w, K w → (∀ x ∈ l, Pre x w) → K (l.foldl f w) ∧ ∀ x ∈ l, Post x (l.foldl f w) := by
  suffices H : ∀ (l1 l2 : List α), l = l1 ++ l2 → ∀ w, K w → (∀ x ∈ l2, Pre x w) →
      (∀ x ∈ l1, Post x w) → K (l2.foldl f w) ∧ ∀ x ∈ l, Post x (l2.foldl f w) by
    intro w hK hPre; exact H [] l rfl w hK hPre (by simp)
  intro l1 l2
  induction l2 generalizing l1 with
  | nil => intro h w hK _ hPost; subst h; exact ⟨hK, by simpa using hPost⟩
  | cons x l2 ih =>
    intro h w hK hPre hPost
    have hx : x ∈ l := by rw [h]; simp
    have hnd := hl; rw [h] at hnd
    have hx1 : x ∉ l1 := by
      intro hc; rw [List.nodup_append] at hnd; exact hnd.2.2 x hc x List.mem_cons_self rfl
    have hx2 : x ∉ l2 := by
      rw [List.nodup_append] at hnd; exact (List.nodup_cons.1 hnd.2.1).1
    have hpx := hPre x List.mem_cons_self
    obtain ⟨hK', hP'⟩ := hf w x hx hK hpx
    refine ih (l1 ++ [x]) (by simp [h]) (f w x) hK' ?_ ?_
    · intro y hy
      have hne : y ≠ x := fun hc => hx2 (hc ▸ hy)
      refine (hfr w x hx y (by rw [h]; simp [hy]) hne hK hpx).1 ?_
      exact hPre y (List.mem_cons_of_mem _ hy)
    · intro y hy
      rcases List.mem_append.1 hy with hy | hy
      · have hne : y ≠ x := fun hc => hx1 (hc ▸ hy)
        refine (hfr w x hx y (by rw [h]; simp [hy]) hne hK hpx).2 ?_
        exact hPost y hy
      · simp only [List.mem_singleton] at hy; subst hy; exact hP'

/-- Relation between an event in state `s` with execution count `n` and its actions. -/
def EventOk (e : Event) (s : St) (n : Nat) (w : World) : Prop :=
  match s with
  | .standby | .start => (n = 0 ∨ n < e.max) ∧ ∀ a ∈ e.actions,
      (w.st (actionRef a) = .standby ∨ w.st (actionRef a) = .complete) ∧
      w.ovr (actionRef a) = false ∧ w.cnt (actionRef a) = n
  | .running => (0 < n ∧ n ≤ max 1 e.max) ∧ ∀ a ∈ e.actions, w.ovr (actionRef a) = false ∧
      ((w.st (actionRef a) = .start ∧ w.cnt (actionRef a) + 1 = n) ∨
        ((w.st (actionRef a) = .running ∨ w.st (actionRef a) = .complete) ∧
          w.cnt (actionRef a) = n))
  | .end => (0 < n ∧ n ≤ max 1 e.max) ∧ ∀ a ∈ e.actions, w.ovr (actionRef a) = false ∧
      w.st (actionRef a) = .complete ∧ w.cnt (actionRef a) = n
  | .complete => (0 < n ∧ n ≤ max 1 e.max) ∧ ∀ a ∈ e.actions,
      w.st (actionRef a) = .complete ∧ w.cnt (actionRef a) = n
  | .stop => (0 < n ∧ n ≤ max 1 e.max) ∧ (∀ a ∈ e.actions,
      (w.st (actionRef a) = .running ∨ w.st (actionRef a) = .complete) ∧
      w.cnt (actionRef a) = n) ∧
      ((∀ a ∈ e.actions, w.ovr (actionRef a) = false) ∨
        ∀ a ∈ e.actions, w.st (actionRef a) = .complete)
  | .skip => False

/-- An event between two evaluations of its maneuver. -/
structure EvRest (e : Event) (w : World) : Prop where
  ok : EventOk e (w.st e.ref) (w.cnt e.ref) w
  notStart : w.st e.ref ≠ .start
  notEnd : w.st e.ref ≠ .end
  actions : ∀ a ∈ e.actions, w.st (actionRef a) ≠ .start

theorem EventOk.congr {e : Event} {s : St} {n : Nat} {w w' : World}
    (h : ∀ a ∈ e.actions, w'.st (actionRef a) = w.st (actionRef a) ∧
      w'.cnt (actionRef a) = w.cnt (actionRef a) ∧ w'.ovr (actionRef a) = w.ovr (actionRef a))
    (ok : EventOk e s n w) : EventOk e s n w' := by
  cases s <;> simp only [EventOk] at ok ⊢
  case standby => exact ⟨ok.1, fun a ha => by obtain ⟨h1, h2, h3⟩ := h a ha; rw [h1, h2, h3]; exact ok.2 a ha⟩
  case start => exact ⟨ok.1, fun a ha => by obtain ⟨h1, h2, h3⟩ := h a ha; rw [h1, h2, h3]; exact ok.2 a ha⟩
  case running => exact ⟨ok.1, fun a ha => by obtain ⟨h1, h2, h3⟩ := h a ha; rw [h1, h2, h3]; exact ok.2 a ha⟩
  case «end» => exact ⟨ok.1, fun a ha => by obtain ⟨h1, h2, h3⟩ := h a ha; rw [h1, h2, h3]; exact ok.2 a ha⟩
  case complete => exact ⟨ok.1, fun a ha => by obtain ⟨h1, h2, h3⟩ := h a ha; rw [h1, h2]; exact ok.2 a ha⟩
  case stop =>
    refine ⟨ok.1, fun a ha => by obtain ⟨h1, h2, h3⟩ := h a ha; rw [h1, h2]; exact ok.2.1 a ha, ?_⟩
    rcases ok.2.2 with o | o
    · exact Or.inl fun a ha => by rw [(h a ha).2.2]; exact o a ha
    · exact Or.inr fun a ha => by rw [(h a ha).1]; exact o a ha

theorem EvRest.congr {e : Event} {w w' : World} (hs : w'.st e.ref = w.st e.ref)
    (hc : w'.cnt e.ref = w.cnt e.ref)
    (h : ∀ a ∈ e.actions, w'.st (actionRef a) = w.st (actionRef a) ∧
      w'.cnt (actionRef a) = w.cnt (actionRef a) ∧ w'.ovr (actionRef a) = w.ovr (actionRef a))
    (ok : EvRest e w) : EvRest e w' := by
  refine ⟨?_, by rw [hs]; exact ok.notStart, by rw [hs]; exact ok.notEnd,
    fun a ha => by rw [(h a ha).1]; exact ok.actions a ha⟩
  rw [hs, hc]; exact ok.ok.congr h

theorem EvRest.frame {T : Ref → Prop} {e : Event} {w w' : World} (ho : Only T w w')
    (hr : ¬ T e.ref) (ha : ∀ a ∈ e.actions, ¬ T (actionRef a)) (ok : EvRest e w) : EvRest e w' :=
  ok.congr (ho.st _ hr) (ho.cnt _ hr)
    (fun a h => ⟨ho.st _ (ha a h), ho.cnt _ (ha a h), ho.ovr _ (ha a h)⟩)

theorem EvRest.state {e : Event} {w : World} (h : EvRest e w) :
    w.st e.ref = .standby ∨ w.st e.ref = .running ∨ w.st e.ref = .complete ∨
      w.st e.ref = .stop := by
  have h1 := h.ok; have h2 := h.notStart; have h3 := h.notEnd
  cases hs : w.st e.ref <;> simp_all [EventOk]

theorem EvRest.stop {e : Event} {w : World} (h : EvRest e w) (hne : w.st e.ref ≠ .standby) :
    EvRest e (w.goto e.ref .stop) := by
  have hact : ∀ a, (w.goto e.ref .stop).st (actionRef a) = w.st (actionRef a) := fun a =>
    goto_st_ne _ _ (ref_ne_of_kind (by simp))
  refine ⟨?_, by simp, by simp, fun a ha => by rw [hact]; exact h.actions a ha⟩
  rw [goto_st_self]
  simp only [EventOk, hact, goto_cnt, goto_ovr]
  have ok := h.ok
  have hn := h.actions
  rcases h.state with hs | hs | hs | hs
  · exact absurd hs hne
  · rw [hs] at ok; simp only [EventOk] at ok
    refine ⟨ok.1, fun a ha => ?_, Or.inl fun a ha => (ok.2 a ha).1⟩
    rcases (ok.2 a ha).2 with h' | h'
    · exact absurd h'.1 (hn a ha)
    · exact h'
  · rw [hs] at ok; simp only [EventOk] at ok
    exact ⟨ok.1, fun a ha => ⟨Or.inr (ok.2 a ha).1, (ok.2 a ha).2⟩, Or.inr fun a ha => (ok.2 a ha).1⟩
  · rw [hs] at ok; simp only [EventOk] at ok
    exact ok

theorem EvRest.goto_ne {e : Event} {w : World} {r : Ref} {s : St} (h : EvRest e w)
    (hr : e.ref ≠ r) (hk : ∀ a ∈ e.actions, actionRef a ≠ r) : EvRest e (w.goto r s) :=
  h.congr (goto_st_ne _ _ hr) rfl (fun a ha => ⟨goto_st_ne _ _ (hk a ha), rfl, rfl⟩)

theorem EvRest.emit {e : Event} {w : World} (h : EvRest e w) (x : Entry) : EvRest e (w.emit x) :=
  h.congr (w := w) rfl rfl (fun _ _ => ⟨rfl, rfl, rfl⟩)

theorem EvRest.setCnt_ne {e : Event} {w : World} {r : Ref} {n : Nat} (h : EvRest e w)
    (hr : e.ref ≠ r) (hk : ∀ a ∈ e.actions, actionRef a ≠ r) : EvRest e (w.setCnt r n) :=
  h.congr (w := w) rfl (setCnt_cnt_ne _ _ hr)
    (fun a ha => ⟨rfl, setCnt_cnt_ne _ _ (hk a ha), rfl⟩)

theorem EvRest.override {x y : Event} {w : World} (h : EvRest x w) :
    EvRest x (w.override y.ref) := by
  unfold World.override
  split
  · rename_i hc
    by_cases hxy : x.ref = y.ref
    · rw [← hxy]; rw [← hxy] at hc; exact h.stop hc.1
    · exact h.goto_ne hxy (fun a _ => ref_ne_of_kind (by simp))
  · exact h

section
variable {b : Board}

/-- Overriding all events of a maneuver, one of them (`e`) possibly just starting. -/
theorem overrideEvents_inv (wf : b.WF) {m : Maneuver} (hm : m ∈ b.maneuvers) {e : Event}
    (he : e ∈ m.events) {w : World} (hI : WI b w) (hs : w.st e.ref = .start)
    (hR : ∀ x ∈ b.events, x ≠ e → EvRest x w) :
    let w' := overrideEvents m.events w
    WI b w' ∧ (∀ x ∈ b.events, x ≠ e → EvRest x w') ∧
    (∀ x ∈ m.events, w'.st x.ref = .standby ∨ w'.st x.ref = .stop) ∧
    (w'.st e.ref = .stop → lastSource e.ref w'.log = .start) ∧
    w'.cnt = w.cnt ∧ w'.ovr = w.ovr ∧ ∀ a, w'.st (actionRef a) = w.st (actionRef a) := by
  have heb := mem_events hm he
  have := foldl_each
    (fun w' => WI b w' ∧ (∀ x ∈ b.events, x ≠ e → EvRest x w') ∧
      (w'.st e.ref = .start ∨ (w'.st e.ref = .stop ∧ lastSource e.ref w'.log = .start)) ∧
      w'.cnt = w.cnt ∧ w'.ovr = w.ovr ∧ ∀ a, w'.st (actionRef a) = w.st (actionRef a))
    (fun _ _ => True) (fun x w' => w'.st x.ref = .standby ∨ w'.st x.ref = .stop)
    (fun w x => w.override x.ref) m.events (wf.events_nodup hm) ?_ ?_ w
    ⟨hI, hR, Or.inl hs, rfl, rfl, fun _ => rfl⟩ (fun _ _ => trivial)
  · obtain ⟨⟨h1, h2, h3, h4, h5, h6⟩, h7⟩ := this
    refine ⟨h1, h2, h7, fun h => ?_, h4, h5, h6⟩
    exact (h3.resolve_left (by
      have h' : (m.events.foldl (fun w x => w.override x.ref) w).st e.ref = .stop := h
      rw [h']; decide)).2
  · rintro w' x hx ⟨h1, h2, h3, h4, h5, h6⟩ -
    have hxb := mem_events hm hx
    refine ⟨⟨h1.override ?_, ?_, ?_, by simp [h4], by simp [h5], ?_⟩, ?_⟩
    · by_cases hxe : x = e
      · subst hxe; rcases h3 with h3 | h3 <;> simp [h3]
      · rcases (h2 x hxb hxe).state with h | h | h | h <;> simp [h]
    · intro y hy hye; exact (h2 y hy hye).override
    · by_cases hxe : x = e
      · subst hxe
        rcases h3 with h3 | h3
        · right; refine ⟨by simp [override_st, h3], ?_⟩
          simp [World.override, h3, lastSource]
        · right; simpa [World.override, h3.1] using h3
      · have hne : x.ref ≠ e.ref := fun h => hxe (wf.event_inj hxb heb h)
        rw [override_st, if_neg (by rintro ⟨h, -⟩; exact hne h.symm)]
        have : lastSource e.ref (w'.override x.ref).log = lastSource e.ref w'.log := by
          unfold World.override; split
          · simp [lastSource, hne]
          · rfl
        rw [this]; exact h3
    · intro a; rw [override_st, if_neg]
      · exact h6 a
      · rintro ⟨h, -⟩; simp [actionRef, Event.ref] at h
    · rw [override_st]
      by_cases hst : w'.st x.ref = .standby <;> simp [hst]
  · intro w' x hx y hy hyx _ _
    refine ⟨fun h => h, fun h => ?_⟩
    rw [override_st, if_neg]
    · exact h
    · rintro ⟨h, -⟩
      exact hyx (wf.event_inj (mem_events hm hy) (mem_events hm hx) h)

theorem forceStart_actions (wf : b.WF) {e : Event} (heb : e ∈ b.events) {w : World} (hI : WI b w)
    (hact : ∀ a ∈ e.actions, w.st (actionRef a) = .standby ∨ w.st (actionRef a) = .complete) :
    let w' := forceStart (e.actions.map actionRef) w
    WI b w' ∧ w'.cnt = w.cnt ∧ w'.ovr = w.ovr ∧ (∀ a ∈ e.actions, w'.st (actionRef a) = .start) ∧
    (∀ r, (∀ a ∈ e.actions, r ≠ actionRef a) → w'.st r = w.st r ∧
      lastSource r w'.log = lastSource r w.log) := by
  have hfold : forceStart (e.actions.map actionRef) w =
      e.actions.foldl (fun w a => w.goto (actionRef a) .start) w := by
    simp [forceStart, List.foldl_map]
  rw [hfold]
  have := foldl_each
    (fun w' => WI b w' ∧ w'.cnt = w.cnt ∧ w'.ovr = w.ovr ∧
      (∀ r, (∀ a ∈ e.actions, r ≠ actionRef a) → w'.st r = w.st r ∧
        lastSource r w'.log = lastSource r w.log))
    (fun a w' => w'.st (actionRef a) = .standby ∨ w'.st (actionRef a) = .complete)
    (fun a w' => w'.st (actionRef a) = .start)
    (fun w a => w.goto (actionRef a) .start) e.actions (wf.actions_nodup heb) ?_ ?_ w
    ⟨hI, rfl, rfl, fun _ _ => ⟨rfl, rfl⟩⟩ hact
  · obtain ⟨⟨h1, h2, h3, h4⟩, h5⟩ := this
    exact ⟨h1, h2, h3, h5, h4⟩
  · rintro w' a ha ⟨h1, h2, h3, h4⟩ hp
    refine ⟨⟨h1.goto' (by decide) (by decide) ?_, h2, h3, ?_⟩, by simp⟩
    · rcases hp with hp | hp <;> rw [hp]
      · exact .start
      · exact .restartAction
    · intro r hr; rw [goto_st_ne _ _ (hr a ha)]
      refine ⟨(h4 r hr).1, ?_⟩
      simp only [goto_log, lastSource, if_neg (Ne.symm (hr a ha))]; exact (h4 r hr).2
  · intro w' a _ a' _ hne _ _
    have : actionRef a' ≠ actionRef a := by simpa using hne
    simp only [goto_st_ne _ _ this]
    exact ⟨fun h => h, fun h => h⟩

theorem child_event (wf : b.WF) {e : Event} (heb : e ∈ b.events) {c : Ref}
    (h : Child b e.ref c) : ∃ a ∈ e.actions, c = actionRef a := by
  generalize hr : e.ref = r at h
  cases h <;> simp [Event.ref, Board.ref, Story.ref, Act.ref, Group.ref, Maneuver.ref] at hr
  case action e' a he' ha =>
    have := wf.event_inj heb he' (by simp [Event.ref, hr])
    subst this; exact ⟨a, ha, rfl⟩

/-- `Event::run` (the default loop over the actions). -/
theorem runActions_inv (wf : b.WF) {env : Env} {e : Event} (heb : e ∈ b.events) {n : Nat}
    (hn : 0 < n) {w : World} (hI : WI b w) (hev : w.st e.ref = .running)
    (hact : ∀ a ∈ e.actions, w.ovr (actionRef a) = false ∧
      ((w.st (actionRef a) = .start ∧ w.cnt (actionRef a) + 1 = n) ∨
        ((w.st (actionRef a) = .running ∨ w.st (actionRef a) = .complete) ∧
          w.cnt (actionRef a) = n))) :
    let w' := e.actions.foldl (fun w a => evalAction env a w) w
    WI b w' ∧ ∀ a ∈ e.actions, w'.ovr (actionRef a) = false ∧
        (w'.st (actionRef a) = .running ∨ w'.st (actionRef a) = .complete) ∧
          w'.cnt (actionRef a) = n := by
  have := foldl_each (fun w => WI b w ∧ w.st e.ref = .running)
    (fun a w => w.ovr (actionRef a) = false ∧
      ((w.st (actionRef a) = .start ∧ w.cnt (actionRef a) + 1 = n) ∨
        ((w.st (actionRef a) = .running ∨ w.st (actionRef a) = .complete) ∧
          w.cnt (actionRef a) = n)))
    (fun a w => w.ovr (actionRef a) = false ∧
        (w.st (actionRef a) = .running ∨ w.st (actionRef a) = .complete) ∧
          w.cnt (actionRef a) = n)
    (fun w a => evalAction env a w) e.actions (wf.actions_nodup heb) ?_ ?_ w ⟨hI, hev⟩ hact
  · exact ⟨this.1.1, this.2⟩
  · rintro w a ha ⟨hw, hev⟩ ⟨ho, hp⟩
    obtain ⟨h1, h2, h3, h4, h5⟩ := evalAction_inv (env := env) (a := a) hw
      (by rcases hp with ⟨h, _⟩ | ⟨h | h, _⟩ <;> simp [h])
      (by rcases hp with ⟨h, _⟩ | ⟨h | h, _⟩ <;> simp [h])
      (by rcases hp with ⟨h, _⟩ | ⟨h | h, h'⟩ <;> simp [h]; omega)
      (fun _ => ho) (fun _ e' he' ha' => by rw [wf.action_owner he' heb ha' ha]; exact hev)
    refine ⟨⟨h1, ?_⟩, ?_, h2, ?_⟩
    · rw [(only_evalAction env a w).st _ (ref_ne_of_kind (by simp))]; exact hev
    · rw [h5 (by rcases hp with ⟨h, _⟩ | ⟨h | h, _⟩ <;> simp [h])]; exact ho
    · rw [h4]; rcases hp with ⟨h, h'⟩ | ⟨h | h, h'⟩ <;> simp [h, h']
  · intro w a _ a' _ hne _ _
    have hne' : ¬ (actionRef a' = actionRef a) := by simpa using hne
    have ho := only_evalAction env a w
    simp only [ho.st _ hne', ho.cnt _ hne', ho.ovr _ hne']
    exact ⟨fun h => h, fun h => h⟩

/-- `Event::stop` (the default loop over the actions). -/
theorem stopActions_inv (wf : b.WF) {env : Env} {e : Event} (heb : e ∈ b.events) {n : Nat}
    {w : World} (hI : WI b w)
    (hact : ∀ a ∈ e.actions, w.ovr (actionRef a) = false ∧
        (w.st (actionRef a) = .running ∨ w.st (actionRef a) = .complete) ∧
          w.cnt (actionRef a) = n) :
    let w' := e.actions.foldl (fun w a => overrideThen (actionRef a) (evalAction env a) w) w
    WI b w' ∧ ∀ a ∈ e.actions, w'.st (actionRef a) = .complete ∧ w'.cnt (actionRef a) = n := by
  refine foldl_each (WI b)
    (fun a w => w.ovr (actionRef a) = false ∧
      (w.st (actionRef a) = .running ∨ w.st (actionRef a) = .complete) ∧
          w.cnt (actionRef a) = n)
    (fun a w => w.st (actionRef a) = .complete ∧ w.cnt (actionRef a) = n)
    (fun w a => overrideThen (actionRef a) (evalAction env a) w) e.actions
    (wf.actions_nodup heb) ?_ ?_ w hI hact
  · rintro w a ha hw ⟨ho, hp, hc⟩
    have hst : (w.override (actionRef a)).st (actionRef a) = .stop := by
      rw [override_st]; rcases hp with h | h <;> simp [h]
    have hw' : WI b (w.override (actionRef a)) := hw.override (by rcases hp with h | h <;> simp [h])
    obtain ⟨h1, h2, h3, h4, h5⟩ := evalAction_inv (env := env) (a := a) hw'
      (by simp [hst]) (by simp [hst]) (by simp [hst]) (by simp [ho])
      (fun h => absurd hst h)
    refine ⟨h1, h3 (Or.inr hst), ?_⟩
    unfold overrideThen; rw [h4]; simp [hst, hc]
  · intro w a _ a' _ hne _ _
    have hne' : ¬ (actionRef a' = actionRef a) := by simpa using hne
    have ho : Only (· = actionRef a) w (overrideThen (actionRef a) (evalAction env a) w) :=
      only_overrideThen (T := (· = actionRef a)) _ _ rfl (only_evalAction env a) w
    simp only [ho.st _ hne', ho.cnt _ hne', ho.ovr _ hne']
    exact ⟨fun h => h, fun h => h⟩

/-- The main invariant of an event evaluation. -/
theorem evalEvent_inv (wf : b.WF) {env : Env} {m : Maneuver} (hm : m ∈ b.maneuvers) {e : Event}
    (he : e ∈ m.events) {w : World} (hI : WI b w) (hR : ∀ x ∈ b.events, EvRest x w) :
    WI b (evalEvent env m.events e w) ∧ ∀ x ∈ b.events, EvRest x (evalEvent env m.events e w) := by
  have heb := mem_events hm he
  have hother : ∀ x ∈ b.events, x ≠ e → x.ref ≠ e.ref := fun x hx hne h =>
    hne (wf.event_inj hx heb h)
  have hoact : ∀ x ∈ b.events, x ≠ e → ∀ a ∈ x.actions, ∀ a' ∈ e.actions,
      actionRef a ≠ actionRef a' := fun x hx hne a ha a' ha' h => by
    simp only [actionRef_inj] at h; subst h; exact hne (wf.action_owner hx heb ha ha')
  have hacte : ∀ a, actionRef a ≠ e.ref := fun a => ref_ne_of_kind (by simp)
  -- frame: others survive changes to `e` itself
  have hfr : ∀ (w : World) (s : St), (∀ x ∈ b.events, x ≠ e → EvRest x w) →
      ∀ x ∈ b.events, x ≠ e → EvRest x (w.goto e.ref s) := fun w s h x hx hne =>
    (h x hx hne).goto_ne (hother x hx hne) (fun a _ => hacte a)
  have hfra : ∀ (w w' : World), Only (fun r => ∃ a ∈ e.actions, r = actionRef a) w w' →
      (∀ x ∈ b.events, x ≠ e → EvRest x w) → ∀ x ∈ b.events, x ≠ e → EvRest x w' :=
    fun w w' ho h x hx hne => (h x hx hne).frame ho
      (by rintro ⟨a, _, h⟩; simp [Event.ref, actionRef] at h)
      (fun a ha => by rintro ⟨a', ha', h'⟩; exact hoact x hx hne a ha a' ha' h')
  have hnote : ¬ ∃ a ∈ e.actions, e.ref = actionRef a := by
    rintro ⟨a, _, h⟩; simp [Event.ref, actionRef] at h
  have honlyRun : ∀ w, Only (fun r => ∃ a ∈ e.actions, r = actionRef a) w
      ((eventHooks env m.events e).run w) := fun w =>
    only_foldl _ _ (fun w a ha => (only_evalAction env a w).mono (fun r hr => ⟨a, ha, hr⟩)) w
  have honlyStop : ∀ w, Only (fun r => ∃ a ∈ e.actions, r = actionRef a) w
      ((eventHooks env m.events e).stop w) := fun w =>
    only_foldl _ _ (fun w a ha => only_overrideThen _ _ ⟨a, ha, rfl⟩ (fun w =>
      (only_evalAction env a w).mono (fun r hr => ⟨a, ha, hr⟩)) w) w
  have key := dispatch_rule (eventHooks env m.events e)
    (fun s n w => WI b w ∧ w.st e.ref = s ∧ w.cnt e.ref = n ∧ EventOk e s n w ∧
      (∀ x ∈ b.events, x ≠ e → EvRest x w) ∧
      (s = .start → e.priority = .skip → ∀ x ∈ m.events, x ≠ e → w.st x.ref ≠ .running))
    (fun w => WI b w ∧ ∀ x ∈ b.events, EvRest x w) ?_ ?_ ?_ ?_ ?_ ?_ ?_ ?_ ?_ ?_ ?_
  · have heq : evalEvent env m.events e w = dispatch (eventHooks env m.events e) (w.st e.ref)
        (w.cnt e.ref) (w.emit (.visit e.ref)) := by
      simp [evalEvent, evaluate, eventHooks, falsy]
    rw [heq]
    refine key _ _ _ ⟨hI.emit (by simp), rfl, rfl, (hR e heb).ok, fun x hx _ => ?_, ?_⟩
    · exact (hR x hx).emit _
    · intro hs; exact absurd hs (hR e heb).notStart
  · -- start trigger false
    rintro n w ⟨hw, hst, hcn, hok, hx, -⟩ -
    refine ⟨hw.emit (by simp), fun x hxb => ?_⟩
    by_cases hxe : x = e
    · subst hxe
      have : EvRest x w := ⟨by rw [hst, hcn]; exact hok, by simp [hst], by simp [hst], fun a ha => by
        rcases (hok.2 a ha).1 with h | h <;> simp [h]⟩
      exact this.emit _
    · exact (hx x hxb hxe).emit _
  · -- vetoed
    rintro n w ⟨hw, hst, hcn, hok, hx, -⟩ - -
    have h1 : WI b (w.emit (.startTrigger e.ref)) := hw.emit (by simp)
    have h2 : WI b ((w.emit (.startTrigger e.ref)).goto e.ref .start) :=
      h1.goto' (by decide) (by decide) (by rw [emit_st, hst]; exact .start)
    refine ⟨h2.goto' (by decide) (by decide) (by simp [eventHooks]; exact .veto), fun x hxb => ?_⟩
    by_cases hxe : x = e
    · subst hxe
      refine ⟨?_, by simp [eventHooks], by simp [eventHooks], fun a ha => ?_⟩
      · simp only [eventHooks, goto_st_self, goto_cnt, emit_cnt, hcn]
        refine hok.congr (fun a _ => ⟨?_, rfl, rfl⟩)
        simp [goto_st_ne _ _ (hacte a)]
      · simp only [eventHooks, goto_st_ne _ _ (hacte a), emit_st]
        rcases (hok.2 a ha).1 with h | h <;> simp [h]
    · exact hfr _ _ (hfr _ _ (fun x hxb hxe => (hx x hxb hxe).emit _)) x hxb hxe
  · -- started
    rintro n w ⟨hw, hst, hcn, hok, hx, -⟩ - hv
    have h1 : WI b (w.emit (.startTrigger e.ref)) := hw.emit (by simp)
    refine ⟨h1.goto' (by decide) (by decide) (by simp only [eventHooks, emit_st, hst]; exact .start),
      by simp [eventHooks], hcn, ?_, ?_, ?_⟩
    · have : EventOk e .start n w := hok
      refine this.congr (fun a _ => ⟨?_, rfl, rfl⟩)
      simp [eventHooks, goto_st_ne _ _ (hacte a)]
    · exact hfr _ _ (fun x hxb hxe => (hx x hxb hxe).emit _)
    · intro _ hp x hxm hxe hrun
      simp only [eventHooks, hp, beq_self_eq_true, Bool.true_and, someEventRunning,
        List.any_eq_false] at hv
      exact hv x hxm (by simpa [eventHooks] using hrun)
  · -- start → running
    rintro n w ⟨hw, hst, hcn, hok, hx, hsk⟩
    have hok' : (n = 0 ∨ n < e.max) ∧ ∀ a ∈ e.actions,
      (w.st (actionRef a) = .standby ∨ w.st (actionRef a) = .complete) ∧
      w.ovr (actionRef a) = false ∧ w.cnt (actionRef a) = n := hok
    obtain ⟨w1, hw1⟩ : ∃ w1, w1 = if e.priority = .override then overrideEvents m.events w else w :=
      ⟨_, rfl⟩
    have hstart : (eventHooks env m.events e).start w =
        forceStart (e.actions.map actionRef) w1 := by rw [hw1]; rfl
    have f1 : WI b w1 ∧ (∀ x ∈ b.events, x ≠ e → EvRest x w1) ∧
        (e.priority = .override → ∀ x ∈ m.events, w1.st x.ref = .standby ∨ w1.st x.ref = .stop) ∧
        (e.priority = .skip → ∀ x ∈ m.events, x ≠ e → w1.st x.ref ≠ .running) ∧
        (w1.st e.ref = .start ∨ (w1.st e.ref = .stop ∧ lastSource e.ref w1.log = .start)) ∧
        w1.cnt = w.cnt ∧ w1.ovr = w.ovr ∧ ∀ a, w1.st (actionRef a) = w.st (actionRef a) := by
      rw [hw1]
      by_cases hp : e.priority = .override
      · have o := overrideEvents_inv wf hm he hw hst hx
        simp only [hp, if_true]
        refine ⟨o.1, o.2.1, fun _ => o.2.2.1, by simp, ?_, o.2.2.2.2⟩
        · rcases o.2.2.1 e he with h | h
          · -- cannot be standby: it was starting
            exfalso
            have : ∀ (l : List Event) (w : World), w.st e.ref ≠ .standby →
                (l.foldl (fun w x => w.override x.ref) w).st e.ref ≠ .standby := by
              intro l
              induction l with
              | nil => intro w h; exact h
              | cons y l ih =>
                intro w h
                apply ih
                rw [override_st]; split <;> simp [h]
            exact this m.events w (by simp [hst]) h
          · exact Or.inr ⟨h, o.2.2.2.1 h⟩
      · simp only [hp, if_false]
        exact ⟨hw, hx, by simp, fun h => hsk rfl h, Or.inl hst, by simp⟩
    obtain ⟨g1, g2, g3, g4, g5, g6, g7, g8⟩ := f1
    have f2 := forceStart_actions wf heb g1 (fun a ha => by rw [g8]; exact (hok'.2 a ha).1)
    rw [hstart]
    obtain ⟨k1, k2, k3, k4, k5⟩ := f2
    have hev : ∀ x ∈ b.events, (forceStart (e.actions.map actionRef) w1).st x.ref = w1.st x.ref :=
      fun x _ => (k5 _ (fun a _ => ref_ne_of_kind (by simp))).1
    have honly : Only (fun r => ∃ a ∈ e.actions, r = actionRef a) w1
        (forceStart (e.actions.map actionRef) w1) :=
      only_forceStart _ (fun c hc => by obtain ⟨a, ha, rfl⟩ := List.mem_map.1 hc; exact ⟨a, ha, rfl⟩) _
    have g2' := hfra _ _ honly g2
    refine ⟨k1.run (by simp [eventHooks]) (by simp [eventHooks, k2, g6, hcn]) ?_, by simp [eventHooks],
      by simp [eventHooks], ?_, ?_, by simp⟩
    · refine ⟨k1.coh _, ?_, ?_, ?_, ?_, by simp⟩
      · simp only [eventHooks]; rw [hev e heb]
        rcases g5 with g5 | g5
        · rw [g5]; exact .running
        · rw [g5.1]; exact .selfResume
      · rintro - m' hm' e' he' hr hp x hx' hxe
        have := wf.event_inj heb (mem_events hm' he') hr
        subst this
        have := wf.event_owner hm hm' he he'
        subst this
        rw [← k1.coh, hev x (mem_events hm hx')]
        exact g3 hp x hx'
      · rintro - m' hm' e' he' hr hp x hx' hxe
        have := wf.event_inj heb (mem_events hm' he') hr
        subst this
        have := wf.event_owner hm hm' he he'
        subst this
        rw [← k1.coh, hev x (mem_events hm hx')]
        exact g4 hp x hx' hxe
      · intro hs _
        have hs' : (forceStart (e.actions.map actionRef) w1).st e.ref = .stop := hs
        rw [hev e heb] at hs'
        rw [show (eventHooks env m.events e).ref = e.ref from rfl,
          (k5 e.ref (fun a _ => ref_ne_of_kind (by simp))).2]
        rcases g5 with g5 | g5
        · simp [hs'] at g5
        · exact g5.2
    · simp only [EventOk]
      refine ⟨⟨by omega, by rcases hok'.1 with h | h <;> omega⟩, fun a ha => ⟨?_, Or.inl ⟨?_, ?_⟩⟩⟩
      · simp only [setCnt_ovr, goto_ovr, k3, g7]; exact (hok'.2 a ha).2.1
      · simp only [eventHooks, setCnt_st, goto_st_ne _ _ (hacte a)]; exact k4 a ha
      · rw [setCnt_cnt_ne _ _ (by simpa [eventHooks] using hacte a), goto_cnt, k2, g6, (hok'.2 a ha).2.2]
    · intro x hxb hxe
      exact (hfr _ .running g2' x hxb hxe).setCnt_ne (hother x hxb hxe) (fun a _ => hacte a)
  · -- running → end
    rintro n w ⟨hw, hst, hcn, hok, hx, -⟩ hacc
    obtain ⟨r1, r2⟩ := runActions_inv (env := env) wf heb hok.1.1 hw hst hok.2
    have honly := honlyRun w
    have hex : ((eventHooks env m.events e).run w).st e.ref = .running := by
      rw [← hst]; exact honly.st _ hnote
    have hcx : ((eventHooks env m.events e).run w).cnt e.ref = n := by
      rw [← hcn]; exact honly.cnt _ hnote
    have hall : ∀ a ∈ e.actions, ((eventHooks env m.events e).run w).st (actionRef a) = .complete := by
      intro a ha
      have : allComplete (e.actions.map actionRef) ((eventHooks env m.events e).run w) = true := hacc
      simp only [allComplete, List.all_map, List.all_eq_true, Function.comp, beq_iff_eq] at this
      exact this a ha
    have r1' : WI b ((eventHooks env m.events e).run w) := r1
    refine ⟨r1'.goto (r1'.ok ?_ (by simp) ?_) (by decide), by simp [eventHooks], hcx, ?_, ?_, by simp⟩
    · rw [show (eventHooks env m.events e).ref = e.ref from rfl, hex]; exact .finish
    · intro _ c hc
      obtain ⟨a, ha, rfl⟩ := child_event wf heb hc
      exact hall a ha
    · refine ⟨hok.1, fun a ha => ⟨(r2 a ha).1, ?_, (r2 a ha).2.2⟩⟩
      rw [goto_st_ne _ _ (by exact hacte a)]; exact hall a ha
    · exact hfr _ _ (hfra _ _ honly hx)
  · -- still running
    rintro n w ⟨hw, hst, hcn, hok, hx, -⟩ -
    obtain ⟨r1, r2⟩ := runActions_inv (env := env) wf heb hok.1.1 hw hst hok.2
    have honly := honlyRun w
    have hex : ((eventHooks env m.events e).run w).st e.ref = .running := by
      rw [← hst]; exact honly.st _ hnote
    have hcx : ((eventHooks env m.events e).run w).cnt e.ref = n := by
      rw [← hcn]; exact honly.cnt _ hnote
    refine ⟨r1, fun x hxb => ?_⟩
    by_cases hxe : x = e
    · subst hxe
      refine ⟨?_, by simp [hex], by simp [hex], fun a ha => ?_⟩
      · rw [hex, hcx]; exact ⟨hok.1, fun a ha => ⟨(r2 a ha).1, Or.inr (r2 a ha).2⟩⟩
      · have := (r2 a ha).2.1
        show ¬ (((eventHooks env m.events x).run w).st (actionRef a) = .start)
        rcases this with h | h <;>
          simp only [eventHooks] <;> rw [h] <;> decide
    · exact hfra _ _ honly hx x hxb hxe
  · -- end → standby
    rintro n w ⟨hw, hst, hcn, hok, hx, -⟩ hlt
    refine ⟨hw.goto' (by decide) (by decide) (by
      rw [show (eventHooks env m.events e).ref = e.ref from rfl, hst]; exact .again),
      by simp [eventHooks], hcn, ⟨Or.inr hlt, fun a ha => ?_⟩, hfr _ _ hx, by simp⟩
    have hok' := hok.2 a ha
    rw [goto_st_ne _ _ (by exact hacte a)]
    exact ⟨Or.inr hok'.2.1, hok'.1, hok'.2.2⟩
  · -- end → complete
    rintro n w ⟨hw, hst, hcn, hok, hx, -⟩ hlt
    refine ⟨hw.goto' (by decide) (by decide) (by
      rw [show (eventHooks env m.events e).ref = e.ref from rfl, hst]; exact .done),
      by simp [eventHooks], hcn, ⟨hok.1, fun a ha => ?_⟩, hfr _ _ hx, by simp⟩
    have hok' := hok.2 a ha
    rw [goto_st_ne _ _ (by exact hacte a)]
    exact hok'.2
  · -- complete
    rintro n w ⟨hw, hst, hcn, hok, hx, -⟩
    refine ⟨hw, fun x hxb => ?_⟩
    by_cases hxe : x = e
    · subst hxe
      exact ⟨by rw [hst, hcn]; exact hok, by simp [hst], by simp [hst],
        fun a ha => by rw [(hok.2 a ha).1]; decide⟩
    · exact hx x hxb hxe
  · rintro n w ⟨_, _, _, hok, _⟩; exact hok.elim
  · -- stop → complete
    rintro n w ⟨hw, hst, hcn, hok, hx, -⟩
    by_cases hacc : (eventHooks env m.events e).accomplished w = true
    · rw [if_pos hacc]
      have hall : ∀ a ∈ e.actions, w.st (actionRef a) = .complete := by
        intro a ha
        have : allComplete (e.actions.map actionRef) w = true := hacc
        simp only [allComplete, List.all_map, List.all_eq_true, Function.comp, beq_iff_eq] at this
        exact this a ha
      refine ⟨hw.goto' (by decide) (by decide) (by
        rw [show (eventHooks env m.events e).ref = e.ref from rfl, hst]; exact .stopped),
        by simp [eventHooks], hcn, ⟨hok.1, fun a ha => ?_⟩, hfr _ _ hx, by simp⟩
      rw [goto_st_ne _ _ (by exact hacte a)]
      exact ⟨hall a ha, (hok.2.1 a ha).2⟩
    · rw [if_neg hacc]
      have hno : ∀ a ∈ e.actions, w.ovr (actionRef a) = false := by
        rcases hok.2.2 with h | h
        · exact h
        · exfalso; apply hacc
          show allComplete (e.actions.map actionRef) w = true
          simp only [allComplete, List.all_map, List.all_eq_true, Function.comp, beq_iff_eq]
          exact h
      obtain ⟨r1, r2⟩ := stopActions_inv (env := env) wf heb hw
        (fun a ha => ⟨hno a ha, (hok.2.1 a ha).1, (hok.2.1 a ha).2⟩)
      have honly := honlyStop w
      have hex : ((eventHooks env m.events e).stop w).st e.ref = .stop := by
        rw [← hst]; exact honly.st _ hnote
      have hcx : ((eventHooks env m.events e).stop w).cnt e.ref = n := by
        rw [← hcn]; exact honly.cnt _ hnote
      have r1' : WI b ((eventHooks env m.events e).stop w) := r1
      refine ⟨r1'.goto' (by decide) (by decide) (by
        rw [show (eventHooks env m.events e).ref = e.ref from rfl, hex]; exact .stopped),
        by simp [eventHooks], hcx, ⟨hok.1, fun a ha => ?_⟩, hfr _ _ (hfra _ _ honly hx), by simp⟩
      rw [goto_st_ne _ _ (by exact hacte a)]
      exact r2 a ha

end
end Verif.Storyboard
