import Verif.Storyboard.Lemmas
/-
The main invariant of the storyboard interpreter.
-/
namespace Verif.Storyboard

/-! ### Consequences of well-formedness -/

theorem inj_of_nodup_map {α β : Type} {f : α → β} {l : List α} (h : (l.map f).Nodup) {x y : α}
    (hx : x ∈ l) (hy : y ∈ l) (hxy : f x = f y) : x = y :=
  List.inj_on_of_nodup_map h hx hy hxy

theorem eq_of_nodup_flatMap {α β : Type} {f : α → List β} {l : List α}
    (h : (l.flatMap f).Nodup) {x y : α} (hx : x ∈ l) (hy : y ∈ l) {c : β} (hcx : c ∈ f x)
    (hcy : c ∈ f y) : x = y := by
  induction l with
  | nil => simp at hx
  | cons z l ih =>
    rw [List.flatMap_cons, List.nodup_append] at h
    obtain ⟨_, h2, h3⟩ := h
    have key : ∀ u ∈ l, c ∈ f u → c ∈ l.flatMap f := fun u hu hc => List.mem_flatMap.2 ⟨u, hu, hc⟩
    rcases List.mem_cons.1 hx with rfl | hx' <;> rcases List.mem_cons.1 hy with rfl | hy'
    · rfl
    · exact absurd rfl (h3 c hcx c (key y hy' hcy))
    · exact absurd rfl (h3 c hcy c (key x hx' hcx))
    · exact ih h2 hx' hy'

namespace Board.WF
variable {b : Board}

theorem event_inj (h : b.WF) {e e' : Event} (he : e ∈ b.events) (he' : e' ∈ b.events)
    (hr : e.ref = e'.ref) : e = e' :=
  inj_of_nodup_map h.events he he' (by simpa [Event.ref] using hr)
theorem maneuver_inj (h : b.WF) {m m' : Maneuver} (hm : m ∈ b.maneuvers) (hm' : m' ∈ b.maneuvers)
    (hr : m.ref = m'.ref) : m = m' :=
  inj_of_nodup_map h.maneuvers hm hm' (by simpa [Maneuver.ref] using hr)
theorem group_inj (h : b.WF) {m m' : Group} (hm : m ∈ b.groups) (hm' : m' ∈ b.groups)
    (hr : m.ref = m'.ref) : m = m' :=
  inj_of_nodup_map h.groups hm hm' (by simpa [Group.ref] using hr)
theorem act_inj (h : b.WF) {m m' : Act} (hm : m ∈ b.acts) (hm' : m' ∈ b.acts)
    (hr : m.ref = m'.ref) : m = m' :=
  inj_of_nodup_map h.acts hm hm' (by simpa [Act.ref] using hr)
theorem story_inj (h : b.WF) {m m' : Story} (hm : m ∈ b.stories) (hm' : m' ∈ b.stories)
    (hr : m.ref = m'.ref) : m = m' :=
  inj_of_nodup_map h.stories hm hm' (by simpa [Story.ref] using hr)

theorem action_owner (h : b.WF) {e e' : Event} (he : e ∈ b.events) (he' : e' ∈ b.events) {a : Nat}
    (ha : a ∈ e.actions) (ha' : a ∈ e'.actions) : e = e' :=
  eq_of_nodup_flatMap h.actions he he' ha ha'
theorem event_owner (h : b.WF) {m m' : Maneuver} (hm : m ∈ b.maneuvers) (hm' : m' ∈ b.maneuvers)
    {e : Event} (he : e ∈ m.events) (he' : e ∈ m'.events) : m = m' :=
  eq_of_nodup_flatMap (List.Nodup.of_map _ h.events) hm hm' he he'
theorem maneuver_owner (h : b.WF) {g g' : Group} (hg : g ∈ b.groups) (hg' : g' ∈ b.groups)
    {m : Maneuver} (hm : m ∈ g.maneuvers) (hm' : m ∈ g'.maneuvers) : g = g' :=
  eq_of_nodup_flatMap (List.Nodup.of_map _ h.maneuvers) hg hg' hm hm'
theorem group_owner (h : b.WF) {g g' : Act} (hg : g ∈ b.acts) (hg' : g' ∈ b.acts)
    {m : Group} (hm : m ∈ g.groups) (hm' : m ∈ g'.groups) : g = g' :=
  eq_of_nodup_flatMap (List.Nodup.of_map _ h.groups) hg hg' hm hm'
theorem act_owner (h : b.WF) {g g' : Story} (hg : g ∈ b.stories) (hg' : g' ∈ b.stories)
    {m : Act} (hm : m ∈ g.acts) (hm' : m ∈ g'.acts) : g = g' :=
  eq_of_nodup_flatMap (List.Nodup.of_map _ h.acts) hg hg' hm hm'
theorem actions_nodup (h : b.WF) {e : Event} (he : e ∈ b.events) : e.actions.Nodup :=
  (List.nodup_flatMap.1 h.actions).1 e he
theorem events_nodup (h : b.WF) {m : Maneuver} (hm : m ∈ b.maneuvers) : m.events.Nodup :=
  (List.nodup_flatMap.1 (List.Nodup.of_map _ h.events)).1 m hm
theorem maneuvers_nodup (h : b.WF) {m : Group} (hm : m ∈ b.groups) : m.maneuvers.Nodup :=
  (List.nodup_flatMap.1 (List.Nodup.of_map _ h.maneuvers)).1 m hm

end Board.WF

theorem mem_events {b : Board} {m : Maneuver} {e : Event} (hm : m ∈ b.maneuvers)
    (he : e ∈ m.events) : e ∈ b.events := List.mem_flatMap.2 ⟨m, hm, he⟩
theorem mem_maneuvers {b : Board} {g : Group} {m : Maneuver} (hg : g ∈ b.groups)
    (hm : m ∈ g.maneuvers) : m ∈ b.maneuvers := List.mem_flatMap.2 ⟨g, hg, hm⟩
theorem mem_groups {b : Board} {a : Act} {g : Group} (ha : a ∈ b.acts)
    (hg : g ∈ a.groups) : g ∈ b.groups := List.mem_flatMap.2 ⟨a, ha, hg⟩
theorem mem_acts {b : Board} {s : Story} {a : Act} (hs : s ∈ b.stories)
    (ha : a ∈ s.acts) : a ∈ b.acts := List.mem_flatMap.2 ⟨s, hs, ha⟩

@[simp] theorem actionRef_inj {a a' : Nat} : actionRef a = actionRef a' ↔ a = a' := by
  simp [actionRef]
@[simp] theorem actionRef_kind (a : Nat) : (actionRef a).kind = .action := rfl
@[simp] theorem Event.ref_kind (e : Event) : e.ref.kind = .event := rfl
@[simp] theorem Maneuver.ref_kind (e : Maneuver) : e.ref.kind = .maneuver := rfl
@[simp] theorem Group.ref_kind (e : Group) : e.ref.kind = .group := rfl
@[simp] theorem Act.ref_kind (e : Act) : e.ref.kind = .act := rfl
@[simp] theorem Story.ref_kind (e : Story) : e.ref.kind = .story := rfl
@[simp] theorem Board.ref_kind (e : Board) : e.ref.kind = .board := rfl
@[simp] theorem Board.initRef_kind (e : Board) : e.initRef.kind = .init := rfl

theorem ref_ne_of_kind {r r' : Ref} (h : r.kind ≠ r'.kind) : r ≠ r' := by
  rintro rfl; exact h rfl

/-! ### The invariant on the log -/

/-- What must be true of a transition of `r` from `s` to `d` recorded on top of log `l`. -/
structure OkTrans (b : Board) (r : Ref) (s d : St) (l : Log) : Prop where
  src : s = lastState r l
  legal : Legal r.kind s d
  override : d = .running → ∀ m ∈ b.maneuvers, ∀ e ∈ m.events, r = e.ref →
    e.priority = .override → ∀ x ∈ m.events, x ≠ e →
    lastState x.ref l = .standby ∨ lastState x.ref l = .stop
  skip : d = .running → ∀ m ∈ b.maneuvers, ∀ e ∈ m.events, r = e.ref →
    e.priority = .skip → ∀ x ∈ m.events, x ≠ e → lastState x.ref l ≠ .running
  resume : s = .stop → d = .running → lastSource r l = .start
  children : d = .end → ∀ c, Child b r c → lastState c l = .complete

def Entry.Ok (b : Board) (l : Log) : Entry → Prop
  | .trans r s d => OkTrans b r s d l
  | .startAction r | .runAction r =>
    ∀ e ∈ b.events, ∀ a ∈ e.actions, r = actionRef a → lastState e.ref l = .running
  | _ => True

/-- Entries without any proof obligation. -/
@[simp] def Entry.Plain (x : Entry) : Prop :=
  (∀ r s d, x ≠ .trans r s d) ∧ (∀ r, x ≠ .startAction r) ∧ ∀ a, x ≠ .runAction (actionRef a)

/-- Every entry of the log was fine when it was recorded. -/
def Good (b : Board) : Log → Prop
  | [] => True
  | x :: l => x.Ok b l ∧ Good b l

theorem Good.before {b : Board} {l l' : Log} {x : Entry} (h : Good b l) (hx : Before l x l') :
    x.Ok b l' := by
  obtain ⟨d, rfl⟩ := hx
  induction d with
  | nil => exact h.1
  | cons y d ih => exact ih h.2

/-- The heap agrees with the log and the log is good. -/
structure WI (b : Board) (w : World) : Prop where
  coh : ∀ r, w.st r = lastState r w.log
  good : Good b w.log
  cnt : ∀ r, w.cnt r = executions r w.log
  starts : ∀ a, starts (actionRef a) w.log = w.cnt (actionRef a)

theorem WI.initial (b : Board) : WI b World.initial :=
  ⟨fun _ => rfl, trivial, fun _ => rfl, fun _ => rfl⟩

theorem WI.emit {b : Board} {w : World} (h : WI b w) {x : Entry}
    (hx : x.Plain) : WI b (w.emit x) := by
  cases x with
  | trans r s d => exact absurd rfl (hx.1 r s d)
  | startAction r => exact absurd rfl (hx.2.1 r)
  | runAction r =>
    exact ⟨h.coh, ⟨fun e _ a _ hr => absurd (by rw [hr]) (hx.2.2 a), h.good⟩,
      fun r => by simpa [executions] using h.cnt r,
      fun a => by simpa [Verif.Storyboard.starts] using h.starts a⟩
  | _ =>
    exact ⟨h.coh, ⟨trivial, h.good⟩, fun r => by simpa [executions] using h.cnt r,
      fun a => by simpa [Verif.Storyboard.starts] using h.starts a⟩

theorem WI.emitRun {b : Board} {w : World} (h : WI b w) {a : Nat}
    (hev : ∀ e ∈ b.events, a ∈ e.actions → w.st e.ref = .running) :
    WI b (w.emit (.runAction (actionRef a))) :=
  ⟨h.coh, ⟨fun e he a' ha' hr => by
      simp only [actionRef_inj] at hr; subst hr; rw [← h.coh]; exact hev e he ha', h.good⟩,
    fun r => by simpa [executions] using h.cnt r,
    fun a => by simpa [Verif.Storyboard.starts] using h.starts a⟩

theorem executions_trans (r r' : Ref) (s d : St) (l : Log) :
    executions r (.trans r' s d :: l) = executions r l + if r' = r ∧ d = .running then 1 else 0 := by
  unfold executions
  rw [List.countP_cons]
  cases d <;> simp

theorem WI.goto {b : Board} {w : World} (h : WI b w) {r : Ref} {s : St}
    (ok : OkTrans b r (w.st r) s w.log) (hs : s ≠ .running) : WI b (w.goto r s) := by
  refine ⟨fun r' => ?_, ⟨ok, h.good⟩, fun r' => ?_, fun a => ?_⟩
  · rw [goto_st, goto_log, lastState, h.coh r']
    by_cases hr : r' = r
    · simp [hr]
    · simp [hr, Ne.symm hr]
  · rw [goto_log, executions_trans]; simp [hs, h.cnt r']
  · simpa [Verif.Storyboard.starts] using h.starts a

theorem WI.run {b : Board} {w : World} (h : WI b w) {r : Ref} (hk : r.kind ≠ .action) {n : Nat}
    (hn : w.cnt r = n) (ok : OkTrans b r (w.st r) .running w.log) :
    WI b ((w.goto r .running).setCnt r (n + 1)) := by
  refine ⟨fun r' => ?_, ⟨ok, h.good⟩, fun r' => ?_, fun a => ?_⟩
  · rw [setCnt_st, setCnt_log, goto_st, goto_log, lastState, h.coh r']
    by_cases hr : r' = r
    · simp [hr]
    · simp [hr, Ne.symm hr]
  · rw [setCnt_log, goto_log, executions_trans]
    by_cases hr : r' = r
    · subst hr; simp [← hn, h.cnt r']
    · rw [setCnt_cnt_ne _ _ hr]; simp [Ne.symm hr, h.cnt r']
  · rw [setCnt_cnt_ne _ _ (ref_ne_of_kind (by simpa using hk.symm))]
    simpa [Verif.Storyboard.starts] using h.starts a

theorem WI.runAction {b : Board} {w : World} (h : WI b w) {a : Nat} {n : Nat}
    (hn : w.cnt (actionRef a) = n)
    (hev : ∀ e ∈ b.events, a ∈ e.actions → w.st e.ref = .running)
    (ok : OkTrans b (actionRef a) (w.st (actionRef a)) .running
      (.startAction (actionRef a) :: w.log)) :
    WI b (((w.emit (.startAction (actionRef a))).goto (actionRef a) .running).setCnt
      (actionRef a) (n + 1)) := by
  refine ⟨fun r' => ?_, ⟨ok, fun e he a' ha' hr => ?_, h.good⟩, fun r' => ?_, fun a' => ?_⟩
  · rw [setCnt_st, setCnt_log, goto_st, goto_log, lastState, emit_st, emit_log, lastState, h.coh r']
    by_cases hr : r' = actionRef a
    · simp [hr]
    · simp [hr, Ne.symm hr]
    · simp
  · simp only [actionRef_inj] at hr; subst hr; rw [← h.coh]; exact hev e he ha'
  · rw [setCnt_log, goto_log, executions_trans]
    have : executions r' (w.emit (.startAction (actionRef a))).log = executions r' w.log := by
      simp [executions]
    rw [this]
    by_cases hr : r' = actionRef a
    · subst hr; simp [← hn, h.cnt]
    · rw [setCnt_cnt_ne _ _ hr]; simp [Ne.symm hr, h.cnt r']
  · have hst := h.starts a'
    by_cases hr : a' = a
    · subst hr
      simp [Verif.Storyboard.starts, ← hn] at hst ⊢
      exact hst
    · rw [setCnt_cnt_ne _ _ (by simpa using hr)]
      simp [Verif.Storyboard.starts, Ne.symm hr] at hst ⊢
      exact hst

theorem WI.ok {b : Board} {w : World} (h : WI b w) {r : Ref} {d : St}
    (legal : Legal r.kind (w.st r) d)
    (hr : d = .running → r.kind ≠ .event)
    (hc : d = .end → ∀ c, Child b r c → w.st c = .complete)
    (hres : w.st r = .stop → d ≠ .running := by simp) :
    OkTrans b r (w.st r) d w.log := by
  refine ⟨h.coh r, legal, ?_, ?_, fun h1 h2 => absurd h2 (hres h1), ?_⟩
  · rintro hd m _ e _ rfl; exact absurd rfl (hr hd)
  · rintro hd m _ e _ rfl; exact absurd rfl (hr hd)
  · intro hd c hcc; rw [← h.coh]; exact hc hd c hcc

/-- A transition that is neither to running nor to end. -/
theorem WI.goto' {b : Board} {w : World} (h : WI b w) {r : Ref} {d : St}
    (hd : d ≠ .running) (hd' : d ≠ .end) (legal : Legal r.kind (w.st r) d) : WI b (w.goto r d) :=
  h.goto (h.ok legal (fun h => absurd h hd) (fun h => absurd h hd') (fun _ => hd)) hd

theorem WI.override {b : Board} {w : World} (h : WI b w) {r : Ref}
    (hs : w.st r = .standby ∨ w.st r = .running ∨ w.st r = .complete ∨ w.st r = .stop ∨
      (r.kind = .event ∧ w.st r = .start)) : WI b (w.override r) := by
  unfold World.override
  split
  · apply h.goto' (by decide) (by decide)
    rcases hs with hs | hs | hs | hs | ⟨hk, hs⟩
    · simp_all
    · rw [hs]; exact .stopRunning
    · rw [hs]; exact .stopComplete
    · simp_all
    · rw [hs, hk]; exact .selfStop
  · exact h

end Verif.Storyboard
