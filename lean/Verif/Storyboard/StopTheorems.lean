import Verif.Storyboard.Stop
import Verif.Storyboard.Theorems
/-
C07: stop triggers. The property as stated is false of the code (`C07_violated`): stopping an
element evaluates its children, and a child in standby whose start trigger fires in that very
evaluation starts and is left running below a complete parent. What does hold: the element that was
told to stop is complete at the end of the frame and ever after, and, if no start trigger fires below
an element being stopped, nothing below a complete element is executing.
-/
namespace Verif.Storyboard

variable {b : Board}

/-- **C07.** If the stop trigger of an act fires while the act has left standby, the act is complete
at the end of that frame and of every later frame. -/
theorem C07_act_completes (wf : b.WF) (env : Env) (n : Nat) {a : Act} (ha : a ∈ b.acts) {l : Log}
    (h : Before (runFrames env b n).log (.stopTrigger a.ref) l)
    (ht : env.stopTrigger a.ref l = true) (hs : lastState a.ref l ≠ .standby) :
    (runFrames env b n).st a.ref = .complete := by
  have hF := runFrames_inv wf env n
  obtain ⟨s, hm⟩ := (AC_runFrames env b n).2 _ l h ht hs
  obtain ⟨l1, l2, hl⟩ := List.append_of_mem hm
  have hg := hF.wi.good
  have hc := hF.wi.coh a.ref
  rw [hl] at hg hc
  rcases stopped_frozen (by simp) hg with hst | hst
  · rw [← hc] at hst
    rcases (hF.1.1.2 a ha).state with h | h | h <;> rw [h] at hst <;> cases hst
  · exact hc.trans hst

/-- **C07.** If the stop trigger of the storyboard fires while it has left standby, the storyboard
is complete at the end of that frame and of every later frame. -/
theorem C07_storyboard_completes (wf : b.WF) (env : Env) (n : Nat) {l : Log}
    (h : Before (runFrames env b n).log (.stopTrigger b.ref) l)
    (ht : env.stopTrigger b.ref l = true) (hs : lastState b.ref l ≠ .standby) :
    (runFrames env b n).st b.ref = .complete := by
  have hF := runFrames_inv wf env n
  obtain ⟨s, hm⟩ := (AC_runFrames env b n).2 _ l h ht hs
  obtain ⟨l1, l2, hl⟩ := List.append_of_mem hm
  have hg := hF.wi.good
  have hc := hF.wi.coh b.ref
  rw [hl] at hg hc
  rcases stopped_frozen (by simp) hg with hst | hst
  · rw [← hc] at hst
    rcases hF.2.state with h | h | h <;> rw [h] at hst <;> cases hst
  · exact hc.trans hst

/-! ### The subtree -/

/-- **C07 (partial).** If no start trigger fires below an element in stopTransition, then at every
frame boundary nothing below a complete element is executing: every descendant is complete or in
standby. Missing from the full property: the hypothesis `Quiet`, see `C07_violated`. -/
theorem C07_descendants_partial (wf : b.WF) {env : Env} (hq : Quiet env b) (n : Nat) {p d : Ref}
    (hd : Descendant b p d) (h : (runFrames env b n).st p = .complete) :
    (runFrames env b n).st d = .complete ∨ (runFrames env b n).st d = .standby := by
  have key : Calm p (runFrames env b n) → Calm d (runFrames env b n) := by
    clear h
    induction hd with
    | child hc => exact calm_child wf hq n hc
    | step hc _ ih => exact fun h => ih (calm_child wf hq n hc h)
  rcases key (Or.inr h) with h | h
  · exact Or.inr h
  · exact Or.inl h

/-- **C07 (partial).** The two together: once the stop trigger of an act has fired outside standby,
the act is complete and nothing below it is executing at any later frame boundary. -/
theorem C07_act_partial (wf : b.WF) {env : Env} (hq : Quiet env b) (n : Nat) {a : Act}
    (ha : a ∈ b.acts) {l : Log} (h : Before (runFrames env b n).log (.stopTrigger a.ref) l)
    (ht : env.stopTrigger a.ref l = true) (hs : lastState a.ref l ≠ .standby) :
    (runFrames env b n).st a.ref = .complete ∧ ∀ d, Descendant b a.ref d →
      (runFrames env b n).st d = .complete ∨ (runFrames env b n).st d = .standby :=
  have hc := C07_act_completes wf env n ha h ht hs
  ⟨hc, fun _ hd => C07_descendants_partial wf hq n hd hc⟩

/-! ### The property as stated is false -/

/-- Event 1 waits for frame 2, the frame in which the act is stopped. -/
def stopEnv : Env where
  startTrigger r l := r != exE1.ref || frames l ≥ 2
  stopTrigger r l := r == exA.ref && frames l ≥ 2
  accomplished _ _ := false

/-- The same scenario, but the event's start trigger also requires that its maneuver is running. -/
def quietEnv : Env where
  startTrigger r l :=
    match r.kind with
    | .act => lastState exS.ref l != .stop
    | _ => lastState exM.ref l != .stop && (r != exE1.ref || frames l ≥ 2)
  stopTrigger r l := r == exA.ref && frames l ≥ 2
  accomplished _ _ := false

/-- **C07 is false of the code**: the act's stop trigger fires in frame 2 while the act is running,
the act is complete at the end of the frame, and its descendant event 1 is running. -/
theorem C07_violated : ∃ (b : Board) (env : Env) (a : Act) (d : Ref), b.WF ∧ a ∈ b.acts ∧
    Descendant b a.ref d ∧ (runFrames env b 1).st a.ref = .running ∧
    (runFrames env b 2).st a.ref = .complete ∧ (runFrames env b 2).st d = .running ∧
    (∃ l, Before (runFrames env b 2).log (.stopTrigger a.ref) l ∧ env.stopTrigger a.ref l = true) :=
  ⟨exB, stopEnv, exA, exE1.ref, by decide, by decide,
    .step (.group (a := exA) (g := exG) (by decide) (by decide))
      (.step (.maneuver (g := exG) (m := exM) (by decide) (by decide))
        (.child (.event (m := exM) (e := exE1) (by decide) (by decide)))),
    by decide +kernel, by decide +kernel, by decide +kernel,
    (runFrames stopEnv exB 2).log.drop 35, ⟨(runFrames stopEnv exB 2).log.take 34, by decide +kernel⟩,
    by decide +kernel⟩

/-- The hypotheses of the partial theorems are met by a run in which the act is stopped while two
events of it are executing. -/
example : Quiet quietEnv exB ∧ (runFrames quietEnv exB 1).st exE0.ref = .running ∧
    ∃ l, Before (runFrames quietEnv exB 2).log (.stopTrigger exA.ref) l ∧
      quietEnv.stopTrigger exA.ref l = true ∧ lastState exA.ref l ≠ .standby := by
  refine ⟨⟨?_, ?_⟩, by decide +kernel, (runFrames quietEnv exB 2).log.drop 24,
    ⟨(runFrames quietEnv exB 2).log.take 23, by decide +kernel⟩, by decide +kernel, by decide +kernel⟩
  · intro m hm e he l hl
    have : m = exM := by simpa [exB, Board.maneuvers, Board.groups, Board.acts, exS, exA, exG] using hm
    subst this
    simp [quietEnv, Event.ref, hl]
  · intro s hs a ha l hl
    have : s = exS := by simpa [exB] using hs
    subst this
    simp [quietEnv, Act.ref, hl]

end Verif.Storyboard
