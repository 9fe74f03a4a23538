import Verif.Storyboard.Invariant
/-
Invariant of a single Action.
-/
namespace Verif.Storyboard

theorem no_child_action {b : Board} {a : Nat} {c : Ref} (h : Child b (actionRef a) c) : False := by
  generalize hr : actionRef a = r at h
  cases h <;> simp [actionRef, Board.ref, Story.ref, Act.ref, Group.ref, Maneuver.ref, Event.ref] at hr

theorem no_child_init {b : Board} {c : Ref} (h : Child b b.initRef c) : False := by
  generalize hr : b.initRef = r at h
  cases h <;> simp [Board.initRef, Board.ref, Story.ref, Act.ref, Group.ref, Maneuver.ref,
    Event.ref] at hr

/-- Executions so far when the loop is in state `s`, having begun in `s0` with count `n0`. -/
def Progress (s0 : St) (n0 : Nat) (s : St) (n : Nat) : Prop :=
  match s0 with
  | .complete => s = .complete ∧ n = n0
  | .stop => (s = .stop ∨ s = .complete) ∧ n = n0
  | .running => (s = .running ∨ s = .end ∨ s = .complete) ∧ n = n0
  | .standby => ((s = .standby ∨ s = .start) ∧ n = n0) ∨
      ((s = .running ∨ s = .end ∨ s = .complete) ∧ n = n0 + 1)
  | .start => (s = .start ∧ n = n0) ∨
      ((s = .running ∨ s = .end ∨ s = .complete) ∧ n = n0 + 1)
  | _ => False

theorem evalAction_inv {b : Board} {env : Env} {a : Nat} {w : World} (hI : WI b w)
    (hsk : w.st (actionRef a) ≠ .skip) (hen : w.st (actionRef a) ≠ .end)
    (hr : w.st (actionRef a) = .running → 0 < w.cnt (actionRef a))
    (ho : w.st (actionRef a) = .stop → w.ovr (actionRef a) = false)
    (hev : w.st (actionRef a) ≠ .stop → ∀ e ∈ b.events, a ∈ e.actions → w.st e.ref = .running) :
    WI b (evalAction env a w) ∧
    ((evalAction env a w).st (actionRef a) = .running ∨
      (evalAction env a w).st (actionRef a) = .complete) ∧
    (w.st (actionRef a) = .complete ∨ w.st (actionRef a) = .stop →
      (evalAction env a w).st (actionRef a) = .complete) ∧
    (evalAction env a w).cnt (actionRef a) =
      (if w.st (actionRef a) = .standby ∨ w.st (actionRef a) = .start then
        w.cnt (actionRef a) + 1 else w.cnt (actionRef a)) ∧
    (w.st (actionRef a) ≠ .stop → (evalAction env a w).ovr (actionRef a) = w.ovr (actionRef a)) := by
  generalize hs0 : w.st (actionRef a) = s0 at *
  generalize hn0 : w.cnt (actionRef a) = n0 at *
  generalize ho0 : w.ovr (actionRef a) = o0 at *
  have hge : ∀ (w : World) (s : St) (e : Event), (w.goto (actionRef a) s).st e.ref = w.st e.ref :=
    fun w s e => goto_st_ne _ _ (ref_ne_of_kind (by simp))
  have key := dispatch_rule (actionHooks env a)
      (fun s n w' => WI b w' ∧ w'.st (actionRef a) = s ∧ w'.cnt (actionRef a) = n ∧
        Progress s0 n0 s n ∧ (s = .running → 0 < n) ∧ (s = .end → 0 < n) ∧
        (s = .stop → w'.ovr (actionRef a) = false) ∧ (s0 ≠ .stop → w'.ovr (actionRef a) = o0) ∧
        (s0 ≠ .stop → ∀ e ∈ b.events, a ∈ e.actions → w'.st e.ref = .running))
      (fun w' => WI b w' ∧ (w'.st (actionRef a) = .running ∨ w'.st (actionRef a) = .complete) ∧
        Progress s0 n0 (w'.st (actionRef a)) (w'.cnt (actionRef a)) ∧
        (s0 ≠ .stop → w'.ovr (actionRef a) = o0)) ?_ ?_ ?_ ?_ ?_ ?_ ?_ ?_ ?_ ?_ ?_
  · have hfin := key s0 n0 (w.emit (.visit (actionRef a))) ⟨hI.emit (by simp), hs0, hn0, by
      cases s0 <;> simp_all [Progress], hr, fun h => absurd h hen,
      fun h => by simpa [ho0] using ho h, fun _ => ho0, hev⟩
    have heq : evalAction env a w = dispatch (actionHooks env a) s0 n0 (w.emit (.visit (actionRef a))) := by
      simp [evalAction, evaluate, actionHooks, falsy, hs0, hn0]
    rw [heq]
    obtain ⟨g1, g2, g3, g4⟩ := hfin
    refine ⟨g1, g2, ?_, ?_, g4⟩
    · rintro (rfl | rfl) <;> simp [Progress] at g3
      · exact g3.1
      · rcases g2 with g2 | g2 <;> simp_all
    · generalize (dispatch (actionHooks env a) s0 n0 (w.emit (.visit (actionRef a)))).st (actionRef a) = z at *
      cases s0 <;> rcases g2 with rfl | rfl <;> simp_all [Progress]
  · intro n w' _ h; simp [actionHooks, truthy] at h
  · intro n w' _ _ h; simp [actionHooks] at h
  · rintro n w' ⟨hw, hst, hcn, hp, h1, h2, h3, h4, h5⟩ - -
    refine ⟨hw.goto' (by decide) (by decide) ?_, by simp [actionHooks], by simp [actionHooks, truthy, hcn], ?_, by simp, by simp, by simp, h4, fun h0 e he ha => (hge _ _ e).trans (h5 h0 e he ha)⟩
    · simp only [actionHooks, hst]; exact .start
    · cases s0 <;> simp_all [Progress]
  · rintro n w' ⟨hw, hst, hcn, hp, h1, h2, h3, h4, h5⟩
    have hs0' : s0 ≠ .stop := by rintro rfl; simp_all [Progress]
    refine ⟨hw.runAction hcn (h5 hs0') ?_, by simp [actionHooks], by simp [actionHooks], ?_, by simp, by simp, by simp, h4, fun h0 e he ha => (hge (w'.emit (.startAction (actionRef a))) .running e).trans (h5 h0 e he ha)⟩
    · refine ⟨by rw [hw.coh]; rfl, by rw [hst]; exact .running, ?_, ?_, by simp [hst], ?_⟩
      · rintro - m _ e _ h; simp [actionRef, Event.ref] at h
      · rintro - m _ e _ h; simp [actionRef, Event.ref] at h
      · simp
    · cases s0 <;> simp_all [Progress]
  · rintro n w' ⟨hw, hst, hcn, hp, h1, h2, h3, h4, h5⟩ -
    have hs0' : s0 ≠ .stop := by rintro rfl; simp_all [Progress]
    have hw' : WI b (w'.emit (.runAction (actionRef a))) := hw.emitRun (h5 hs0')
    refine ⟨hw'.goto (hw'.ok ?_ (by simp) ?_) (by decide), by simp [actionHooks], by simp [actionHooks, hcn], ?_, by simp, fun _ => h1 rfl, by simp, h4, fun h0 e he ha => (hge _ _ e).trans (h5 h0 e he ha)⟩
    · simp only [actionHooks, emit_st, hst]; exact .finish
    · intro _ c hc; exact (no_child_action hc).elim
    · cases s0 <;> simp_all [Progress]
  · rintro n w' ⟨hw, hst, hcn, hp, h1, h2, h3, h4, h5⟩ -
    have hs0' : s0 ≠ .stop := by rintro rfl; simp_all [Progress]
    refine ⟨hw.emitRun (h5 hs0'), Or.inl (by simpa [actionHooks] using hst), ?_, h4⟩
    simp only [actionHooks, emit_st, emit_cnt, hst, hcn]; exact hp
  · rintro n w' ⟨hw, hst, hcn, hp, h1, h2, h3, h4, h5⟩ hlt
    have := h2 rfl
    simp [actionHooks] at hlt; omega
  · rintro n w' ⟨hw, hst, hcn, hp, h1, h2, h3, h4, h5⟩ -
    refine ⟨hw.goto' (by decide) (by decide) ?_, by simp [actionHooks], by simp [actionHooks, hcn], ?_, by simp, by simp, by simp, h4, fun h0 e he ha => (hge _ _ e).trans (h5 h0 e he ha)⟩
    · simp only [actionHooks, hst]; exact .done
    · cases s0 <;> simp_all [Progress]
  · rintro n w' ⟨hw, hst, hcn, hp, h1, h2, h3, h4, h5⟩
    exact ⟨hw, Or.inr hst, by rw [hst, hcn]; exact hp, h4⟩
  · rintro n w' ⟨hw, hst, hcn, hp, h1, h2, h3, h4, h5⟩
    cases s0 <;> simp_all [Progress]
  · rintro n w' ⟨hw, hst, hcn, hp, h1, h2, h3, h4, h5⟩
    have hov := h3 rfl
    have hs0' : s0 = .stop := by cases s0 <;> simp_all [Progress]
    subst hs0'
    have hfix : ∀ w'' : World, WI b w'' → w''.st (actionRef a) = .stop →
        WI b (w''.goto (actionRef a) .complete) := fun w'' h hs =>
      h.goto' (by decide) (by decide) (by rw [hs]; exact .stopped)
    have hp' : Progress .stop n0 .complete n := by simp_all [Progress]
    split
    · exact ⟨hfix w' hw hst, by simp [actionHooks], by simp [actionHooks, hcn], hp', by simp,
        by simp, by simp, by simp⟩
    · have : (actionHooks env a).stop w' =
          { w' with ovr := fun r => if r = actionRef a then true else w'.ovr r } := by
        simp [actionHooks, hov]
      rw [this]
      refine ⟨hfix _ ⟨hw.coh, hw.good, hw.cnt, hw.starts⟩ hst, by simp [actionHooks],
        by simp [actionHooks, hcn], hp', by simp, by simp, by simp, by simp⟩
end Verif.Storyboard
