import Verif.Vehicle.Lemmas
/-
C94: the gear decides in which direction the ego can move.
-/
namespace Verif.Vehicle
open Classical

/-- The models that look at the gear after integration. -/
def Geared (k : Kind) : Prop := k = .idealAccGeared ∨ k = .delayAccGeared ∨ k = .delayMapAccGeared

theorem withGear_cases (b : Bool) (s prev : State) (g : Gear) (dt : ℝ) :
    (Agrees g s.vx ∧ withGear b s prev g dt = s) ∨ (¬ Agrees g s.vx ∧ withGear b s prev g dt = stopState b s prev dt) ∨
      (Forward g ∧ Backward g) := by
  unfold withGear Agrees
  have hb : (g = .reverse ∨ g = .reverse2) = Backward g := rfl
  simp only [mem_forwardList, hb]
  by_cases hf : Forward g
  · by_cases hbw : Backward g
    · exact Or.inr (Or.inr ⟨hf, hbw⟩)
    · by_cases hv : s.vx < 0
      · right; left
        simp [hf, hbw, hv]
      · left
        simp only [not_lt] at hv
        simp [hf, hbw, not_lt.mpr hv, hv]
  · by_cases hbw : Backward g
    · by_cases hv : s.vx > 0
      · right; left
        simp [hf, hbw, hv]
      · left
        simp only [gt_iff_lt, not_lt] at hv
        simp [hf, hbw, not_lt.mpr hv, hv]
    · right; left
      simp [hf, hbw]

theorem not_both (g : Gear) : ¬ (Forward g ∧ Backward g) := by
  rintro ⟨(⟨k, rfl⟩ | rfl | rfl), (h | h)⟩ <;> simp at h

theorem withGear_spec (b : Bool) (s prev : State) (g : Gear) (dt : ℝ) :
    (Agrees g s.vx → withGear b s prev g dt = s) ∧ (¬ Agrees g s.vx → withGear b s prev g dt = stopState b s prev dt) := by
  rcases withGear_cases b s prev g dt with ⟨h, e⟩ | ⟨h, e⟩ | h
  · exact ⟨fun _ => e, fun h' => absurd h h'⟩
  · exact ⟨fun h' => absurd h' h, fun _ => e⟩
  · exact absurd h (not_both g)

/-- A geared model ends in the state that `withGear` gives to some integrated state. -/
theorem geared_step {m m' : Model} {g : Gear} {u : Input} {dt : ℝ} (hk : Geared m.kind) (h : m.step g u dt = some m') :
    m'.kind = m.kind ∧ ∃ b s, m'.state = withGear b s m.state g dt := by
  unfold Model.step Model.update at h
  rcases hk with hk | hk | hk <;> rw [hk] at h <;> simp only at h
  · simp only [Model.updateIdealAccGeared, Option.bind_eq_bind, Option.bind_eq_some_iff, Option.pure_def, Option.some.injEq] at h
    obtain ⟨s, _, rfl⟩ := h
    exact ⟨hk.symm, _, _, rfl⟩
  · simp only [Model.updateDelayAccGeared, Option.bind_eq_bind, Option.bind_eq_some_iff, Option.pure_def, Option.some.injEq] at h
    obtain ⟨s, _, rfl⟩ := h
    exact ⟨hk.symm, _, _, rfl⟩
  · simp only [Model.updateMap, Option.bind_eq_bind, Option.bind_eq_some_iff, Option.pure_def, Option.some.injEq] at h
    obtain ⟨s, _, rfl⟩ := h
    exact ⟨hk.symm, _, _, rfl⟩

theorem getVx_geared {m : Model} (hk : Geared m.kind) : m.getVx = m.state.vx := by
  unfold Model.getVx
  rcases hk with hk | hk | hk <;> rw [hk]

/-- C94: after a step of a geared model the ego does not move backward in a forward gear nor forward in a backward gear, and with any other
gear it stands still where it was. -/
theorem C94_gear (m m' : Model) (g : Gear) (u : Input) (dt : ℝ)
    (hk : m.kind = .idealAccGeared ∨ m.kind = .delayAccGeared ∨ m.kind = .delayMapAccGeared) (h : m.step g u dt = some m') :
    (Forward g → 0 ≤ m'.getVx) ∧ (Backward g → m'.getVx ≤ 0) ∧
      (¬ Forward g → ¬ Backward g →
        m'.getVx = 0 ∧ m'.state.x = m.state.x ∧ m'.state.y = m.state.y ∧ m'.state.yaw = m.state.yaw) := by
  obtain ⟨hkind, b, s, hs⟩ := geared_step hk h
  rw [getVx_geared (hkind ▸ hk), hs]
  obtain ⟨h1, h2⟩ := withGear_spec b s m.state g dt
  by_cases ha : Agrees g s.vx
  · rw [h1 ha]
    refine ⟨fun hf => ?_, fun hb => ?_, fun hf hb => ?_⟩
    · rcases ha with ⟨_, hv⟩ | ⟨hb, _⟩
      · exact hv
      · exact absurd ⟨hf, hb⟩ (not_both g)
    · rcases ha with ⟨hf, _⟩ | ⟨_, hv⟩
      · exact absurd ⟨hf, hb⟩ (not_both g)
      · exact hv
    · rcases ha with ⟨hf', _⟩ | ⟨hb', _⟩
      · exact absurd hf' hf
      · exact absurd hb' hb
  · rw [h2 ha]
    simp [stopState]

/-- C94: a geared model moves as the model of the same name without gears does, as long as the velocity this gives has the direction of the
gear; otherwise the ego is put back to where it was and stops. The steering moves either way. -/
theorem C94_ungeared (m m' n : Model) (g : Gear) (u : Input) (dt : ℝ)
    (hk : m.kind = .idealAccGeared ∧ n.kind = .idealAcc ∨ m.kind = .delayAccGeared ∧ n.kind = .delayAcc)
    (hn : n = { m with kind := n.kind }) (n' : Model) (h : m.step g u dt = some m') (h' : n.step g u dt = some n') :
    (Agrees g n'.getVx → m'.state = n'.state) ∧
    (¬ Agrees g n'.getVx → m'.getVx = 0 ∧ m'.state.x = m.state.x ∧ m'.state.y = m.state.y ∧ m'.state.yaw = m.state.yaw) ∧
    m'.state.steer = n'.state.steer := by
  obtain ⟨nk, hnk⟩ : ∃ k, n.kind = k := ⟨_, rfl⟩
  rw [hnk] at hn hk
  subst hn
  unfold Model.step Model.update at h h'
  rcases hk with ⟨hk, hk'⟩ | ⟨hk, hk'⟩
  · subst hk'
    rw [hk] at h
    simp only [Model.updateIdealAccGeared, Model.updateIdealAcc, Option.bind_eq_bind, Option.bind_eq_some_iff, Option.pure_def, Option.some.injEq] at h h'
    obtain ⟨s, e, rfl⟩ := h
    obtain ⟨s', e', rfl⟩ := h'
    rw [e] at e'
    injection e' with e'
    subst e'
    obtain ⟨h1, h2⟩ := withGear_spec false s m.state g dt
    simp only [Model.getVx]
    refine ⟨h1, fun hv => ?_, ?_⟩
    · rw [h2 hv]; simp [stopState]
    · by_cases hv : Agrees g s.vx
      · rw [h1 hv]
      · rw [h2 hv]; simp [stopState]
  · subst hk'
    rw [hk] at h
    simp only [Model.updateDelayAccGeared, Model.updateDelayAcc, Option.bind_eq_bind, Option.bind_eq_some_iff, Option.pure_def, Option.some.injEq] at h h'
    obtain ⟨s, e, rfl⟩ := h
    obtain ⟨s', e', rfl⟩ := h'
    rw [e] at e'
    injection e' with e'
    subst e'
    obtain ⟨h1, h2⟩ := withGear_spec true (limitVx m.p s) m.state g dt
    simp only [Model.getVx]
    refine ⟨h1, fun hv => ?_, ?_⟩
    · rw [h2 hv]; simp [stopState]
    · by_cases hv : Agrees g (limitVx m.p s).vx
      · rw [h1 hv]
      · rw [h2 hv]; simp [stopState]

theorem rungeKutta_total (f : State → State) (dt : ℝ) (s : State) : ∃ s', rungeKutta (fun s => some (f s)) dt s = some s' := ⟨_, rfl⟩

/-- Every model but the one with an acceleration map can take every step. -/
theorem step_total (m : Model) (hk : m.kind ≠ .delayMapAccGeared) (g : Gear) (u : Input) (dt : ℝ) : ∃ m', m.step g u dt = some m' := by
  unfold Model.step Model.update
  cases hm : m.kind <;> first | exact absurd hm hk | exact ⟨_, rfl⟩

/-- The hypotheses of `C94_gear` and `C94_ungeared` are met, and both cases of the latter occur: from rest, in `DRIVE`, an acceleration of 1
is followed and an acceleration of -1 is not. -/
example : ∃ (m m' m'' : Model), m.kind = .idealAccGeared ∧ m.step (.drive 0) { drive := 1 } 1 = some m' ∧ m'.getVx = 1 ∧
    m.step (.drive 0) { drive := -1 } 1 = some m'' ∧ m''.getVx = 0 ∧ Forward (.drive 0) := by
  let p : Params := ⟨50, 1, 7, 5, 3, 0, 1, 0, 1, 0, 0, 1, 1⟩
  refine ⟨{ kind := .idealAccGeared, p }, _, _, rfl, rfl, ?_, rfl, ?_, Or.inl ⟨0, rfl⟩⟩
  · simp only [Model.getVx]
    rw [(withGear_spec _ _ _ _ _).1]
    · simp [State.add, State.scale, calcIdealAcc]; norm_num
    · refine Or.inl ⟨Or.inl ⟨0, rfl⟩, ?_⟩
      simp [State.add, State.scale, calcIdealAcc]; norm_num
  · simp only [Model.getVx]
    rw [(withGear_spec _ _ _ _ _).2]
    · rfl
    · rintro (⟨_, h⟩ | ⟨h, _⟩)
      · simp [State.add, State.scale, calcIdealAcc] at h; norm_num at h
      · rcases h with h | h <;> simp at h

end Verif.Vehicle
