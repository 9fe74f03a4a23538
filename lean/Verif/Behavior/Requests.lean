import Verif.Behavior.Cases
/-
Frames in which the vehicle is to change lanes or to follow a trajectory.
-/
namespace Verif.Behavior

open Spec

variable {K : Type} [Field K] [LinearOrder K] {B C : Type}

/-- Actions on the lane fail for other requests. -/
theorem busy_fails {env : Env B C K} {r : Request} (h : plain r = false) (c : Car B C K) (n : Node) (hn : n ∈ laneLeaves) :
    vehicleActs env n r c = .ok (.failure, c) := by
  simp only [laneLeaves, selectorNames, List.mem_cons, List.not_mem_nil, or_false] at hn
  rcases hn with rfl | rfl | rfl | rfl | rfl | rfl | rfl
  · simp [vehicleActs, followLane, h]
  · simp [vehicleActs, followFront, h]
  · simp [vehicleActs, stopAtLight, h]
  · simp [vehicleActs, stopAtLine, h]
  · simp [vehicleActs, stopAtCrossing, h]
  · simp [vehicleActs, yielding, h]
  · simp [vehicleActs, moveBackward, h]

theorem chain_busy {env : Env B C K} {r : Request} (h : plain r = false) : ∀ (is : List Item) (started : Bool) (c : Core (Car B C K)),
    c.request = r → (∀ n ∈ leavesOf is, n ∈ laneLeaves ∧ r.node ≠ some n) →
    ∃ d, chain (vehicleActs env) is started c = .ok (none, d) ∧ d.entity = c.entity ∧ d.request = r
  | [], _, c, hr, _ => ⟨c, rfl, rfl, hr⟩
  | .mark n :: is, started, c, hr, hl => by
    obtain ⟨d, h1, h2, h3⟩ := chain_busy h is false { c with current := some n } hr hl
    exact ⟨d, by rw [chain]; exact h1, h2, h3⟩
  | .leaf n :: is, started, c, hr, hl => by
    have hn := hl n (by simp [leavesOf])
    have ha := busy_fails (env := env) h c.entity n hn.1
    obtain ⟨d, h1, h2, h3⟩ := chain_busy h is false (c.fail n c.entity) (by simp [Core.fail, hr, hn.2]) (fun k hk => hl k (by simp [leavesOf, hk]))
    refine ⟨d, ?_, h2, h3⟩
    rw [chain, hr, ha]
    exact h1

theorem lane_items_leaves {q : Node} (hq : q = .followLane ∨ q ∈ selectorNames) (r : Request) (hr : r = .laneChange ∨ r = .followTrajectory) :
    ∀ n ∈ leavesOf (items (some q)), n ∈ laneLeaves ∧ r.node ≠ some n := by
  simp only [selectorNames, List.mem_cons, List.not_mem_nil, or_false] at hq
  rcases hq with rfl | rfl | rfl | rfl | rfl | rfl | rfl <;> rcases hr with rfl | rfl <;> decide

theorem at_cases {E : Type} {w : World E} {q : Node} (h : At w q) : q = .laneChange ∨ q = .followTrajectory ∨ q = .followLane ∨ q ∈ selectorNames := by
  obtain ⟨_, ⟨rfl, _⟩ | ⟨rfl, _⟩ | ⟨_, _, _, ⟨rfl, _⟩ | ⟨_, hq', _⟩⟩⟩ := h
  · exact Or.inl rfl
  · exact Or.inr (Or.inl rfl)
  · exact Or.inr (Or.inr (Or.inl rfl))
  · exact Or.inr (Or.inr (Or.inr hq'))

/-- The frame of a vehicle that is to change lanes begins with that action. -/
theorem change_begins {env : Env B C K} {w : World (Car B C K)} (h : Reachable env w) (hr : w.request = .laneChange) :
    ∃ w', frame env w = frame env w' ∧ w'.entity = w.entity ∧ w'.request = .laneChange ∧ (Quiet w' ∨ (At w' .laneChange ∧ w' = w)) := by
  obtain ⟨p, hp⟩ := reachable_holds h
  cases p with
  | none => exact ⟨w, rfl, rfl, hr, Or.inl hp⟩
  | some q =>
    rcases at_cases hp with rfl | rfl | hq
    · exact ⟨w, rfl, rfl, hr, Or.inr ⟨hp, rfl⟩⟩
    · have h1 : vehicleActs env .followTrajectory w.request w.entity = .ok (.failure, w.entity) := by simp [vehicleActs, followTrajectory, hr]
      obtain ⟨d, h2, h3, h4⟩ := chain_busy (env := env) (r := .laneChange) rfl (lanePart ++ [.mark .laneSequence]) false
        { w.core.fail .followTrajectory w.entity with current := some .laneSequence } (by simp [Core.fail, World.core, hr, Request.node]) (by decide)
      have hc : chain (vehicleActs env) (items (some .followTrajectory)) (some Node.followTrajectory).isSome w.core = .ok (none, d) := by
        rw [show items (some Node.followTrajectory) = .leaf .followTrajectory :: .mark .trajectorySequence :: .mark .laneSequence :: (lanePart ++ [.mark .laneSequence]) from rfl, chain,
          show vehicleActs env .followTrajectory w.core.request w.core.entity = _ from h1]
        simp only
        rw [chain, chain]
        exact h2
      obtain ⟨w', h5, h6, h7⟩ := update_none hp hc
      exact ⟨w', h5, (congrArg Core.entity h6).trans h3, (congrArg Core.request h6).trans h4, Or.inl h7⟩
    · obtain ⟨d, h2, h3, h4⟩ := chain_busy (env := env) (r := .laneChange) rfl (items (some q)) true w.core hr (lane_items_leaves hq _ (Or.inl rfl))
      obtain ⟨w', h5, h6, h7⟩ := update_none hp h2
      exact ⟨w', h5, (congrArg Core.entity h6).trans h3, (congrArg Core.request h6).trans h4, Or.inl h7⟩

/-- The frame of a vehicle that is to follow a trajectory comes to that action. -/
theorem trajectory_begins {env : Env B C K} {w : World (Car B C K)} (h : Reachable env w) (hr : w.request = .followTrajectory) :
    ∃ w' p c started, frame env w = frame env w' ∧ Holds w' p ∧ chain (vehicleActs env) (items p) p.isSome w'.core = chain (vehicleActs env) trajectoryPart started c ∧
      c.entity.body = w.entity.body ∧ c.request = .followTrajectory ∧ w'.entity.body = w.entity.body ∧
      ((started = true ∧ c.current = some .followTrajectory) ∨ (started = false ∧ c.current = some .trajectorySequence)) ∧
      (At w .followTrajectory → started = true) := by
  have change : ∀ (started : Bool) (c : Core (Car B C K)), c.request = .followTrajectory →
      ∃ d, chain (vehicleActs env) (.leaf .laneChange :: .mark .trajectorySequence :: trajectoryPart) started c = chain (vehicleActs env) trajectoryPart false d ∧
        d.entity.body = c.entity.body ∧ d.request = .followTrajectory ∧ d.current = some .trajectorySequence := by
    intro started c hc
    have h1 : vehicleActs env .laneChange c.request c.entity = .ok (.failure, { c.entity with lane := { c.entity.lane with curve := none, s := 0 } }) := by
      simp [vehicleActs, laneChange, hc]
    rw [chain, h1]
    simp only
    rw [chain]
    exact ⟨_, rfl, rfl, by simp [Core.fail, hc, Request.node], rfl⟩
  have quiet : ∀ w' : World (Car B C K), Quiet w' → w'.request = .followTrajectory → ∃ c, chain (vehicleActs env) (items none) false w'.core =
      chain (vehicleActs env) trajectoryPart false c ∧ c.entity.body = w'.entity.body ∧ c.request = .followTrajectory ∧ c.current = some .trajectorySequence := by
    intro w' _ hr'
    obtain ⟨d, h1, h2, h3, h4⟩ := change false { w'.core with current := some .root } hr'
    exact ⟨d, by rw [items, chain]; exact h1, h2, h3, h4⟩
  obtain ⟨p, hp⟩ := reachable_holds h
  cases p with
  | none =>
    obtain ⟨c, h1, h2, h3, h4⟩ := quiet w hp hr
    exact ⟨w, none, c, false, rfl, hp, h1, h2, h3, rfl, Or.inr ⟨rfl, h4⟩, fun hc => absurd hc.1 hp.1⟩
  | some q =>
    have hq := at_current hp
    rcases at_cases hp with rfl | rfl | hl
    · obtain ⟨d, h1, h2, h3, h4⟩ := change true w.core hr
      exact ⟨w, _, d, false, rfl, hp, h1, h2, h3, rfl, Or.inr ⟨rfl, h4⟩, fun hc => by have := (at_current hc).1; rw [hq.1] at this; simp at this⟩
    · exact ⟨w, _, w.core, true, rfl, hp, rfl, rfl, hr, rfl, Or.inl ⟨rfl, hq.1⟩, fun _ => rfl⟩
    · obtain ⟨d, h2, h3, h4⟩ := chain_busy (env := env) (r := .followTrajectory) rfl (items (some q)) true w.core hr (lane_items_leaves hl _ (Or.inr rfl))
      obtain ⟨w', h5, h6, h7⟩ := update_none hp h2
      have hb : w'.entity = w.entity := (congrArg Core.entity h6).trans h3
      obtain ⟨c, a1, a2, a3, a4⟩ := quiet w' h7 ((congrArg Core.request h6).trans h4)
      exact ⟨w', none, c, false, h5, h7, a1, a2.trans (by rw [hb]), a3, by rw [hb], Or.inr ⟨rfl, a4⟩, fun hc => by
        have := (at_current hc).1
        rw [hq.1, Option.some.injEq] at this
        subst this
        simp [selectorNames] at hl⟩

omit [Field K] [LinearOrder K] in
/-- No request comes from nowhere. -/
theorem chain_none {act : Node → Act (Car B C K)} : ∀ (is : List Item) (started : Bool) (c : Core (Car B C K)) (q : Option (Node × Bool)) (d : Core (Car B C K)),
    c.request = .none → chain act is started c = .ok (q, d) → d.request = .none
  | [], _, c, q, d, hr, h => by
    simp only [chain, Except.ok.injEq, Prod.mk.injEq] at h
    exact h.2 ▸ hr
  | .mark n :: is, started, c, q, d, hr, h => by
    rw [chain] at h
    exact chain_none is false { c with current := some n } q d hr h
  | .leaf n :: is, started, c, q, d, hr, h => by
    rw [chain] at h
    split at h
    · cases h
    · simp only [Except.ok.injEq, Prod.mk.injEq] at h
      rw [← h.2]; exact hr
    · simp only [Except.ok.injEq, Prod.mk.injEq] at h
      rw [← h.2]; simp only [Core.succeed, hr, ite_self]
    · exact chain_none is false _ q d (by simp only [Core.fail, hr, ite_self]) h
    · cases h

/-- The lane sequence is tried after the request was dropped. -/
theorem dropped {env : Env B C K} {P : K → Prop} {w w' : World (Car B C K)} {p : Option Node} {c : Core (Car B C K)} (hf : frame env w = frame env w') (hh : Holds w' p)
    (hb : w'.entity.body = w.entity.body) (hc : chain (vehicleActs env) (items p) p.isSome w'.core = chain (vehicleActs env) (lanePart ++ [.mark .laneSequence]) false c)
    (hcb : c.entity.body = w.entity.body) (hr : c.request = .none) (hcur : c.current ≠ some .root) (hs : Sure env P w.entity.body laneLeaves) :
    ∃ v, P v ∧ Moves env w v ∧ ∀ w'', frame env w = some (.ok w'') → w''.request = .none := by
  have ho : OneMove env P w.entity.body (chain (vehicleActs env) (items p) p.isSome w'.core) := by
    rw [hc]
    rcases chain_moves env P w.entity.body _ false c part_marks.1 part_marks.2.1 (by rw [hr]; rfl) hcb hcur (by rw [part_marks.2.2]; exact hs.good) with h | ⟨h, _⟩
    · exact h
    · exact absurd (by rw [part_marks.2.2]; exact hs) h
  obtain ⟨v, hv, h1, h2⟩ := oneMove_frame hh (by rw [hb]; exact ho)
  refine ⟨v, hv, ⟨fun f h => hf.trans (h1 f (by rw [hb]; exact h)), fun b h => ?_⟩, ?_⟩
  · obtain ⟨u, h3, h4⟩ := h2 b (by rw [hb]; exact h)
    exact ⟨u, hf.trans h3, h4⟩
  · intro w'' hw
    rw [hf] at hw
    obtain ⟨v, _, h1, h2⟩ := ho
    cases hm : env.move v w.entity.body with
    | error f => rw [show frame env w' = _ from update_error hh (h1 f hm)] at hw; simp at hw
    | ok b =>
      obtain ⟨q, s, d, h3, _, h5⟩ := h2 b hm
      have hd : d.request = .none := by rw [hc] at h3; exact chain_none _ _ _ _ _ hr h3
      cases s with
      | true =>
        obtain ⟨u, a1, a2, _⟩ := update_running hh h3
        rw [show frame env w' = _ from a1] at hw
        simp only [Option.some.injEq, Except.ok.injEq] at hw
        subst hw
        exact (congrArg Core.request a2).trans hd
      | false =>
        obtain ⟨u, a1, a2, _⟩ := update_success hh h3 h5
        rw [show frame env w' = _ from a1] at hw
        simp only [Option.some.injEq, Except.ok.injEq] at hw
        subst hw
        exact (congrArg Core.request a2).trans hd

/-- Some action moves a vehicle that goes forward on its lane. -/
theorem forward_sure {env : Env B C K} {b : B} (hf : Forward env b) : Sure env (fun v => 0 ≤ v) b laneLeaves := by
  cases hs : (env.view b).seeAround with
  | false => exact Or.inl (followLane_drives hf hs (cruise_nonneg hf))
  | true =>
    exact Or.inr ⟨followLane_tries hf (cruise_nonneg hf), Or.inr ⟨front_tries hf (cruise_nonneg hf) (fun _ _ _ _ h _ => h),
      Or.inr ⟨light_tries hf (fun d _ => lower_nonneg hf d), Or.inr ⟨stopLine_tries hf (cruise_nonneg hf) (fun d _ => lower_nonneg hf d),
        Or.inr ⟨crossing_tries hf (fun d _ => lower_nonneg hf d), Or.inl (yield_drives hf hs (fun _ => cruise_nonneg hf) (fun _ d _ => approach_nonneg hf d) (fun _ _ => hf.limit))⟩⟩⟩⟩⟩

end Verif.Behavior
