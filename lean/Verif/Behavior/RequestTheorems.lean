import Verif.Behavior.Requests
import Verif.Behavior.StopTheorems
/-
C122: requests.
-/
namespace Verif.Behavior

open Spec

variable {K : Type} [Field K] [LinearOrder K] {B C : Type}

/-- A step along the trajectory, wherever the vehicle was in its tree. -/
theorem trajectory_step {env : Env B C K} {w : World (Car B C K)} {b : B} (h : Reachable env w) (hr : w.request = .followTrajectory)
    (hb : env.follow w.entity.body = .ok (some (true, b))) :
    ∃ w', frame env w = some (.ok w') ∧ w'.entity.body = b ∧ w'.request = .followTrajectory ∧ w'.current = some .followTrajectory ∧ At w' .followTrajectory := by
  obtain ⟨w', p, c, started, h1, h2, h3, h4, h5, _, h6, _⟩ := trajectory_begins h hr
  have ha : vehicleActs env .followTrajectory c.request c.entity = .ok (.running, { c.entity with body := b }) := by
    simp [vehicleActs, followTrajectory, h5, h4, hb]
  rw [trajectoryPart, chain, ha] at h3
  obtain ⟨u, a1, a2, a3⟩ := update_running h2 h3
  exact ⟨u, h1.trans a1, congrArg (fun c => c.entity.body) a2, (congrArg Core.request a2).trans h5, (at_current a3).1, a3⟩

/-- C122: whatever a vehicle was doing, the next frame after it was told to follow a trajectory does so: it makes the first step along the trajectory. If it is not possible to follow the
trajectory, the request is dropped, and the vehicle follows its lane in the same frame. -/
theorem C122_trajectory (env : Env B C K) (w : World (Car B C K)) (h : Reachable env w) (hr : w.request = .followTrajectory) :
    (∀ b, env.follow w.entity.body = .ok (some (true, b)) →
      ∃ w', frame env w = some (.ok w') ∧ w'.entity.body = b ∧ w'.request = .followTrajectory ∧ w'.current = some .followTrajectory) ∧
    (∀ f, env.follow w.entity.body = .error f → frame env w = some (.error f)) ∧
    (env.follow w.entity.body = .ok none → Forward env w.entity.body →
      ∃ v, 0 ≤ v ∧ Moves env w v ∧ ∀ w', frame env w = some (.ok w') → w'.request = .none) := by
  refine ⟨fun b hb => ?_, fun f hf => ?_, fun hn hf => ?_⟩
  · obtain ⟨w', h1, h2, h3, h4, _⟩ := trajectory_step h hr hb
    exact ⟨w', h1, h2, h3, h4⟩
  · obtain ⟨w', p, c, started, h1, h2, h3, h4, h5, _⟩ := trajectory_begins h hr
    have ha : vehicleActs env .followTrajectory c.request c.entity = .error f := by simp [vehicleActs, followTrajectory, h5, h4, hf]
    rw [trajectoryPart, chain, ha] at h3
    exact h1.trans (update_error h2 h3)
  · obtain ⟨w', p, c, started, h1, h2, h3, h4, h5, h6, _⟩ := trajectory_begins h hr
    have ha : vehicleActs env .followTrajectory c.request c.entity = .ok (.failure, c.entity) := by simp [vehicleActs, followTrajectory, h5, h4, hn]
    rw [trajectoryPart, chain, ha] at h3
    simp only at h3
    rw [chain, chain] at h3
    exact dropped h1 h2 h6 h3 h4 (by simp [Core.fail, h5, Request.node]) (by simp) (forward_sure hf)

/-- An environment in which a trajectory takes two frames. -/
def twoFrames : Env (View ℚ) Unit ℚ := { demo with follow := fun b => if b.speed = 10 then .ok (some (true, { b with speed := 5 })) else .ok (some (false, { b with speed := 0 })) }

example : ∃ w', frame twoFrames { World.init ⟨empty, still⟩ with request := .followTrajectory } = some (.ok w') ∧ w'.entity.body.speed = 5 := by
  obtain ⟨w', h1, h2, _⟩ := (C122_trajectory twoFrames { World.init ⟨empty, still⟩ with request := .followTrajectory } (.request _ (.spawn _ _)) rfl).1 { empty with speed := 5 }
    (by decide +kernel)
  exact ⟨w', h1, by rw [h2]⟩

/-- C122 (partial): when a trajectory that the vehicle followed in the frame before is finished, the request is over.
Missing: a trajectory that is finished in the first frame, see `C122_at_once_violated`. -/
theorem C122_trajectory_ends_partial (env : Env B C K) (w w1 : World (Car B C K)) (b1 b b' : B) (h : Reachable env w) (hr : w.request = .followTrajectory)
    (h1 : env.follow w.entity.body = .ok (some (true, b1))) (hw : frame env w = some (.ok w1)) (h2 : env.follow b = .ok (some (false, b'))) :
    ∃ w', frame env { w1 with entity := { w1.entity with body := b } } = some (.ok w') ∧ w'.entity.body = b' ∧ w'.request = .none := by
  obtain ⟨w1', a1, a2, a3, a4, a5⟩ := trajectory_step h hr h1
  rw [a1] at hw
  simp only [Option.some.injEq, Except.ok.injEq] at hw
  subst hw
  obtain ⟨w', p, c, started, c1, c2, c3, c4, c5, _, c6, c7⟩ := trajectory_begins (env := env) (w := { w1' with entity := { w1'.entity with body := b } })
    (.change b (.frame h a1)) a3
  have hst : started = true := c7 a5
  have hcur : c.current = some .followTrajectory := by
    rcases c6 with c6 | c6
    · exact c6.2
    · rw [hst] at c6; exact absurd c6.1 (by simp)
  have ha : vehicleActs env .followTrajectory c.request c.entity = .ok (.success, { c.entity with body := b' }) := by
    simp [vehicleActs, followTrajectory, c5, c4, h2]
  rw [trajectoryPart, chain, ha] at c3
  obtain ⟨u, d1, d2, _⟩ := update_success c2 c3 (by simp [Core.succeed, hcur])
  exact ⟨u, c1.trans d1, congrArg (fun c => c.entity.body) d2, (congrArg Core.request d2).trans (by simp [Core.succeed, c5, hcur, Request.node])⟩

example : ∃ w1 w2, frame twoFrames { World.init ⟨empty, still⟩ with request := .followTrajectory } = some (.ok w1) ∧ frame twoFrames w1 = some (.ok w2) ∧
    w2.entity.body.speed = 0 ∧ w2.request = .none := by
  have hr : Reachable twoFrames { World.init ⟨empty, still⟩ with request := .followTrajectory } := .request _ (.spawn _ _)
  obtain ⟨w1, h1, h2, _⟩ := (C122_trajectory twoFrames _ hr rfl).1 { empty with speed := 5 } (by decide +kernel)
  obtain ⟨w2, h3, h4, h5⟩ := C122_trajectory_ends_partial twoFrames _ w1 { empty with speed := 5 } { empty with speed := 5 } { empty with speed := 0 } hr rfl
    (by decide +kernel) h1 (by decide +kernel)
  refine ⟨w1, w2, h1, ?_, by rw [h4], h5⟩
  rw [← h3, ← h2]

/-- An environment in which every trajectory is finished at once. -/
def finished : Env (View ℚ) Unit ℚ := { demo with follow := fun b => .ok (some (false, b)) }

/-- C122 does not hold if the trajectory is finished in the first frame: the request stays for ever, and the vehicle does not move any more, although it is to drive at 12 m/s on an empty
road. -/
theorem C122_at_once_violated (n : Nat) : ∃ w, frames finished n { World.init ⟨empty, still⟩ with request := .followTrajectory } = some (.ok w) ∧
    w.request = .followTrajectory ∧ w.entity.body = empty := by
  have key : ∃ w, frames finished n { World.init ⟨empty, still⟩ with request := .followTrajectory } = some (.ok w) ∧
      w.request = .followTrajectory ∧ w.entity = ⟨empty, still⟩ ∧ Quiet w := by
    induction n with
    | zero => exact ⟨_, rfl, rfl, rfl, by simp [Quiet, QuietTrajectory, QuietLane, World.init]⟩
    | succ n ih =>
      obtain ⟨w, h1, h2, h3, h4⟩ := ih
      have e : frames finished (n + 1) { World.init ⟨empty, still⟩ with request := .followTrajectory } = frame finished w := by simp only [frames, h1]
      have hc : chain (vehicleActs finished) (items none) (none : Option Node).isSome w.core =
          .ok (some (.followTrajectory, false), ⟨⟨empty, still⟩, .followTrajectory, some .trajectorySequence⟩) := by
        rw [World.core, h2, h3, items, chain, chain]
        simp only [vehicleActs, laneChange]
        rfl
      obtain ⟨u, a1, a2, a3⟩ := update_success (p := none) h4 hc (by simp)
      exact ⟨u, e.trans a1, congrArg Core.request a2, congrArg Core.entity a2, a3⟩
  obtain ⟨w, h1, h2, h3, _⟩ := key
  exact ⟨w, h1, h2, by rw [h3]⟩

/-- C122: if there is no way to the target lane, the request to change lanes is dropped, and the vehicle follows its lane in the same frame. -/
theorem C122_no_lane_change (env : Env B C K) (w : World (Car B C K)) (h : Reachable env w) (hr : w.request = .laneChange) (hf : Forward env w.entity.body)
    (hn : env.change w.entity.body = none ∨ w.entity.lane.curve = none ∧ ∃ p, env.change w.entity.body = some p ∧ env.path w.entity.body p = none) :
    ∃ v, 0 ≤ v ∧ Moves env w v ∧ ∀ w', frame env w = some (.ok w') → w'.request = .none := by
  obtain ⟨w', h1, h2, h3, h4⟩ := change_begins h hr
  have ha : ∃ e : Car B C K, vehicleActs env .laneChange .laneChange w.entity = .ok (.failure, e) ∧ e.body = w.entity.body := by
    rcases hn with hn | ⟨hc, p, hp, hn⟩
    · exact ⟨{ w.entity with lane := { w.entity.lane with curve := none, s := 0 } }, by simp [vehicleActs, laneChange, hn], rfl⟩
    · exact ⟨w.entity, by simp [vehicleActs, laneChange, hp, planLaneChange, hc, hf.lane, hn], rfl⟩
  obtain ⟨e, ha, he⟩ := ha
  have part : ∀ (started : Bool) (c : Core (Car B C K)), c.request = .laneChange → c.entity = w.entity →
      ∃ d, chain (vehicleActs env) (.leaf .laneChange :: .mark .trajectorySequence :: trajectoryPart) started c =
        chain (vehicleActs env) (lanePart ++ [.mark .laneSequence]) false d ∧ d.entity.body = w.entity.body ∧ d.request = .none ∧ d.current ≠ some .root := by
    intro started c hc1 hc2
    rw [chain, hc1, hc2, ha]
    simp only
    rw [chain, trajectoryPart, chain]
    have : (c.fail .laneChange e).request = .none := by simp [Core.fail, hc1, Request.node]
    simp only [this, vehicleActs, followTrajectory]
    simp only [ne_eq, reduceCtorEq, not_false_eq_true, if_true]
    rw [chain, chain]
    refine ⟨_, rfl, he, ?_, by simp⟩
    simp [Core.fail]
  rcases h4 with h4 | ⟨h4, _⟩
  · obtain ⟨d, d1, d2, d3, d4⟩ := part false { w'.core with current := some .root } h3 h2
    exact dropped h1 (p := none) h4 (by rw [h2]) (by rw [items, chain]; exact d1) d2 d3 d4 (forward_sure hf)
  · obtain ⟨d, d1, d2, d3, d4⟩ := part true w'.core h3 h2
    exact dropped h1 (p := some .laneChange) h4 (by rw [h2]) d1 d2 d3 d4 (forward_sure hf)

example : ∃ v, 0 ≤ v ∧ Moves demo { World.init ⟨empty, still⟩ with request := .laneChange } v :=
  (C122_no_lane_change demo _ (.request _ (.spawn _ _)) rfl
    (demo_forward _ rfl (by norm_num [World.init, empty]) (by simp [World.init, empty]) (by norm_num [World.init, empty])) (Or.inl rfl)).imp fun _ h => ⟨h.1, h.2.1⟩

/-- C122 off the lanes: a vehicle that is off the lanes, was given no request before, and is to change lanes: the request is dropped, and the vehicle is stopped in the same frame. -/
theorem C122_off_lane (env : Env B C K) (b : B) (l : LaneState C K) (h : (env.view b).lane = false) (hc : l.curve = none) :
    ∃ w', frame env { World.init ⟨b, l⟩ with request := .laneChange } = some (.ok w') ∧ w'.entity.body = env.stop b ∧ w'.request = .none := by
  have ha : ∃ l', vehicleActs env .laneChange .laneChange (⟨b, l⟩ : Car B C K) = .ok (.failure, ⟨b, l'⟩) := by
    cases hp : env.change b with
    | none => exact ⟨⟨none, 0, l.targetS, l.velocity⟩, by simp [vehicleActs, laneChange, hp]⟩
    | some p => exact ⟨l, by simp [vehicleActs, laneChange, hp, planLaneChange, hc, h]⟩
  obtain ⟨l', ha⟩ := ha
  have hd : chain (vehicleActs env) (items none) (none : Option Node).isSome ⟨⟨b, l⟩, .laneChange, none⟩ =
      .ok (some (.followLane, true), ⟨⟨env.stop b, l'⟩, .none, some .followLane⟩) := by
    rw [items, chain, chain]
    simp only [ha]
    simp [chain, trajectoryPart, lanePart, vehicleActs, followTrajectory, followLane, plain, h, Core.run, Core.fail, Request.node]
  obtain ⟨w', h1, h2, _⟩ := update_running (p := none) (w := { World.init (⟨b, l⟩ : Car B C K) with request := .laneChange })
    (by simp [Holds, Quiet, QuietTrajectory, QuietLane, World.init]) hd
  exact ⟨w', h1, congrArg (fun c => c.entity.body) h2, congrArg Core.request h2⟩

/-- In a world in which there is a way to change lanes from everywhere. -/
example : (({ demo with change := fun _ => some ⟨2, .none, 0, true⟩, path := fun _ _ => some ((), 5) } : Env (View ℚ) Unit ℚ).view { empty with lane := false }).lane = false ∧
    still.curve = none := ⟨rfl, rfl⟩

end Verif.Behavior
