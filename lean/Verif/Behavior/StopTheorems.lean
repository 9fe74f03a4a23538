import Verif.Behavior.LaneTheorems
import Verif.Speed.Model
/-
C124 and C125: vehicles behind another one, and vehicles before a stop line.
-/
namespace Verif.Behavior

open Spec

variable {K : Type} [Field K] [LinearOrder K] {B C : Type}

theorem front_drives {env : Env B C K} {P : K → Prop} {b : B} (hf : Forward env b) (hw : Watchful env b) (d u : K) (hd : frontOf (env.view b) = some (d, u))
    (h1 : ∀ x, (env.view b).conflict = some x → d ≤ x) (h2 : ∀ x, (env.view b).stopLine = some x → d ≤ x)
    (hP : ∀ w, (cruise (env.view b) ≤ u → w = cruise (env.view b)) →
      (u < cruise (env.view b) → d ≤ (env.view b).stopDistance → w = 0) →
      (u < cruise (env.view b) → (env.view b).stopDistance < d → d < (env.view b).stopDistance + (env.view b).length + 5 → w = max u 0) → P w) :
    Drives env P b .front := by
  refine drives_of fun r c hr hc => ?_
  subst hc
  have hc : blocks (env.view c.body).conflict (fun x => decide (x < d)) = false := by
    cases h : (env.view c.body).conflict with
    | none => rfl
    | some x => simp only [blocks]; exact decide_eq_false (not_lt.2 (h1 x h))
  have hs : blocks (env.view c.body).stopLine (fun x => decide (x < d)) = false := by
    cases h : (env.view c.body).stopLine with
    | none => rfl
    | some x => simp only [blocks]; exact decide_eq_false (not_lt.2 (h2 x h))
  have hd' : (if (env.view c.body).byTrajectory = true then (env.view c.body).trajectoryFront else (env.view c.body).laneFront) = some (d, u) := hd
  simp only [vehicleActs, followFront, hr, hf.lane, hw.1, hw.2, not_lt.2 hf.speed, Bool.not_true, Bool.false_eq_true, if_false, hd', hc, hs]
  by_cases ht : (env.view c.body).target.getD (env.view c.body).limit ≤ u
  · rw [if_pos ht]
    exact ⟨_, hP _ (fun _ => rfl) (fun h => absurd ht (not_le.2 h)) (fun h => absurd ht (not_le.2 h)), went_drive env _ c⟩
  · have h0 : (0 : K) ≤ (env.view c.body).target.getD (env.view c.body).limit := cruise_nonneg hf
    rw [if_neg ht]
    generalize hx : (if d ≤ (env.view c.body).stopDistance then 0 else
      if (env.view c.body).stopDistance + (env.view c.body).length + 5 ≤ d then u + 2 else u) = x
    simp only [clampE, not_lt.2 h0, if_false]
    refine ⟨if x < 0 then 0 else if (env.view c.body).target.getD (env.view c.body).limit < x then (env.view c.body).target.getD (env.view c.body).limit else x, hP _ ?_ ?_ ?_,
      went_drive env _ c⟩
    · exact fun h => absurd h ht
    · intro _ h
      rw [if_pos h] at hx
      subst hx
      simp [not_lt.2 h0]
    · intro h h3 h4
      rw [if_neg (not_le.2 h3), if_neg (not_le.2 h4)] at hx
      subst hx
      split
      · next h => rw [max_eq_right h.le]
      · next h5 => rw [max_eq_left (not_lt.1 h5)]; exact if_neg (not_lt.2 (le_of_lt h))

/-- C124 (partial): a vehicle that looks out and need not give way, with an entity `d` in front of it that drives at `u`, nearer than what is left to stop plus its length and 5 m.
If that entity is as fast as the vehicle is to drive, it drives on; otherwise it stops, if `d` is no more than it takes to stop, and else is no faster than that entity.
Missing: what it did in the frame before, see `C124_cut_in_violated`, and vehicles that give way. -/
theorem C124_front_partial (env : Env B C K) (w : World (Car B C K)) (d u t : K) (h : Reachable env w) (hp : Plain w) (hf : Forward env w.entity.body)
    (hw : Watchful env w.entity.body)
    (hd : (env.view w.entity.body).byTrajectory = true ∧ (env.view w.entity.body).trajectoryFront = some (d, u) ∨
      (env.view w.entity.body).byTrajectory = false ∧ (env.view w.entity.body).laneFront = some (d, u) ∧ (env.view w.entity.body).near = some d)
    (hn : d < (env.view w.entity.body).stopDistance + (env.view w.entity.body).length + 5)
    (ht : (env.view w.entity.body).target = some t ∨ (env.view w.entity.body).target = none ∧ (env.view w.entity.body).limit = t)
    (h1 : ∀ x, (env.view w.entity.body).conflict = some x → d ≤ x) (h2 : ∀ x, (env.view w.entity.body).stopLine = some x → d ≤ x)
    (hm : w.current ≠ some .light ∧ w.current ≠ some .stopLine ∧ w.current ≠ some .crossing ∧ w.current ≠ some .yield) :
    ∃ v, Moves env w v ∧ (t ≤ u → v = t) ∧ (u < t → d ≤ (env.view w.entity.body).stopDistance → v = 0) ∧
      (u < t → (env.view w.entity.body).stopDistance < d → v = max u 0) := by
  have hc : cruise (env.view w.entity.body) = t := by
    rcases ht with h | ⟨h, h'⟩
    · simp [cruise, h]
    · simp [cruise, h, h']
  have hfr : frontOf (env.view w.entity.body) = some (d, u) := by
    rcases hd with ⟨h, h'⟩ | ⟨h, h', _⟩ <;> simp [frontOf, h, h']
  have hnear : (if (env.view w.entity.body).byTrajectory then (env.view w.entity.body).trajectoryFront.map (·.1) else (env.view w.entity.body).near) = some d := by
    rcases hd with ⟨h, h'⟩ | ⟨h, _, h'⟩ <;> simp [h, h']
  have t1 := front_drives (P := fun v => (t ≤ u → v = t) ∧ (u < t → d ≤ (env.view w.entity.body).stopDistance → v = 0) ∧
      (u < t → (env.view w.entity.body).stopDistance < d → v = max u 0)) hf hw d u hfr h1 h2
    (fun v a1 a2 a3 => by rw [hc] at a1 a2 a3; exact ⟨a1, a2, fun b1 b2 => a3 b1 b2 hn⟩)
  have t3 : Fails env w.entity.body .followLane := followLane_blocked hf hw.1 (Or.inr (Or.inr (Or.inl ⟨d, hnear, hn.le⟩)))
  obtain ⟨v, hv, hmv⟩ := frame_moves h hp (Or.inr ⟨fails_tries t3, Or.inl t1⟩) (fun q hq hc => by
    simp only [selectorNames, List.mem_cons, List.not_mem_nil, or_false] at hq
    rcases hq with rfl | rfl | rfl | rfl | rfl | rfl
    · exact Or.inl t1
    · exact absurd hc hm.1
    · exact absurd hc hm.2.1
    · exact absurd hc hm.2.2.1
    · exact absurd hc hm.2.2.2
    · exact Or.inr ⟨fails_tries (backward_fails hf), trivial⟩)
  exact ⟨v, hmv, hv⟩

example : Moves demo (World.init ⟨{ empty with laneFront := some (25, 8), near := some 25 }, still⟩) 8 := by
  obtain ⟨v, h1, _, _, h2⟩ := C124_front_partial demo (World.init ⟨{ empty with laneFront := some (25, 8), near := some 25 }, still⟩) 25 8 12 (.spawn _ _) (Or.inl rfl)
    (demo_forward _ rfl (by norm_num [World.init, empty]) (by simp [World.init, empty]) (by norm_num [World.init, empty])) ⟨rfl, rfl⟩ (Or.inr ⟨rfl, rfl, rfl⟩)
    (by norm_num [World.init, demo, empty]) (Or.inl rfl) (by simp [World.init, demo, empty]) (by simp [World.init, demo, empty]) (by simp [World.init])
  have := h2 (by norm_num) (by norm_num [World.init, demo, empty])
  rw [max_eq_left (by norm_num)] at this
  exact this ▸ h1

/-- C124 does not hold if the vehicle slows down for a red light and another one comes between: as long as the light is red, it does not look at that one, and keeps its speed with 1 m
left. -/
theorem C124_cut_in_violated : ∃ (env : Env (View ℚ) Unit ℚ) (w : World (Car (View ℚ) Unit ℚ)), Reachable env w ∧ Plain w ∧ Forward env w.entity.body ∧
    Watchful env w.entity.body ∧ (env.view w.entity.body).laneFront = some (1, 0) ∧ (env.view w.entity.body).near = some 1 ∧
    (env.view w.entity.body).trajectoryFront = some (1, 0) ∧
    ∃ v, Moves env w v ∧ v = (env.view w.entity.body).speed ∧ 0 < v := by
  have hd : chain (vehicleActs demo) (items none) false ⟨⟨{ empty with light := some 45 }, still⟩, .none, .none⟩ =
    .ok (some (.light, true), ⟨⟨{ empty with light := some 45 }, still⟩, .none, some .light⟩) := by
    decide +kernel
  obtain ⟨w', h1, h2, h3⟩ := frame_quiet hd
  have hd' : chain (vehicleActs demo) (items (some .light)) true
      ⟨⟨{ empty with light := some 44, laneFront := some (1, 0), near := some 1, trajectoryFront := some (1, 0) }, still⟩, .none, some .light⟩ =
    .ok (some (.light, true), ⟨⟨{ empty with light := some 44, laneFront := some (1, 0), near := some 1, trajectoryFront := some (1, 0) }, still⟩, .none, some .light⟩) := by
    decide +kernel
  obtain ⟨w'', h4, h5, _⟩ := frame_resumed
    (w := { w' with entity := { w'.entity with body := { empty with light := some 44, laneFront := some (1, 0), near := some 1, trajectoryFront := some (1, 0) } } })
    h3 (by rw [core_change h2]; exact hd')
  exact ⟨demo, _, .change _ (.frame (.spawn _ _) h1), Or.inl (congrArg Core.request h2),
    demo_forward _ rfl (by norm_num [empty]) (by simp [empty]) (by norm_num [empty]), ⟨rfl, rfl⟩, rfl, rfl, rfl, 10,
    moves_of h4 rfl (congrArg (fun c => c.entity.body) h5), rfl, by norm_num⟩

/-! ### C125 -/

theorem stopLine_drives {env : Env B C K} {P : K → Prop} {b : B} (hf : Forward env b) (hw : Watchful env b) (d : K) (hd : (env.view b).stopLine = some d)
    (h1 : ∀ x, (env.view b).conflict = some x → d < x) (h2 : ∀ x, (env.view b).near = some x → d < x)
    (hgo : (env.view b).speed < 1 / 1000 → d ≤ (env.view b).length + 5 → P (cruise (env.view b)))
    (hstop : (1 / 1000 ≤ (env.view b).speed ∨ (env.view b).length + 5 < d) → P (lower (env.view b).target (approach (env.view b) d))) : Drives env P b .stopLine := by
  refine drives_of fun r c hr hc => ?_
  subst hc
  have hc : blocks (env.view c.body).conflict (fun x => decide (x ≤ d)) = false := by
    cases h : (env.view c.body).conflict with
    | none => rfl
    | some x => simp only [blocks]; exact decide_eq_false (not_le.2 (h1 x h))
  have hs : blocks (env.view c.body).near (fun x => decide (x ≤ d)) = false := by
    cases h : (env.view c.body).near with
    | none => rfl
    | some x => simp only [blocks]; exact decide_eq_false (not_le.2 (h2 x h))
  simp only [vehicleActs, stopAtLine, hr, hf.lane, hw.1, hw.2, not_lt.2 hf.speed, Bool.not_true, Bool.false_eq_true, if_false, hd, hc, hs, Bool.and_eq_true, decide_eq_true_eq]
  split
  · next h => exact ⟨_, hgo h.1 h.2, went_drive env _ c⟩
  · next h => exact ⟨_, hstop (by rcases not_and_or.1 h with h | h
                                  · exact Or.inl (not_lt.1 h)
                                  · exact Or.inr (not_le.1 h)), went_drive env _ c⟩

/-- C125 (partial): a vehicle that looks out and need not give way, with a stop line `d` in front of it, within what it needs to stop plus half of its length and 5 m, nothing before the
line, and no red light. As long as it moves, or the line is more than its length and 5 m away, it slows down for the line; once it stands, it sets off.
Missing: a conflict exactly at the line, see `C125_tie_violated`; what it did in the frame before; and that it comes over the line, see `C125_creep_violated`. -/
theorem C125_stop_line_partial (env : Env B C K) (w : World (Car B C K)) (d t : K) (h : Reachable env w) (hp : Plain w) (hf : Forward env w.entity.body)
    (hw : Watchful env w.entity.body) (hs : (env.view w.entity.body).stopLine = some d)
    (hd : d ≤ (env.view w.entity.body).stopDistance + (env.view w.entity.body).length * (1 / 2) + 5)
    (ht : (env.view w.entity.body).target = some t ∨ (env.view w.entity.body).target = none ∧ (env.view w.entity.body).limit = t)
    (hl : (env.view w.entity.body).light = none) (hn : (env.view w.entity.body).trajectoryFront = none ∧ (env.view w.entity.body).laneFront = none)
    (h1 : ∀ x, (env.view w.entity.body).conflict = some x → d < x) (h2 : ∀ x, (env.view w.entity.body).near = some x → d < x)
    (hm : w.current ≠ some .crossing ∧ w.current ≠ some .yield) :
    ∃ v, Moves env w v ∧
      (1 / 1000 ≤ (env.view w.entity.body).speed ∨ (env.view w.entity.body).length + 5 < d → Slows (env.view w.entity.body) d v) ∧
      ((env.view w.entity.body).speed < 1 / 1000 → d ≤ (env.view w.entity.body).length + 5 → v = t) := by
  have hc : cruise (env.view w.entity.body) = t := by
    rcases ht with h | ⟨h, h'⟩
    · simp [cruise, h]
    · simp [cruise, h, h']
  have t1 := stopLine_drives (P := fun v =>
      (1 / 1000 ≤ (env.view w.entity.body).speed ∨ (env.view w.entity.body).length + 5 < d → Slows (env.view w.entity.body) d v) ∧
      ((env.view w.entity.body).speed < 1 / 1000 → d ≤ (env.view w.entity.body).length + 5 → v = t)) hf hw d hs h1 h2
    (fun a1 a2 => ⟨fun h => by rcases h with h | h
                               · exact absurd a1 (not_lt.2 h)
                               · exact absurd a2 (not_le.2 h), fun _ _ => hc⟩)
    (fun a => ⟨fun _ => slows_lower _ d, fun b1 b2 => by rcases a with h | h
                                                         · exact absurd b1 (not_lt.2 h)
                                                         · exact absurd b2 (not_le.2 h)⟩)
  have t2 : Fails env w.entity.body .front := front_none hf (by simp [frontOf, hn.1, hn.2])
  have t3 : Fails env w.entity.body .followLane := followLane_blocked hf hw.1 (Or.inr (Or.inr (Or.inr ⟨d, hs, hd⟩)))
  have t4 : Fails env w.entity.body .light := by
    intro r c hr hc
    simp [vehicleActs, stopAtLight, hr, hf.lane, hw.1, hw.2, hl, hc]
  obtain ⟨v, hv, hmv⟩ := frame_moves h hp (Or.inr ⟨fails_tries t3, Or.inr ⟨fails_tries t2, Or.inr ⟨fails_tries t4, Or.inl t1⟩⟩⟩) (fun q hq hc => by
    simp only [selectorNames, List.mem_cons, List.not_mem_nil, or_false] at hq
    rcases hq with rfl | rfl | rfl | rfl | rfl | rfl
    · exact Or.inr ⟨fails_tries t2, Or.inr ⟨fails_tries t4, Or.inl t1⟩⟩
    · exact Or.inr ⟨fails_tries t4, Or.inl t1⟩
    · exact Or.inl t1
    · exact absurd hc hm.1
    · exact absurd hc hm.2
    · exact Or.inr ⟨fails_tries (backward_fails hf), trivial⟩)
  exact ⟨v, hmv, hv⟩

example : Moves demo (World.init ⟨{ empty with stopLine := some 20 }, still⟩) 0 := by
  obtain ⟨v, h1, h2, _⟩ := C125_stop_line_partial demo (World.init ⟨{ empty with stopLine := some 20 }, still⟩) 20 12 (.spawn _ _) (Or.inl rfl)
    (demo_forward _ rfl (by norm_num [World.init, empty]) (by simp [World.init, empty]) (by norm_num [World.init, empty])) ⟨rfl, rfl⟩ rfl
    (by norm_num [World.init, demo, empty]) (Or.inl rfl) rfl ⟨rfl, rfl⟩ (by simp [World.init, demo, empty]) (by simp [World.init, demo, empty]) (by simp [World.init])
  have := (h2 (Or.inl (by norm_num [World.init, demo, empty]))).1 (by norm_num [World.init, demo, empty])
  have e : v = 0 := this.trans (by norm_num [World.init, demo, empty])
  exact e ▸ h1

/-- C125 does not hold if a conflict is exactly as far away as the stop line: the vehicle slows down for neither and drives on. -/
theorem C125_tie_violated : ∃ (env : Env (View ℚ) Unit ℚ) (w : World (Car (View ℚ) Unit ℚ)), Reachable env w ∧ Plain w ∧ Forward env w.entity.body ∧
    Watchful env w.entity.body ∧ (env.view w.entity.body).stopLine = some 5 ∧ (env.view w.entity.body).conflict = some 5 ∧
    ∃ v, Moves env w v ∧ (env.view w.entity.body).speed < v := by
  have hd : chain (vehicleActs demo) (items none) false ⟨⟨{ empty with stopLine := some 5, conflict := some 5 }, still⟩, .none, .none⟩ =
    .ok (some (.yield, false), ⟨⟨{ empty with stopLine := some 5, conflict := some 5, speed := 12 }, still⟩, .none, some .crossing⟩) := by
    decide +kernel
  obtain ⟨w', h1, h2, _⟩ := update_success (act := vehicleActs demo) (w := World.init ⟨{ empty with stopLine := some 5, conflict := some 5 }, still⟩) (p := none)
    (by simp [Holds, Quiet, QuietTrajectory, QuietLane, World.init]) hd (by simp)
  exact ⟨demo, _, .spawn _ _, Or.inl rfl, demo_forward _ rfl (by norm_num [World.init, empty]) (by simp [World.init, empty]) (by norm_num [World.init, empty]),
    ⟨rfl, rfl⟩, rfl, rfl, 12, moves_of h1 rfl (congrArg (fun c => c.entity.body) h2), by norm_num [World.init, demo, empty]⟩

/-- A vehicle on a straight road: its speed and acceleration, and how far it is over the stop line. -/
structure Kart where
  speed : ℚ
  acceleration : ℚ
  position : ℚ
  deriving DecidableEq

/-- The usual limits. -/
def usual : Speed.Constraints ℚ := ⟨10, 3, 10, 3, 50⟩

/-- A straight road with nothing on it but one stop line. Speed and stopping distance are those of the planner of the simulator (C52-C56), with frames of 1/20 s. -/
def road : Env Kart Unit ℚ where
  view b := { empty with
    speed := b.speed
    stopLine := if b.position ≤ 0 then some (-b.position) else none
    stopDistance := (Speed.runningDistance (1 / 20) usual 0 ⟨b.speed, b.acceleration, 0⟩).getD 0
    target := some 10 }
  move v b := match Speed.step (1 / 20) usual v ⟨b.speed, b.acceleration, 0⟩ with
    | none => .error .undefined
    | some n => .ok ⟨n.speed, n.acceleration, b.position + Speed.moved (1 / 20) ⟨b.speed, b.acceleration, 0⟩ n⟩
  stop b := { b with speed := 0, acceleration := 0 }
  change _ := none
  path _ _ := none
  arc _ := 0
  across _ _ _ := 0
  setSpeed v a b := { b with speed := v, acceleration := a }
  putOnCurve _ _ b := b
  putOnLane _ _ _ b := b
  maxDeceleration _ := 10
  maxAcceleration _ := 10
  maxSpeed _ := 50
  dt := 1 / 20
  follow _ := .ok none

/-- The frames of the simulation, one after the other. -/
def frames {B C : Type} (env : Env B C K) : Nat → World (Car B C K) → Option (Except Fault (World (Car B C K)))
  | 0, w => some (.ok w)
  | n + 1, w => match frames env n w with
    | some (.ok w) => frame env w
    | o => o

/-- The four states through which the vehicle goes. -/
def phase (x : ℚ) : Nat → Kart
  | 0 => ⟨0, 0, x⟩
  | 1 => ⟨3 / 400, 3 / 20, x + 3 / 16000⟩
  | 2 => ⟨3 / 400, 0, x + 9 / 16000⟩
  | _ => ⟨0, -3 / 20, x + 12 / 16000⟩

theorem planned : Speed.step (1 / 20) usual 10 ⟨0, 0, 0⟩ = some ⟨3 / 400, 3 / 20, 3⟩ ∧ Speed.step (1 / 20) usual 0 ⟨3 / 400, 3 / 20, 0⟩ = some ⟨3 / 400, 0, -3⟩ ∧
    Speed.step (1 / 20) usual 0 ⟨3 / 400, 0, 0⟩ = some ⟨0, -3 / 20, -3⟩ ∧ Speed.step (1 / 20) usual 10 ⟨0, -3 / 20, 0⟩ = some ⟨0, 0, 3⟩ := by
  decide +kernel

theorem phase_step (x : ℚ) (i : Nat) (hi : i < 4) (h0 : -29 / 10 ≤ x) (h1 : x ≤ -1) :
    vehicleActs road .stopLine .none ⟨phase x i, still⟩ = .ok (.running, ⟨if i = 3 then phase (x + 12 / 16000) 0 else phase x (i + 1), still⟩) := by
  have hi : i = 0 ∨ i = 1 ∨ i = 2 ∨ i = 3 := by omega
  have run : ∀ a : ℚ, Speed.runningDistance (1 / 20) usual 0 ⟨3 / 400, a, 0⟩ = some 0 := fun a => by
    rw [Speed.runningDistance, if_pos]
    norm_num [Speed.isTargetSpeedReached, abs_le]
  rcases hi with rfl | rfl | rfl | rfl
  · have c1 : x ≤ 0 := by linarith
    have c2 : -x ≤ 4 + 5 := by linarith
    simp only [vehicleActs, stopAtLine, road, phase, empty, plain, blocks, drive, c1, if_true, c2]
    norm_num
    have := planned.1
    norm_num at this
    rw [this]
    simp only [Speed.moved]
    norm_num [still]
  · have c1 : x + 3 / 16000 ≤ 0 := by linarith
    have c2 : -(x + 3 / 16000) - (4 * (1 / 2) + 1) < 0 := by linarith
    simp only [vehicleActs, stopAtLine, road, phase, empty, plain, blocks, drive, lower, approach, c1, if_true, run, Option.getD_some, c2]
    norm_num
    have := planned.2.1
    norm_num at this
    rw [this]
    simp only [Speed.moved]
    norm_num [still]
    linarith
  · have c1 : x + 9 / 16000 ≤ 0 := by linarith
    have c2 : -(x + 9 / 16000) - (4 * (1 / 2) + 1) < 0 := by linarith
    simp only [vehicleActs, stopAtLine, road, phase, empty, plain, blocks, drive, lower, approach, c1, if_true, run, Option.getD_some, c2]
    norm_num
    have := planned.2.2.1
    norm_num at this
    rw [this]
    simp only [Speed.moved]
    norm_num [still]
    linarith
  · have c1 : x + 12 / 16000 ≤ 0 := by linarith
    have c2 : -(x + 12 / 16000) ≤ 4 + 5 := by linarith
    simp only [vehicleActs, stopAtLine, road, phase, empty, plain, blocks, drive, c1, if_true, c2]
    norm_num
    have := planned.2.2.2
    norm_num at this
    rw [this]
    simp only [Speed.moved]
    norm_num [still]

/-- Where the vehicle is after `n` frames. -/
def after (n : Nat) : Kart := phase (-29 / 10 + 12 / 16000 * (n / 4 : Nat)) (n % 4)

theorem after_zero : after 0 = ⟨0, 0, -29 / 10⟩ := by norm_num [after, phase]

theorem after_succ (n : Nat) (hn : n ≤ 10000) : vehicleActs road .stopLine .none ⟨after n, still⟩ = .ok (.running, ⟨after (n + 1), still⟩) := by
  have h4 : n % 4 < 4 := Nat.mod_lt _ (by omega)
  have hq : ((n / 4 : Nat) : ℚ) ≤ 2500 := by exact_mod_cast (by omega : n / 4 ≤ 2500)
  have hq0 : (0 : ℚ) ≤ ((n / 4 : Nat) : ℚ) := by positivity
  rw [after, phase_step _ _ h4 (by linarith) (by linarith), after]
  congr 3
  by_cases h3 : n % 4 = 3
  · have e1 : (n + 1) / 4 = n / 4 + 1 := by omega
    have e2 : (n + 1) % 4 = 0 := by omega
    rw [if_pos h3, e1, e2]
    congr 1
    push_cast
    linarith
  · have e1 : (n + 1) / 4 = n / 4 := by omega
    have e2 : (n + 1) % 4 = n % 4 + 1 := by omega
    rw [if_neg h3, e1, e2]

theorem after_slow (n : Nat) : (after n).speed ≤ 3 / 400 ∧ (n ≤ 10000 → (after n).position ≤ -1) := by
  have h4 : n % 4 < 4 := Nat.mod_lt _ (by omega)
  have hi : n % 4 = 0 ∨ n % 4 = 1 ∨ n % 4 = 2 ∨ n % 4 = 3 := by omega
  have hq : n ≤ 10000 → ((n / 4 : Nat) : ℚ) ≤ 2500 := fun h => by exact_mod_cast (by omega : n / 4 ≤ 2500)
  rcases hi with h | h | h | h <;> simp only [after, h, phase] <;> refine ⟨by norm_num, fun hn => ?_⟩ <;> have := hq hn <;> linarith

/-- C125 does not hold of a vehicle that stands before the line on an otherwise empty road, with its usual limits and 10 m/s to drive: as soon as it has set off, it has to stop again.
After more than eight minutes (10000 frames) it has come no further than 1.9 m, and was never faster than 7.5 mm/s. -/
theorem C125_creep_violated (n : Nat) (hn : n ≤ 10000) :
    ∃ w, frames road n (World.init ⟨⟨0, 0, -29 / 10⟩, still⟩) = some (.ok w) ∧ w.entity.body.speed ≤ 3 / 400 ∧ w.entity.body.position ≤ -1 := by
  have key : ∀ n, n ≤ 10000 → ∃ w, frames road n (World.init ⟨⟨0, 0, -29 / 10⟩, still⟩) = some (.ok w) ∧
      ((n = 0 ∧ w = World.init ⟨⟨0, 0, -29 / 10⟩, still⟩) ∨ (w.core = ⟨⟨after n, still⟩, .none, some .stopLine⟩ ∧ At w .stopLine)) := by
    intro n
    induction n with
    | zero => exact fun _ => ⟨_, rfl, Or.inl ⟨rfl, rfl⟩⟩
    | succ n ih =>
      intro hn
      obtain ⟨w, h1, h2⟩ := ih (by omega)
      have e : frames road (n + 1) (World.init ⟨⟨0, 0, -29 / 10⟩, still⟩) = frame road w := by simp only [frames, h1]
      rcases h2 with ⟨rfl, rfl⟩ | ⟨h2, h3⟩
      · have hd : chain (vehicleActs road) (items none) false ⟨⟨⟨0, 0, -29 / 10⟩, still⟩, .none, .none⟩ =
          .ok (some (.stopLine, true), ⟨⟨after 1, still⟩, .none, some .stopLine⟩) := by
          decide +kernel
        obtain ⟨w', h4, h5, h6⟩ := frame_quiet hd
        exact ⟨w', e.trans h4, Or.inr ⟨h5, h6⟩⟩
      · have hd : chain (vehicleActs road) (items (some .stopLine)) true w.core = .ok (some (.stopLine, true), ⟨⟨after (n + 1), still⟩, .none, some .stopLine⟩) := by
          rw [h2]
          have := after_succ n (by omega)
          have e : items (some .stopLine) = .leaf .stopLine :: laneItems [.crossing, .yield, .backward] ++ [.mark .laneSequence] := rfl
          rw [e, List.cons_append, chain]
          simp only [this]
          rfl
        obtain ⟨w', h4, h5, h6⟩ := frame_resumed h3 hd
        exact ⟨w', e.trans h4, Or.inr ⟨h5, h6⟩⟩
  obtain ⟨w, h1, h2⟩ := key n hn
  refine ⟨w, h1, ?_⟩
  have : w.entity.body = after n := by
    rcases h2 with ⟨rfl, rfl⟩ | ⟨h2, _⟩
    · exact after_zero.symm
    · exact congrArg (fun c => c.entity.body) h2
  rw [this]
  exact ⟨(after_slow n).1, (after_slow n).2 hn⟩

end Verif.Behavior
