import Verif.Behavior.Cases
/-
C121, C123, C124, C125 and C126: vehicles that follow their lane.
-/
namespace Verif.Behavior

open Spec

variable {K : Type} [Field K] [LinearOrder K] {B C : Type}

/-- Why an action before the deciding one does not matter. -/
theorem followLane_blocked {env : Env B C K} {b : B} (hf : Forward env b) (hs : (env.view b).seeAround = true)
    (h : (env.view b).mustYield = true ∨ (∃ d, (env.view b).light = some d ∧ d ≤ (env.view b).horizon)
      ∨ (∃ d, (if (env.view b).byTrajectory then (env.view b).trajectoryFront.map (·.1) else (env.view b).near) = some d ∧
          d ≤ (env.view b).stopDistance + (env.view b).length + 5)
      ∨ (∃ d, (env.view b).stopLine = some d ∧ d ≤ (env.view b).stopDistance + (env.view b).length * (1 / 2) + 5)) : Fails env b .followLane := by
  intro r c hr hc
  subst hc
  simp only [vehicleActs, followLane, hr, hf.lane, not_lt.2 hf.speed, hs, Bool.not_true, Bool.false_eq_true, if_false, Bool.true_and]
  rcases h with h | ⟨d, hd, h⟩ | ⟨d, hd, h⟩ | ⟨d, hd, h⟩
  · rw [if_pos h]
  · have : blocks (env.view c.body).light (fun x => decide (x ≤ (env.view c.body).horizon)) = true := by simp [blocks, hd, h]
    simp only [this, if_true, ite_self]
  · rw [hd]
    have : blocks (some d) (fun x => decide (x ≤ (env.view c.body).stopDistance + (env.view c.body).length + 5)) = true := by simp [blocks, h]
    simp only [this, if_true, ite_self]
  · have : blocks (env.view c.body).stopLine (fun x => decide (x ≤ (env.view c.body).stopDistance + (env.view c.body).length * (1 / 2) + 5)) = true := by
      simp only [blocks, hd]; exact decide_eq_true h
    simp only [this, if_true, ite_self]

theorem front_none {env : Env B C K} {b : B} (hf : Forward env b) (h : frontOf (env.view b) = none) : Fails env b .front := by
  intro r c hr hc
  subst hc
  simp only [frontOf] at h
  simp only [vehicleActs, followFront, hr, hf.lane, not_lt.2 hf.speed, Bool.not_true, Bool.false_eq_true, if_false, h]
  split
  · rfl
  · split <;> rfl

/-- All the actions of a vehicle on its lane keep within what C126 allows. -/
theorem allowed_tries {env : Env B C K} {b : B} (hf : Forward env b) {P : K → Prop} (h0 : P (cruise (env.view b)))
    (h1 : ∀ d u, frontOf (env.view b) = some (d, u) → ∀ x, 0 ≤ x → x ≤ cruise (env.view b) → P x)
    (h2 : ∀ d, P (lower (env.view b).target (approach (env.view b) d)))
    (h3 : (env.view b).seeAround = true → (env.view b).mustYield = true → ∀ d, P (approach (env.view b) d))
    (h4 : (env.view b).seeAround = true → (env.view b).mustYield = true → P (env.view b).limit) :
    Sure env P b laneLeaves ∧ ∀ q ∈ selectorNames, Good env P b (selectorNames.drop (selectorNames.idxOf q)) := by
  have ty : Tries env P b .yield := by
    cases hs : (env.view b).seeAround with
    | false => exact fails_tries (blind_fails hf hs _ (by simp [selectorNames]))
    | true =>
      have := yield_drives (P := P) hf hs (fun _ => h0) (fun hy d _ => h3 hs hy d) (fun hy _ => h4 hs hy)
      exact fun r c hr hb => Or.inr (this r c hr hb)
  have tb : Tries env P b .backward := fails_tries (backward_fails hf)
  have tf := front_tries (P := P) hf h0 h1
  have tl := light_tries (P := P) hf (fun d _ => h2 d)
  have ts := stopLine_tries (P := P) hf h0 (fun d _ => h2 d)
  have tc := crossing_tries (P := P) hf (fun d _ => h2 d)
  refine ⟨?_, ?_⟩
  · cases hs : (env.view b).seeAround with
    | false => exact Or.inl (followLane_drives hf hs h0)
    | true =>
      have := yield_drives (P := P) hf hs (fun _ => h0) (fun hy d _ => h3 hs hy d) (fun hy _ => h4 hs hy)
      exact Or.inr ⟨followLane_tries hf h0, Or.inr ⟨tf, Or.inr ⟨tl, Or.inr ⟨ts, Or.inr ⟨tc, Or.inl this⟩⟩⟩⟩⟩
  · intro q hq
    simp only [selectorNames, List.mem_cons, List.not_mem_nil, or_false] at hq
    rcases hq with rfl | rfl | rfl | rfl | rfl | rfl
    · exact Or.inr ⟨tf, Or.inr ⟨tl, Or.inr ⟨ts, Or.inr ⟨tc, Or.inr ⟨ty, Or.inr ⟨tb, trivial⟩⟩⟩⟩⟩⟩
    · exact Or.inr ⟨tl, Or.inr ⟨ts, Or.inr ⟨tc, Or.inr ⟨ty, Or.inr ⟨tb, trivial⟩⟩⟩⟩⟩
    · exact Or.inr ⟨ts, Or.inr ⟨tc, Or.inr ⟨ty, Or.inr ⟨tb, trivial⟩⟩⟩⟩
    · exact Or.inr ⟨tc, Or.inr ⟨ty, Or.inr ⟨tb, trivial⟩⟩⟩
    · exact Or.inr ⟨ty, Or.inr ⟨tb, trivial⟩⟩
    · exact Or.inr ⟨tb, trivial⟩

/-! ### A small world for the examples -/

/-- A vehicle that reaches the speed it is given at once; the body is what it sees. -/
def demo : Env (View ℚ) Unit ℚ where
  view b := b
  move v b := .ok { b with speed := v }
  stop b := { b with speed := 0 }
  change _ := none
  path _ _ := none
  arc _ := 0
  across _ _ _ := 0
  setSpeed v _ b := { b with speed := v }
  putOnCurve _ _ b := b
  putOnLane _ _ _ b := b
  maxDeceleration _ := 10
  maxAcceleration _ := 10
  maxSpeed _ := 50
  dt := 1 / 20
  follow _ := .ok none

/-- An empty road, on which a vehicle of 4 m drives at 10 m/s and needs 20 m to stop. -/
def empty : View ℚ := ⟨true, 10, true, false, false, none, none, none, none, none, none, none, 20, 4, 15, 15, some 12⟩

def still : LaneState Unit ℚ := ⟨none, 0, 0, 0⟩

theorem demo_forward (b : View ℚ) (h1 : b.lane = true) (h2 : 0 ≤ b.speed) (h3 : ∀ t, b.target = some t → 0 ≤ t) (h4 : 0 ≤ b.limit) : Forward demo b :=
  ⟨h1, h2, h3, h4, fun v b' hv hb => by
    simp only [demo, Except.ok.injEq] at hb
    subst hb
    exact ⟨h1, hv⟩⟩

example : Forward demo empty := demo_forward _ rfl (by norm_num [empty]) (by simp [empty]) (by norm_num [empty])

/-! ### C121 and C126 -/

/-- C126 (partial): in every state a vehicle can be in, if it only follows its lane, does not move backward and need not give way, the speed toward which it is moved is not negative and
at most the speed it is to drive at; if it was given none, it is at most the speed limit or the speed it has.
Missing: vehicles that give way, see `C126_yield_violated`. -/
theorem C126_target_partial (env : Env B C K) (w : World (Car B C K)) (h : Reachable env w) (hp : Plain w) (hf : Forward env w.entity.body) :
    ∃ v, Moves env w v ∧ 0 ≤ v ∧
      ((env.view w.entity.body).seeAround = false ∨ (env.view w.entity.body).mustYield = false →
        (∀ t, (env.view w.entity.body).target = some t → v ≤ t) ∧
        ((env.view w.entity.body).target = none → v ≤ max (env.view w.entity.body).limit (env.view w.entity.body).speed)) := by
  have key := allowed_tries (env := env) hf (P := fun v => 0 ≤ v ∧
      ((env.view w.entity.body).seeAround = false ∨ (env.view w.entity.body).mustYield = false →
        (∀ t, (env.view w.entity.body).target = some t → v ≤ t) ∧
        ((env.view w.entity.body).target = none → v ≤ max (env.view w.entity.body).limit (env.view w.entity.body).speed)))
    ⟨cruise_nonneg hf, fun _ => ⟨fun t ht => by simp [cruise, ht], fun ht => by simp [cruise, ht]⟩⟩
    (fun d u _ x hx hc => ⟨hx, fun _ => ⟨fun t ht => by simpa [cruise, ht] using hc, fun ht => by
      have : x ≤ (env.view w.entity.body).limit := by simpa [cruise, ht] using hc
      exact le_max_of_le_left this⟩⟩)
    (fun d => ⟨lower_nonneg hf d, fun _ => ⟨fun t ht => lower_le _ d t ht, fun ht => by
      simp only [ht, lower, approach]
      split
      · exact le_max_of_le_right hf.speed
      · exact le_max_right _ _⟩⟩)
    (fun hs hy d => ⟨approach_nonneg hf d, fun h => by simp [hs, hy] at h⟩)
    (fun hs hy => ⟨hf.limit, fun h => by simp [hs, hy] at h⟩)
  obtain ⟨v, ⟨h0, h1⟩, hm⟩ := frame_moves h hp key.1 (fun q hq _ => key.2 q hq)
  exact ⟨v, hm, h0, h1⟩

example : ∃ v, Moves demo (World.init ⟨empty, still⟩) v ∧ 0 ≤ v ∧ v ≤ 12 := by
  obtain ⟨v, h1, h2, h3⟩ := C126_target_partial demo (World.init ⟨empty, still⟩) (.spawn _ _) (Or.inl rfl)
    (demo_forward _ rfl (by norm_num [World.init, empty]) (by simp [World.init, empty]) (by norm_num [World.init, empty]))
  exact ⟨v, h1, h2, (h3 (Or.inr rfl)).1 12 rfl⟩

/-- C121 (partial): in every state a vehicle can be in, if it only follows its lane and does not move backward, the next frame moves it exactly once, toward a speed that is not negative.
Missing: vehicles that move backward or are off the lane, see `C121_backward_violated` and `C121_off_lane_violated`. -/
theorem C121_moves_once_partial (env : Env B C K) (w : World (Car B C K)) (h : Reachable env w) (hp : Plain w) (hf : Forward env w.entity.body) :
    ∃ v, Moves env w v ∧ 0 ≤ v := (C126_target_partial env w h hp hf).imp fun _ h => ⟨h.1, h.2.1⟩

example : ∃ v, Moves demo (World.init ⟨{ empty with mustYield := true }, still⟩) v ∧ 0 ≤ v :=
  C121_moves_once_partial demo _ (.spawn _ _) (Or.inl rfl)
    (demo_forward _ rfl (by norm_num [World.init, empty]) (by simp [World.init, empty]) (by norm_num [World.init, empty]))

/-- How a frame from a quiet tree is computed. -/
theorem frame_quiet {env : Env B C K} {b : B} {l : LaneState C K} {q : Node} {d : Core (Car B C K)}
    (hc : chain (vehicleActs env) (items none) false ⟨⟨b, l⟩, .none, .none⟩ = .ok (some (q, true), d)) :
    ∃ w', frame env (World.init ⟨b, l⟩) = some (.ok w') ∧ w'.core = d ∧ At w' q :=
  update_running (p := none) (by simp [Holds, Quiet, QuietTrajectory, QuietLane, World.init]) hc

/-- How a frame that resumes an action is computed. -/
theorem frame_resumed {env : Env B C K} {w : World (Car B C K)} {p q : Node} {d : Core (Car B C K)} (h : At w p)
    (hc : chain (vehicleActs env) (items (some p)) true w.core = .ok (some (q, true), d)) :
    ∃ w', frame env w = some (.ok w') ∧ w'.core = d ∧ At w' q := update_running (p := some p) h hc

omit [Field K] [LinearOrder K] in
theorem core_change {w : World (Car B C K)} {e : Car B C K} {r : Request} {n : Option Node} (h : w.core = ⟨e, r, n⟩) {b : B} :
    World.core { w with entity := { w.entity with body := b } } = ⟨{ e with body := b }, r, n⟩ := by
  simp only [World.core, Core.mk.injEq] at h ⊢
  obtain ⟨rfl, rfl, rfl⟩ := h
  exact ⟨rfl, rfl, rfl⟩

theorem moves_of {env : Env B C K} {w w' : World (Car B C K)} {v : K} {b : B} (h : frame env w = some (.ok w')) (hv : env.move v w.entity.body = .ok b)
    (hb : w'.entity.body = b) : Moves env w v :=
  ⟨fun f hf => (by rw [hv] at hf; cases hf), fun b' hb' => ⟨w', h, by rw [hv] at hb'; cases hb'; exact hb⟩⟩

/-- A vehicle whose speed comes half way to the speed it is given. -/
def halfway : Env (View ℚ) Unit ℚ := { demo with move := fun v b => .ok { b with speed := (b.speed + v) / 2 } }

/-- C121 does not hold of a vehicle that begins to move backward: the first frame moves it twice. -/
theorem C121_backward_violated : ∃ (env : Env (View ℚ) Unit ℚ) (w w' : World (Car (View ℚ) Unit ℚ)) (b : View ℚ), Reachable env w ∧ Plain w ∧
    (env.view w.entity.body).lane = true ∧ (env.view w.entity.body).speed < 0 ∧ frame env w = some (.ok w') ∧
    env.move (-3) w.entity.body = .ok b ∧ env.move (-3) b = .ok w'.entity.body ∧ b ≠ w.entity.body ∧ w'.entity.body ≠ b := by
  have hd : chain (vehicleActs halfway) (items none) false ⟨⟨{ empty with speed := -1, target := some (-3) }, still⟩, .none, .none⟩ =
    .ok (some (.backward, true), ⟨⟨{ empty with speed := -5 / 2, target := some (-3) }, still⟩, .none, some .backward⟩) := by
    decide +kernel
  obtain ⟨w', h1, h2, _⟩ := frame_quiet hd
  have hb : w'.entity.body = { empty with speed := -5 / 2, target := some (-3) } := congrArg (fun c => c.entity.body) h2
  refine ⟨halfway, World.init ⟨{ empty with speed := -1, target := some (-3) }, still⟩, w', { empty with speed := -2, target := some (-3) }, .spawn _ _, Or.inl rfl, rfl,
    by norm_num [World.init, halfway, demo], h1, ?_, ?_, ?_, ?_⟩
  · norm_num [halfway, World.init, empty]
  · rw [hb]; norm_num [halfway, empty]
  · intro h
    have := congrArg View.speed h
    norm_num [World.init] at this
  · rw [hb]
    intro h
    have := congrArg View.speed h
    norm_num at this

/-- C121 does not hold of a vehicle that is taken off the lane while it follows another one: the next frame throws. (While it follows its lane, it stops instead.) -/
theorem C121_off_lane_violated : ∃ (env : Env (View ℚ) Unit ℚ) (w : World (Car (View ℚ) Unit ℚ)), Reachable env w ∧ Plain w ∧
    (∀ v b, ∃ b', env.move v b = .ok b') ∧ frame env w = some (.error .thrown) := by
  have hd : chain (vehicleActs demo) (items none) false ⟨⟨{ empty with laneFront := some (15, 8), near := some 15 }, still⟩, .none, .none⟩ =
    .ok (some (.front, true), ⟨⟨{ empty with laneFront := some (15, 8), near := some 15, speed := 0 }, still⟩, .none, some .front⟩) := by
    decide +kernel
  obtain ⟨w', h1, h2, h3⟩ := frame_quiet hd
  refine ⟨demo, { w' with entity := { w'.entity with body := { empty with lane := false, laneFront := some (15, 8), near := some 15 } } }, .change _ (.frame (.spawn _ _) h1), ?_, fun v b => ⟨_, rfl⟩, ?_⟩
  · exact Or.inl (congrArg Core.request h2)
  · refine update_error (w := { w' with entity := { w'.entity with body := { empty with lane := false, laneFront := some (15, 8), near := some 15 } } }) (p := some .front) h3 ?_
    rw [core_change h2]
    decide +kernel

/-- C121 backward: a vehicle that moved backward in the frame before, and still does, is moved exactly once, toward the speed it is to drive at, or the limit for driving backward. -/
theorem C121_backward_partial (env : Env B C K) (w : World (Car B C K)) (v : K) (h : Reachable env w) (hp : Plain w) (hr : w.status .root = .running) (hc : w.current = some .backward)
    (hl : (env.view w.entity.body).lane = true) (hs : (env.view w.entity.body).speed < 0)
    (hv : (env.view w.entity.body).target = some v ∨ (env.view w.entity.body).target = none ∧ (env.view w.entity.body).backLimit = v) : Moves env w v := by
  obtain ⟨p, hh⟩ := reachable_holds h
  have hq : p = some .backward := by
    cases p with
    | none =>
      obtain ⟨h1, _⟩ := hh
      exact absurd hr h1
    | some q =>
      have := (at_current hh).1
      rw [hc] at this
      exact this.symm
  subst hq
  have hpl : plain w.core.request = true := by rcases hp with h | h <;> simp [plain, World.core, h]
  have ha : vehicleActs env .backward w.core.request w.core.entity = drive env v w.core.entity := by
    have : (env.view w.entity.body).target.getD (env.view w.entity.body).backLimit = v := by
      rcases hv with h | ⟨h, h'⟩
      · rw [h]; rfl
      · rw [h]; exact h'
    simp only [vehicleActs, moveBackward, hpl, show (env.view w.core.entity.body).lane = true from hl,
      show ¬ (0 ≤ (env.view w.core.entity.body).speed) from not_le.2 hs, Bool.not_true, Bool.false_eq_true, if_false]
    rw [show (env.view w.core.entity.body).target.getD (env.view w.core.entity.body).backLimit = v from this]
  obtain ⟨rest, hi⟩ : ∃ rest, items (some Node.backward) = .leaf .backward :: rest := ⟨_, rfl⟩
  refine ⟨fun f hf => ?_, fun b hb => ?_⟩
  · refine update_error hh ?_
    rw [hi, chain, ha, drive, show env.move v w.core.entity.body = _ from hf]
    rfl
  · obtain ⟨w', h1, h2, _⟩ := frame_resumed (env := env) hh (q := .backward) (d := w.core.run .backward true { w.core.entity with body := b }) (by
      rw [hi, chain, ha, drive, show env.move v w.core.entity.body = _ from hb]
      rfl)
    exact ⟨w', h1, congrArg (fun c => c.entity.body) h2⟩

/-- A vehicle that moved backward, and has no speed to drive at. -/
example : ∃ w, Reachable demo w ∧ w.current = some .backward ∧ Moves demo w 15 := by
  have hd : chain (vehicleActs demo) (items none) false ⟨⟨{ empty with speed := -1, target := some (-3) }, still⟩, .none, .none⟩ =
    .ok (some (.backward, true), ⟨⟨{ empty with speed := -3, target := some (-3) }, still⟩, .none, some .backward⟩) := by
    decide +kernel
  obtain ⟨w', h1, h2, h3⟩ := frame_quiet hd
  refine ⟨{ w' with entity := { w'.entity with body := { empty with speed := -3, target := none } } }, .change _ (.frame (.spawn _ _) h1), (at_current h3).1, ?_⟩
  exact C121_backward_partial demo _ _ (.change _ (.frame (.spawn _ _) h1)) (Or.inl (congrArg Core.request h2)) h3.1 (at_current h3).1 rfl (by norm_num [demo]) (Or.inr ⟨rfl, rfl⟩)

/-- C121 off the lanes: a vehicle that is spawned off the lanes is stopped by each frame, whatever changes around it, as long as it stays off the lanes. -/
theorem C121_off_lane_stops (env : Env B C K) (b : B) (l : LaneState C K) (h : (env.view b).lane = false) :
    ∃ w, frame env (World.init ⟨b, l⟩) = some (.ok w) ∧ w.entity.body = env.stop b ∧
      ∀ b', (env.view b').lane = false → ∃ w', frame env { w with entity := { w.entity with body := b' } } = some (.ok w') ∧ w'.entity.body = env.stop b' := by
  have hd : chain (vehicleActs env) (items none) false ⟨⟨b, l⟩, .none, .none⟩ = .ok (some (.followLane, true), ⟨⟨env.stop b, { l with curve := none, s := 0 }⟩, .none, some .followLane⟩) := by
    simp [items, chain, trajectoryPart, lanePart, vehicleActs, laneChange, followTrajectory, followLane, plain, h, Core.run, Core.fail]
  obtain ⟨w, h1, h2, h3⟩ := frame_quiet hd
  refine ⟨w, h1, congrArg (fun c => c.entity.body) h2, fun b' hb' => ?_⟩
  have hd' : chain (vehicleActs env) (items (some .followLane)) true (World.core { w with entity := { w.entity with body := b' } }) =
      .ok (some (.followLane, true), ⟨⟨env.stop b', { l with curve := none, s := 0 }⟩, .none, some .followLane⟩) := by
    rw [core_change h2]
    simp [items, chain, lanePart, vehicleActs, followLane, plain, hb', Core.run]
  obtain ⟨w', h1', h2', _⟩ := frame_resumed (w := { w with entity := { w.entity with body := b' } }) (p := .followLane) h3 hd'
  exact ⟨w', h1', congrArg (fun c => c.entity.body) h2'⟩

example : (demo.view { empty with lane := false }).lane = false := rfl

/-- C126 does not hold of a vehicle that gives way: it keeps its speed although it is to drive slower. -/
theorem C126_yield_violated : ∃ (env : Env (View ℚ) Unit ℚ) (w : World (Car (View ℚ) Unit ℚ)) (v t : ℚ), Reachable env w ∧ Plain w ∧ Forward env w.entity.body ∧
    Moves env w v ∧ (env.view w.entity.body).target = some t ∧ t < v := by
  have hd : chain (vehicleActs demo) (items none) false ⟨⟨{ empty with mustYield := true, yieldStop := some 40, target := some 2 }, still⟩, .none, .none⟩ =
    .ok (some (.yield, true), ⟨⟨{ empty with mustYield := true, yieldStop := some 40, target := some 2 }, still⟩, .none, some .yield⟩) := by
    decide +kernel
  obtain ⟨w', h1, h2, _⟩ := frame_quiet hd
  refine ⟨demo, _, 10, 2, .spawn _ _, Or.inl rfl, demo_forward _ rfl (by norm_num [World.init, empty]) (by simp [World.init]) (by norm_num [World.init, empty]),
    moves_of h1 rfl (congrArg (fun c => c.entity.body) h2), rfl, by norm_num⟩

/-! ### C123 -/

theorem horizon_eq [IsStrictOrderedRing K] (v : View K) : v.horizon = max 20 (min 50 (5 * v.speed)) := by
  rw [mul_comm]
  unfold View.horizon
  split
  · next h => rw [max_eq_left (le_trans (min_le_right _ _) h.le)]
  split
  · next h => rw [min_eq_left h.le, max_eq_right (by norm_num)]
  · next h1 h2 => rw [min_eq_right (not_lt.1 h2), max_eq_right (not_lt.1 h1)]

/-- C123 (partial): a vehicle that looks out, has nothing in front of it and need not give way slows down for a red light within 20 m, or within the way of the next five seconds, but
50 m at most.
Missing: an entity in front of it, even behind the light, see `C123_front_violated`; and what it did in the frame before, see `C123_memory_violated`. -/
theorem C123_red_light_partial [IsStrictOrderedRing K] (env : Env B C K) (w : World (Car B C K)) (d : K) (h : Reachable env w) (hp : Plain w) (hf : Forward env w.entity.body)
    (hw : Watchful env w.entity.body) (hl : (env.view w.entity.body).light = some d) (hd : d ≤ max 20 (min 50 (5 * (env.view w.entity.body).speed)))
    (hn : (env.view w.entity.body).trajectoryFront = none ∧ (env.view w.entity.body).laneFront = none)
    (hm : w.current ≠ some .stopLine ∧ w.current ≠ some .crossing ∧ w.current ≠ some .yield) :
    ∃ v, Moves env w v ∧ Slows (env.view w.entity.body) d v := by
  rw [← horizon_eq] at hd
  have t1 : Drives env (Slows (env.view w.entity.body) d) w.entity.body .light := light_drives hf hw d hl hd (slows_lower _ d)
  have t2 : Fails env w.entity.body .front := front_none hf (by simp [frontOf, hn.1, hn.2])
  have t3 : Fails env w.entity.body .followLane := followLane_blocked hf hw.1 (Or.inr (Or.inl ⟨d, hl, hd⟩))
  obtain ⟨v, hv, hmv⟩ := frame_moves (P := Slows (env.view w.entity.body) d) h hp (Or.inr ⟨fails_tries t3, Or.inr ⟨fails_tries t2, Or.inl t1⟩⟩) (fun q hq hc => by
    simp only [selectorNames, List.mem_cons, List.not_mem_nil, or_false] at hq
    rcases hq with rfl | rfl | rfl | rfl | rfl | rfl
    · exact Or.inr ⟨fails_tries t2, Or.inl t1⟩
    · exact Or.inl t1
    · exact absurd hc hm.1
    · exact absurd hc hm.2.1
    · exact absurd hc hm.2.2
    · exact Or.inr ⟨fails_tries (backward_fails hf), trivial⟩)
  exact ⟨v, hmv, hv⟩

example : ∃ v, Moves demo (World.init ⟨{ empty with light := some 18 }, still⟩) v ∧ v = 0 := by
  obtain ⟨v, h1, h2, _⟩ := C123_red_light_partial demo (World.init ⟨{ empty with light := some 18 }, still⟩) 18 (.spawn _ _) (Or.inl rfl)
    (demo_forward _ rfl (by norm_num [World.init, empty]) (by simp [World.init, empty]) (by norm_num [World.init, empty])) ⟨rfl, rfl⟩ rfl
    (by norm_num [World.init, demo, empty]) ⟨rfl, rfl⟩ (by simp [World.init])
  refine ⟨v, h1, (h2 (by norm_num [World.init, demo, empty])).trans ?_⟩
  norm_num [World.init, demo, empty]

/-- C123 does not hold if another vehicle drives on behind the light: the vehicle follows that one across the stop line. -/
theorem C123_front_violated : ∃ (env : Env (View ℚ) Unit ℚ) (w : World (Car (View ℚ) Unit ℚ)) (u : ℚ), Reachable env w ∧ Plain w ∧ Forward env w.entity.body ∧
    Watchful env w.entity.body ∧ (env.view w.entity.body).light = some 5 ∧ (env.view w.entity.body).laneFront = some (30, u) ∧
    ∃ v, Moves env w v ∧ (env.view w.entity.body).speed < v := by
  have hd : chain (vehicleActs demo) (items none) false ⟨⟨{ empty with light := some 5, laneFront := some (30, 9), near := some 30, speed := 8 }, still⟩, .none, .none⟩ =
    .ok (some (.front, true), ⟨⟨{ empty with light := some 5, laneFront := some (30, 9), near := some 30, speed := 11 }, still⟩, .none, some .front⟩) := by
    decide +kernel
  obtain ⟨w', h1, h2, _⟩ := frame_quiet hd
  exact ⟨demo, _, 9, .spawn _ _, Or.inl rfl, demo_forward _ rfl (by norm_num [World.init]) (by simp [World.init, empty]) (by norm_num [World.init, empty]),
    ⟨rfl, rfl⟩, rfl, rfl, 11, moves_of h1 rfl (congrArg (fun c => c.entity.body) h2), by norm_num [World.init, demo]⟩

/-- C123 does not hold of a vehicle that has just slowed down for a stop line: as long as it sees one, it does not look at lights. -/
theorem C123_memory_violated : ∃ (env : Env (View ℚ) Unit ℚ) (w : World (Car (View ℚ) Unit ℚ)), Reachable env w ∧ Plain w ∧ Forward env w.entity.body ∧
    Watchful env w.entity.body ∧ (env.view w.entity.body).light = some 6 ∧ (env.view w.entity.body).trajectoryFront = none ∧
    (env.view w.entity.body).laneFront = none ∧ (env.view w.entity.body).stopLine = some 40 ∧
    ∃ v, Moves env w v ∧ v = (env.view w.entity.body).speed ∧ 0 < v := by
  have hd : chain (vehicleActs demo) (items none) false ⟨⟨{ empty with stopLine := some 26 }, still⟩, .none, .none⟩ =
    .ok (some (.stopLine, true), ⟨⟨{ empty with stopLine := some 26 }, still⟩, .none, some .stopLine⟩) := by
    decide +kernel
  obtain ⟨w', h1, h2, h3⟩ := frame_quiet hd
  have hd' : chain (vehicleActs demo) (items (some .stopLine)) true ⟨⟨{ empty with stopLine := some 40, light := some 6 }, still⟩, .none, some .stopLine⟩ =
    .ok (some (.stopLine, true), ⟨⟨{ empty with stopLine := some 40, light := some 6 }, still⟩, .none, some .stopLine⟩) := by
    decide +kernel
  obtain ⟨w'', h4, h5, _⟩ := frame_resumed (w := { w' with entity := { w'.entity with body := { empty with stopLine := some 40, light := some 6 } } }) h3 (by rw [core_change h2]; exact hd')
  exact ⟨demo, _, .change _ (.frame (.spawn _ _) h1), Or.inl (congrArg Core.request h2),
    demo_forward _ rfl (by norm_num [empty]) (by simp [empty]) (by norm_num [empty]), ⟨rfl, rfl⟩, rfl, rfl, rfl, rfl, 10,
    moves_of h4 rfl (congrArg (fun c => c.entity.body) h5), rfl, by norm_num⟩

end Verif.Behavior
