import Verif.Behavior.StopTheorems
/-
C145: vehicles before those who cross.
-/
namespace Verif.Behavior

open Spec

variable {K : Type} [Field K] [LinearOrder K] {B C : Type}

theorem crossing_drives {env : Env B C K} {P : K → Prop} {b : B} (hf : Forward env b) (hw : Watchful env b) (d : K) (hd : (env.view b).conflict = some d)
    (h1 : ∀ x, (env.view b).near = some x → d < x) (h2 : ∀ x, (env.view b).stopLine = some x → d < x)
    (hP : P (lower (env.view b).target (approach (env.view b) d))) : Drives env P b .crossing := by
  refine drives_of fun r c hr hc => ?_
  subst hc
  have hn : blocks (env.view c.body).near (fun x => decide (x ≤ d)) = false := by
    cases h : (env.view c.body).near with
    | none => rfl
    | some x => simp only [blocks]; exact decide_eq_false (not_le.2 (h1 x h))
  have hs : blocks (env.view c.body).stopLine (fun x => decide (x ≤ d)) = false := by
    cases h : (env.view c.body).stopLine with
    | none => rfl
    | some x => simp only [blocks]; exact decide_eq_false (not_le.2 (h2 x h))
  refine ⟨_, hP, ?_⟩
  simp only [vehicleActs, stopAtCrossing, hr, hf.lane, hw.1, hw.2, not_lt.2 hf.speed, hd, hn, hs, Bool.not_true, Bool.false_eq_true, if_false]
  exact went_drive env _ c

/-- C145 (partial): a vehicle that looks out and need not give way, with someone who crosses its way `d` in front of it, within what it needs to stop plus its length and 3 m, nothing in
front of it, no stop line before that one and no red light, slows down for that one.
Missing: a stop line, an entity or a red light as well, see C123, C124 and C125; and that it gives way in the frame before, see `C145_memory_violated`. -/
theorem C145_crossing_partial (env : Env B C K) (w : World (Car B C K)) (d : K) (h : Reachable env w) (hp : Plain w) (hf : Forward env w.entity.body)
    (hw : Watchful env w.entity.body) (hc : (env.view w.entity.body).conflict = some d)
    (hd : d < (env.view w.entity.body).stopDistance + (env.view w.entity.body).length + 3)
    (hl : (env.view w.entity.body).light = none) (hn : (env.view w.entity.body).trajectoryFront = none ∧ (env.view w.entity.body).laneFront = none)
    (h1 : ∀ x, (env.view w.entity.body).near = some x → d < x) (h2 : ∀ x, (env.view w.entity.body).stopLine = some x → d < x) (hm : w.current ≠ some .yield) :
    ∃ v, Moves env w v ∧ Slows (env.view w.entity.body) d v := by
  have t1 : Drives env (Slows (env.view w.entity.body) d) w.entity.body .crossing := crossing_drives hf hw d hc h1 h2 (slows_lower _ d)
  have t2 : Fails env w.entity.body .front := front_none hf (by simp [frontOf, hn.1, hn.2])
  have t3 : Fails env w.entity.body .followLane := by
    intro r c hr hb
    rw [← hb] at hc hd
    have hf' := hf
    have hw' := hw
    rw [← hb] at hf' hw'
    have : blocks (env.view c.body).conflict (fun x => decide (x < (env.view c.body).length + 3 + (env.view c.body).stopDistance)) = true := by
      simp only [blocks, hc]
      exact decide_eq_true (by rw [add_comm _ (env.view c.body).stopDistance, ← add_assoc]; exact hd)
    simp only [vehicleActs, followLane, hr, hf'.lane, not_lt.2 hf'.speed, hw'.1, hw'.2, Bool.not_true, Bool.false_eq_true, if_false, Bool.true_and, Bool.and_false, this, if_true,
      ite_self]
  have t4 : Fails env w.entity.body .light := by
    intro r c hr hb
    simp [vehicleActs, stopAtLight, hr, hf.lane, hw.1, hw.2, hl, hb]
  have t5 : Fails env w.entity.body .stopLine := by
    intro r c hr hb
    rw [← hb] at hf hw hc h2
    cases hs : (env.view c.body).stopLine with
    | none => simp [vehicleActs, stopAtLine, hr, hf.lane, hw.1, hw.2, hs]
    | some x =>
      have : blocks (env.view c.body).conflict (fun y => decide (y ≤ x)) = true := by
        simp only [blocks, hc]
        exact decide_eq_true (h2 x hs).le
      simp only [vehicleActs, stopAtLine, hr, hf.lane, hw.1, hw.2, not_lt.2 hf.speed, hs, this, Bool.not_true, Bool.false_eq_true, if_false, if_true, ite_self]
  obtain ⟨v, hv, hmv⟩ := frame_moves (P := Slows (env.view w.entity.body) d) h hp
    (Or.inr ⟨fails_tries t3, Or.inr ⟨fails_tries t2, Or.inr ⟨fails_tries t4, Or.inr ⟨fails_tries t5, Or.inl t1⟩⟩⟩⟩) (fun q hq hc => by
    simp only [selectorNames, List.mem_cons, List.not_mem_nil, or_false] at hq
    rcases hq with rfl | rfl | rfl | rfl | rfl | rfl
    · exact Or.inr ⟨fails_tries t2, Or.inr ⟨fails_tries t4, Or.inr ⟨fails_tries t5, Or.inl t1⟩⟩⟩
    · exact Or.inr ⟨fails_tries t4, Or.inr ⟨fails_tries t5, Or.inl t1⟩⟩
    · exact Or.inr ⟨fails_tries t5, Or.inl t1⟩
    · exact Or.inl t1
    · exact absurd hc hm
    · exact Or.inr ⟨fails_tries (backward_fails hf), trivial⟩)
  exact ⟨v, hmv, hv⟩

example : Moves demo (World.init ⟨{ empty with conflict := some 22 }, still⟩) 0 := by
  obtain ⟨v, h1, h2⟩ := C145_crossing_partial demo (World.init ⟨{ empty with conflict := some 22 }, still⟩) 22 (.spawn _ _) (Or.inl rfl)
    (demo_forward _ rfl (by norm_num [World.init, empty]) (by simp [World.init, empty]) (by norm_num [World.init, empty])) ⟨rfl, rfl⟩ rfl
    (by norm_num [World.init, demo, empty]) rfl ⟨rfl, rfl⟩ (by simp [World.init, demo, empty]) (by simp [World.init, demo, empty]) (by simp [World.init])
  have := h2.1 (by norm_num [World.init, demo, empty])
  have e : v = 0 := this.trans (by norm_num [World.init, demo, empty])
  exact e ▸ h1

/-- C145 does not hold of a vehicle that gave way in the frame before: in the first frame in which it need not, it is moved toward the speed it is to drive at, although someone crosses
its way 3 m in front of it. -/
theorem C145_memory_violated : ∃ (env : Env (View ℚ) Unit ℚ) (w : World (Car (View ℚ) Unit ℚ)), Reachable env w ∧ Plain w ∧ Forward env w.entity.body ∧
    Watchful env w.entity.body ∧ (env.view w.entity.body).conflict = some 3 ∧ (env.view w.entity.body).stopLine = none ∧ (env.view w.entity.body).near = none ∧
    ∃ v, Moves env w v ∧ (env.view w.entity.body).speed < v := by
  have hd : chain (vehicleActs demo) (items none) false ⟨⟨{ empty with mustYield := true, yieldStop := some 40 }, still⟩, .none, .none⟩ =
    .ok (some (.yield, true), ⟨⟨{ empty with mustYield := true, yieldStop := some 40 }, still⟩, .none, some .yield⟩) := by
    decide +kernel
  obtain ⟨w', h1, h2, h3⟩ := frame_quiet hd
  have hc : chain (vehicleActs demo) (items (some .yield)) true ⟨⟨{ empty with conflict := some 3 }, still⟩, .none, some .yield⟩ =
    .ok (some (.yield, false), ⟨⟨{ empty with conflict := some 3, speed := 12 }, still⟩, .none, some .yield⟩) := by
    decide +kernel
  obtain ⟨u, a1, a2, _⟩ := update_success (act := vehicleActs demo) (w := { w' with entity := { w'.entity with body := { empty with conflict := some 3 } } }) (p := some .yield)
    h3 (by rw [core_change h2]; exact hc) (by simp)
  exact ⟨demo, _, .change _ (.frame (.spawn _ _) h1), Or.inl (congrArg Core.request h2),
    demo_forward _ rfl (by norm_num [empty]) (by simp [empty]) (by norm_num [empty]), ⟨rfl, rfl⟩, rfl, rfl, rfl, 12,
    moves_of a1 rfl (congrArg (fun c => c.entity.body) a2), by norm_num [demo, empty]⟩

end Verif.Behavior
