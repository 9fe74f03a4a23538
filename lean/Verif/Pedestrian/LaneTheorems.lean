import Verif.Pedestrian.Theorems
/-
Pedestrians who follow their lane.
-/
namespace Verif.Pedestrian
open Classical Spec

theorem north_iff (x y : ℝ) : 0 < Geometry.atan2 y x ↔ 0 < y ∨ y = 0 ∧ x < 0 := by
  unfold Geometry.atan2
  constructor
  · intro h
    have h1 : 0 ≤ y := Complex.arg_nonneg_iff.1 h.le
    rcases h1.lt_or_eq with h2 | h2
    · exact .inl h2
    · refine .inr ⟨h2.symm, ?_⟩
      by_contra hc
      have : Complex.arg ⟨x, y⟩ = 0 := Complex.arg_eq_zero_iff.2 ⟨not_lt.1 hc, h2.symm⟩
      rw [this] at h
      exact lt_irrefl _ h
  · intro h
    have h0 : 0 ≤ Complex.arg ⟨x, y⟩ := Complex.arg_nonneg_iff.2 (by rcases h with h | ⟨h, -⟩ <;> simp only <;> linarith)
    refine lt_of_le_of_ne h0 fun e => ?_
    obtain ⟨h1, h2⟩ := Complex.arg_eq_zero_iff.1 e.symm
    simp only at h1 h2
    rcases h with h | ⟨-, h⟩ <;> linarith

theorem inLanes_iff (b : Body) (os : List Body) (lanes : List ℤ) : inLanes b os lanes 10 = true ↔
    ∃ o ∈ os, o.ego = true ∧ (∃ l ∈ lanes, o.lane = some l) ∧ (o.x - b.x) ^ 2 + (o.y - b.y) ^ 2 + (o.z - b.z) ^ 2 < 100 := by
  have hd : ∀ o : Body, distance b o < 10 ↔ (o.x - b.x) ^ 2 + (o.y - b.y) ^ 2 + (o.z - b.z) ^ 2 < 100 := by
    intro o
    unfold distance
    rw [Real.sqrt_lt' (by norm_num)]
    norm_num
  simp only [inLanes, List.any_eq_true, decide_eq_true_eq, List.mem_filterMap, hd]
  constructor
  · rintro ⟨l, hl, o, ho, h⟩
    by_cases hc : o.ego = true ∧ (o.x - b.x) ^ 2 + (o.y - b.y) ^ 2 + (o.z - b.z) ^ 2 < 100
    · rw [if_pos hc] at h
      exact ⟨o, ho, hc.1, ⟨l, hl, h⟩, hc.2⟩
    · rw [if_neg hc] at h; cases h
  · rintro ⟨o, ho, h1, ⟨l, hl, h2⟩, h3⟩
    exact ⟨l, hl, o, ho, by rw [if_pos ⟨h1, h3⟩]; exact h2⟩

theorem inFront_iff (b : Body) (os : List Body) : inFront b os = true ↔ ∃ o ∈ os, b.y < o.y ∨ o.y = b.y ∧ o.x < b.x := by
  simp only [inFront, List.any_eq_true, decide_eq_true_eq, north_iff, sub_pos, sub_eq_zero, sub_neg]

/-- **C162 (decision).** A pedestrian who follows a lane and looks around is to stop exactly if an ego is on one of the lanes ahead, closer than ten metres, and somebody, whoever it is,
is to the north of the pedestrian on the map, or exactly to the west; otherwise the pedestrian is to walk at the speed asked for, or at the speed limit of the lanes. -/
theorem C162_decision (v : View) (hv : Looks v) (b : Body) (i : ℤ) (hb : b.lane = some i) (os : List Body) (t : ℝ)
    (ht : v.target = some t ∨ v.target = none ∧ t = v.limit) :
    laneSpeed v b os = some (if (∃ o ∈ os, o.ego = true ∧ (∃ l ∈ v.lanes, o.lane = some l) ∧ (o.x - b.x) ^ 2 + (o.y - b.y) ^ 2 + (o.z - b.z) ^ 2 < 10 ^ 2) ∧
      ∃ o ∈ os, b.y < o.y ∨ o.y = b.y ∧ o.x < b.x then 0 else t) := by
  obtain ⟨h1, h2, h3⟩ := hv
  have ht' : v.target.getD v.limit = t := by
    rcases ht with ht | ⟨ht, e⟩
    · rw [ht]; rfl
    · rw [ht, e]; rfl
  have e : (10 : ℝ) ^ 2 = 100 := by norm_num
  unfold laneSpeed detectObstacleInLane
  rw [hb, ht', h1, h2, h3, e]
  simp only [Bool.not_true, Bool.false_eq_true, if_false, Bool.and_eq_true, inLanes_iff, inFront_iff]

/-- **C162 (egos only).** As long as no ego is on the lanes ahead, the pedestrian does not stop, whoever else is there. -/
theorem C162_others (v : View) (hv : v.byTrajectory = false) (b : Body) (i : ℤ) (hb : b.lane = some i) (os : List Body)
    (ho : ∀ o ∈ os, o.ego = true → ∀ l ∈ v.lanes, o.lane ≠ some l) (t : ℝ) (ht : v.target = some t) : laneSpeed v b os = some t := by
  have hn : inLanes b os v.lanes 10 = false := by
    rw [Bool.eq_false_iff, ne_eq, inLanes_iff]
    rintro ⟨o, h1, h2, ⟨l, hl, h3⟩, -⟩
    exact ho o h1 h2 l hl h3
  unfold laneSpeed detectObstacleInLane
  rw [hb, hv, ht, hn]
  simp

/-- **C162 (blind).** A pedestrian who is blind or does not look around never stops. -/
theorem C162_blind (v : View) (b : Body) (i : ℤ) (hb : b.lane = some i) (os : List Body) (h : v.aware = false ∨ v.seeAround = false) :
    laneSpeed v b os = some (v.target.getD v.limit) := by
  unfold laneSpeed detectObstacleInLane
  rw [hb]
  rcases h with h | h <;> rw [h] <;> simp

/-- **C162 (off the lanes).** A pedestrian is stopped, and nothing is asked of the map, exactly if the pedestrian is not on a lane. -/
theorem C162_off (v : View) (b : Body) (os : List Body) : laneSpeed v b os = none ↔ b.lane = none := by
  unfold laneSpeed
  cases b.lane <;> simp

/-- a pedestrian on lane 1 who walks to the south -/
noncomputable def southward : Body := ⟨0, 0, 0, -(Real.pi / 2), 0, 0, 8 / 10, 8 / 10, false, some 1⟩

/-- an ego at that place of the y-axis -/
noncomputable def egoAt (y : ℝ) : Body := ⟨0, y, 0, Real.pi / 2, 0, 0, 4, 2, true, some 1⟩

noncomputable def lookLane : View := ⟨true, true, false, false, 1, some 1, [1], 1⟩

/-- **C162 is violated** for pedestrians who walk to the south: an ego on the lane, three metres straight ahead, is not seen. -/
theorem C162_ahead_violated : Looks lookLane ∧ ahead southward ((egoAt (-3)).x, (egoAt (-3)).y) = 3 ∧ (egoAt (-3)).ego = true ∧ (egoAt (-3)).lane = some 1 ∧ 1 ∈ lookLane.lanes ∧
    laneSpeed lookLane southward [egoAt (-3)] = some 1 := by
  refine ⟨⟨rfl, rfl, rfl⟩, ?_, rfl, rfl, by simp [lookLane], ?_⟩
  · simp [ahead, southward, egoAt, Real.cos_neg, Real.sin_neg]
  · rw [C162_decision lookLane ⟨rfl, rfl, rfl⟩ southward 1 rfl _ 1 (.inl rfl), if_neg]
    rintro ⟨-, o, ho, h⟩
    rw [List.mem_singleton] at ho
    subst ho
    simp [southward, egoAt] at h
    linarith

/-- **C162 is violated** the other way round too: the pedestrian stops for an ego three metres behind. -/
theorem C162_behind_violated : Looks lookLane ∧ ahead southward ((egoAt 3).x, (egoAt 3).y) = -3 ∧ laneSpeed lookLane southward [egoAt 3] = some 0 := by
  refine ⟨⟨rfl, rfl, rfl⟩, ?_, ?_⟩
  · simp [ahead, southward, egoAt, Real.cos_neg, Real.sin_neg]
  · rw [C162_decision lookLane ⟨rfl, rfl, rfl⟩ southward 1 rfl _ 1 (.inl rfl), if_pos]
    refine ⟨⟨_, List.mem_singleton.2 rfl, rfl, ⟨1, by simp [lookLane], rfl⟩, ?_⟩, _, List.mem_singleton.2 rfl, ?_⟩
    · norm_num [southward, egoAt]
    · norm_num [southward, egoAt]

/-- For a pedestrian who walks to the north, the direction on the map is the heading: no ego ahead on the lanes is missed. -/
theorem C162_north_partial (v : View) (hv : Looks v) (b : Body) (i : ℤ) (hb : b.lane = some i) (hy : Real.cos b.yaw = 0 ∧ Real.sin b.yaw = 1) (os : List Body) (o : Body) (ho : o ∈ os)
    (h1 : o.ego = true) (h2 : ∃ l ∈ v.lanes, o.lane = some l) (h3 : (o.x - b.x) ^ 2 + (o.y - b.y) ^ 2 + (o.z - b.z) ^ 2 < 10 ^ 2) (h4 : 0 < ahead b (o.x, o.y)) :
    laneSpeed v b os = some 0 := by
  have h5 : b.y < o.y := by
    simp only [ahead, hy.1, hy.2] at h4
    linarith
  rcases ht : v.target with - | t
  · rw [C162_decision v hv b i hb os v.limit (.inr ⟨ht, rfl⟩), if_pos ⟨⟨o, ho, h1, h2, h3⟩, o, ho, .inl h5⟩]
  · rw [C162_decision v hv b i hb os t (.inl ht), if_pos ⟨⟨o, ho, h1, h2, h3⟩, o, ho, .inl h5⟩]

end Verif.Pedestrian
