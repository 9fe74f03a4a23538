import Mathlib.Tactic.NormNum
import Mathlib.Tactic.Ring
import Mathlib.Tactic.Linarith
import Mathlib.Tactic.FieldSimp
import Verif.Geometry.TurnTheorems
import Verif.Pedestrian.Spec
/-
Pedestrians who walk straight on.
-/
namespace Verif.Pedestrian
open Classical Spec

/-! ### Who is in front -/

theorem front_iff (b : Body) (p : Point) :
    isPointInFront b p ↔ 0 ≤ Real.cos (Geometry.atan2 (p.2 - b.y) (p.1 - b.x) - b.yaw) := by
  unfold isPointInFront
  simp only [Geometry.atan2]
  rw [Complex.abs_arg_le_pi_div_two_iff]

theorem ahead_eq (b : Body) (p : Point) :
    ahead b p = Real.sqrt ((p.1 - b.x) ^ 2 + (p.2 - b.y) ^ 2) * Real.cos (Geometry.atan2 (p.2 - b.y) (p.1 - b.x) - b.yaw) := by
  have hc := Geometry.atan2_cos (y := p.2 - b.y) (x := p.1 - b.x)
  have hs := Geometry.atan2_sin (y := p.2 - b.y) (x := p.1 - b.x)
  rw [Real.cos_sub, mul_add, ← mul_assoc, ← mul_assoc, hc, hs]
  rfl

theorem radius_pos (b : Body) (p : Point) (h : p ≠ (b.x, b.y)) : 0 < Real.sqrt ((p.1 - b.x) ^ 2 + (p.2 - b.y) ^ 2) := by
  apply Real.sqrt_pos.2
  by_contra hc
  have h1 := sq_nonneg (p.1 - b.x)
  have h2 := sq_nonneg (p.2 - b.y)
  have e1 : (p.1 - b.x) ^ 2 = 0 := by linarith
  have e2 : (p.2 - b.y) ^ 2 = 0 := by linarith
  apply h
  rw [pow_eq_zero_iff (by norm_num)] at e1 e2
  exact Prod.ext (by simp only; linarith) (by simp only; linarith)

/-- **C160 (in front).** A point is in front of a pedestrian exactly if it is not behind the line across the pedestrian's position. -/
theorem C160_front (b : Body) (p : Point) (h : p ≠ (b.x, b.y)) : isPointInFront b p ↔ 0 ≤ ahead b p := by
  rw [front_iff, ahead_eq]
  exact (mul_nonneg_iff_of_pos_left (radius_pos b p h)).symm

/-- **C160 is violated** for an entity at the same place: whether it counts as in front depends on the direction in which the pedestrian looks on the map. -/
theorem C160_same_place_violated (b : Body) : isPointInFront b (b.x, b.y) ↔ 0 ≤ Real.cos b.yaw := by
  rw [front_iff]
  simp [Geometry.atan2, Complex.arg]

theorem sq_one (a : ℝ) : Real.cos a * Real.cos a + Real.sin a * Real.sin a = 1 := by
  have := Real.sin_sq_add_cos_sq a
  nlinarith [this]

theorem ahead_point (b : Body) (x y : ℝ) : ahead b (point b x y) = x := by
  unfold ahead point
  have h := sq_one b.yaw
  simp only
  linear_combination x * h

theorem leftward_point (b : Body) (x y : ℝ) : leftward b (point b x y) = y := by
  unfold leftward point
  have h := sq_one b.yaw
  simp only
  linear_combination y * h

theorem point_ne (b : Body) (x y : ℝ) (h : x ≠ 0 ∨ y ≠ 0) : point b x y ≠ (b.x, b.y) := by
  intro e
  have h1 := ahead_point b x y
  have h2 := leftward_point b x y
  rw [e] at h1 h2
  simp [ahead, leftward] at h1 h2
  rcases h with h | h
  · exact h h1.symm
  · exact h h2.symm

theorem toWorld_eq (b : Body) (x y : ℝ) : toWorld b (x, y) = point b x y := by
  unfold toWorld point; ext <;> simp only <;> ring

theorem corners_eq (b : Body) : corners b =
    [point b (b.cx + b.length / 2) (b.cy + b.width / 2), point b (b.cx - b.length / 2) (b.cy + b.width / 2),
    point b (b.cx - b.length / 2) (b.cy - b.width / 2), point b (b.cx + b.length / 2) (b.cy - b.width / 2)] := by
  simp only [corners, toWorld_eq, mul_one_div]

theorem translate_eq (b : Body) (x y h : ℝ) : translatePoint (point b x y) b.yaw h = point b (x + h) y := by
  unfold translatePoint point; ext <;> simp only <;> ring

theorem area_eq (b : Body) (h : ℝ) (hb : Usual b) : ring (areaPoints b h) = .ok (area b h) := by
  obtain ⟨h1, h2, h3, h4⟩ := hb
  have f0 : isPointInFront b (point b (b.cx + b.length / 2) (b.cy + b.width / 2)) := by
    rw [C160_front _ _ (point_ne b _ _ h3.symm), ahead_point]; exact h1
  have f3 : isPointInFront b (point b (b.cx + b.length / 2) (b.cy - b.width / 2)) := by
    rw [C160_front _ _ (point_ne b _ _ h4.symm), ahead_point]; exact h1
  have f1 : ¬ isPointInFront b (point b (b.cx - b.length / 2) (b.cy + b.width / 2)) := by
    rw [C160_front _ _ (point_ne b _ _ (.inl h2.ne)), ahead_point]; exact not_le.2 h2
  have f2 : ¬ isPointInFront b (point b (b.cx - b.length / 2) (b.cy - b.width / 2)) := by
    rw [C160_front _ _ (point_ne b _ _ (.inl h2.ne)), ahead_point]; exact not_le.2 h2
  unfold areaPoints
  rw [corners_eq]
  simp only [List.filter_cons, f0, f1, f2, f3, decide_true, decide_false, List.filter_nil, if_true, Bool.false_eq_true, if_false,
    List.flatMap_cons, List.flatMap_nil, translate_eq, List.append_nil, List.cons_append, List.nil_append, ring, area]

theorem outline_eq (o : Body) : ring (corners o) = .ok (outline o) := by
  rw [corners_eq]; rfl

theorem distance_le {b o : Body} {h : ℝ} (hh : 0 ≤ h) : distance b o ≤ h ↔ (o.x - b.x) ^ 2 + (o.y - b.y) ^ 2 + (o.z - b.z) ^ 2 ≤ h ^ 2 :=
  Real.sqrt_le_left hh

theorem colliding_eq (g : Boost) (hg : Lawful g) (b o : Body) (h : ℝ) (hb : Usual b) :
    isEntityColliding g b h o = .ok (g.intersects (area b h) (outline o)) := by
  unfold isEntityColliding
  rw [area_eq b h hb, outline_eq]
  simp only [bind, Except.bind, pure, Except.pure]
  rw [hg.symm (outline o), hg.not]
  cases g.intersects (area b h) (outline o) <;> rfl

theorem among_eq (g : Boost) (hg : Lawful g) (b : Body) (h : ℝ) (hh : 0 ≤ h) (hb : Usual b) (os : List Body) (hs : ∀ o ∈ os, (o.x, o.y) ≠ (b.x, b.y)) :
    obstacleAmong g b h os = .ok (decide (∃ o ∈ os, Seen g b h o)) := by
  induction os with
  | nil => simp [obstacleAmong]
  | cons o os ih =>
    have ih := ih fun o ho => hs o (List.mem_cons_of_mem _ ho)
    have ho := hs o List.mem_cons_self
    unfold obstacleAmong
    simp only [C160_front b _ ho, distance_le hh]
    by_cases hc : (o.x - b.x) ^ 2 + (o.y - b.y) ^ 2 + (o.z - b.z) ^ 2 ≤ h ^ 2 ∧ 0 ≤ ahead b (o.x, o.y)
    · rw [if_pos hc, colliding_eq g hg b o h hb]
      simp only [bind, Except.bind, pure, Except.pure]
      cases hi : g.intersects (area b h) (outline o)
      · simp only [Bool.false_eq_true, if_false]
        rw [ih]
        congr 1
        rw [decide_eq_decide]
        simp only [List.mem_cons, exists_eq_or_imp, Seen, hi, Bool.false_eq_true, and_false, false_or]
      · simp only [if_true, List.mem_cons, exists_eq_or_imp, Seen, hi, and_true]
        rw [decide_eq_true (.inl hc)]
    · rw [if_neg hc, ih]
      simp only [List.mem_cons, exists_eq_or_imp]
      have : ¬ Seen g b h o := fun hn => hc ⟨hn.1, hn.2.1⟩
      simp only [this, false_or]

/-- **C160 (stopping).** A pedestrian who walks straight on and looks around is to stop exactly if somebody is in front, no further away than it takes to stop with the pedestrian's
length and two metres more, and intersects the area; otherwise the pedestrian is to walk at the speed asked for, or at 1.111 m/s. -/
theorem C160_stops (g : Boost) (hg : Lawful g) (v : View) (hv : Looks v) (b : Body) (hb : Usual b) (hh : 0 ≤ v.stopDistance + b.length + 2) (os : List Body)
    (hs : ∀ o ∈ os, (o.x, o.y) ≠ (b.x, b.y)) (t : ℝ) (ht : v.target = some t ∨ v.target = none ∧ t = 1.111) :
    walkSpeed g v b os = .ok (if ∃ o ∈ os, Seen g b (v.stopDistance + b.length + 2) o then 0 else t) := by
  obtain ⟨h1, h2, h3⟩ := hv
  have ht' : v.target.getD (1111 / 1000) = t := by
    rcases ht with ht | ⟨ht, e⟩
    · rw [ht]; rfl
    · rw [ht, e]; norm_num
  unfold walkSpeed isObstacleInFront
  rw [h1, h2, h3, ht']
  simp only [Bool.not_true, Bool.or_self, Bool.false_eq_true, if_false]
  rw [among_eq g hg b _ hh hb os hs]
  simp only [bind, Except.bind, pure, Except.pure, decide_eq_true_eq]

/-- **C160 (looking).** Pedestrians are blind unless the parameter says otherwise, and then, or if the scenario says that they do not look around, they stop for nobody. -/
theorem C160_blind (g : Boost) (v : View) (b : Body) (os : List Body) :
    parseMode none = .ok false ∧ (v.aware = false ∨ v.seeAround = false → walkSpeed g v b os = .ok (v.target.getD 1.111)) := by
  refine ⟨rfl, fun h => ?_⟩
  have e : (1.111 : ℝ) = 1111 / 1000 := by norm_num
  unfold walkSpeed isObstacleInFront
  rw [e]
  rcases h with h | h <;> rw [h] <;> simp [bind, Except.bind, pure, Except.pure]

/-- **C160 (looking along waypoints).** If entities are looked for along the waypoints, the pedestrian is to stop exactly if one is found there. -/
theorem C160_waypoints (g : Boost) (v : View) (b : Body) (os : List Body) (t : ℝ) (h1 : v.aware = true) (h2 : v.seeAround = true) (h3 : v.byTrajectory = true)
    (ht : v.target = some t) : walkSpeed g v b os = .ok (if v.trajectoryFront = true then 0 else t) := by
  unfold walkSpeed isObstacleInFront
  rw [h1, h2, h3, ht]
  rfl

/-- **C160 (modes).** The parameter is "blind" or "aware"; anything else is an error. -/
theorem C160_modes (s : String) (b : Bool) : parseMode (some s) = .ok b ↔ s = "blind" ∧ b = false ∨ s = "aware" ∧ b = true := by
  unfold parseMode
  split
  · simp_all
  · simp_all
  · simp_all
  · simp_all

/-- **C160 is violated** for the shape of the area: whatever the pedestrian, the second and the fourth side of the ring cross each other in the middle of the strip in front. -/
theorem C160_area_violated (b : Body) (h : ℝ) :
    ∃ p q r s, area b h = [p, q, r, s, p] ∧ ∃ c, c = point b (b.cx + b.length / 2 + h / 2) b.cy ∧ Between q r c ∧ Between s p c := by
  refine ⟨_, _, _, _, rfl, _, rfl, ⟨1 / 2, by norm_num, by norm_num, ?_⟩, ⟨1 / 2, by norm_num, by norm_num, ?_⟩⟩ <;>
    (unfold point; ext <;> simp only <;> ring)

/-- a pedestrian at the origin who looks along the x-axis -/
noncomputable def somebody : Body := ⟨0, 0, 0, 0, 0, 0, 8 / 10, 8 / 10, false, none⟩

/-- a post of 20 cm, four metres away -/
noncomputable def post : Body := ⟨4, 0, 0, 0, 0, 0, 2 / 10, 2 / 10, false, none⟩

noncomputable def look : View := ⟨true, true, false, false, 12 / 10, some 1, [], 1⟩

theorem point_somebody (x y : ℝ) : point somebody x y = (x, y) := by simp [point, somebody]

theorem point_post (x y : ℝ) : point post x y = (4 + x, y) := by simp [point, post]

theorem usual_somebody : Usual somebody := by
  unfold Usual somebody; norm_num

theorem area_somebody : area somebody 4 = [(4 / 10, 4 / 10), (44 / 10, 4 / 10), (4 / 10, -4 / 10), (44 / 10, -4 / 10), (4 / 10, 4 / 10)] := by
  unfold area
  simp only [point_somebody]
  norm_num [somebody]

theorem outline_post : outline post = [(41 / 10, 1 / 10), (39 / 10, 1 / 10), (39 / 10, -1 / 10), (41 / 10, -1 / 10), (41 / 10, 1 / 10)] := by
  unfold outline
  simp only [point_post]
  norm_num [post]

theorem passes_zero (p a b : Point) (h1 : ¬ (a.2 ≤ p.2 ∧ p.2 < b.2 ∧ 0 < turn a b p)) (h2 : ¬ (b.2 ≤ p.2 ∧ p.2 < a.2 ∧ turn a b p < 0)) :
    passes p (a, b) = 0 := by
  unfold passes
  rw [if_neg h1, if_neg h2]

theorem passes_up (p a b : Point) (h : a.2 ≤ p.2 ∧ p.2 < b.2 ∧ 0 < turn a b p) : passes p (a, b) = 1 := by
  unfold passes
  rw [if_pos h]

theorem passes_down (p a b : Point) (h : b.2 ≤ p.2 ∧ p.2 < a.2 ∧ turn a b p < 0) : passes p (a, b) = -1 := by
  unfold passes
  rw [if_neg (by intro hn; linarith [h.1, h.2.1, hn.1, hn.2.1]), if_pos h]

theorem passes_flat (p : Point) (x x' y : ℝ) : passes p ((x, y), (x', y)) = 0 :=
  passes_zero p _ _ (by intro hn; linarith [hn.1, hn.2.1]) (by intro hn; linarith [hn.1, hn.2.1])

theorem covered_post {p : Point} (h : Covered (outline post) p) : 39 / 10 ≤ p.1 ∧ p.1 ≤ 41 / 10 ∧ -1 / 10 ≤ p.2 ∧ p.2 ≤ 1 / 10 := by
  rw [outline_post] at h
  rcases h with ⟨s, hs, t, h0, h1, e⟩ | h
  · simp only [sides, List.tail_cons, List.zip_cons_cons, List.zip_nil_right, List.mem_cons, List.not_mem_nil, or_false] at hs
    rw [e]
    rcases hs with rfl | rfl | rfl | rfl <;> refine ⟨?_, ?_, ?_, ?_⟩ <;> simp only <;> linarith
  · simp only [winding, sides, List.tail_cons, List.zip_cons_cons, List.zip_nil_right, List.map_cons, List.map_nil, List.sum_cons, List.sum_nil] at h
    rw [passes_flat, passes_flat] at h
    by_contra hc
    apply h
    by_cases hy : -1 / 10 ≤ p.2 ∧ p.2 < 1 / 10
    · by_cases h1 : p.1 < 39 / 10
      · rw [passes_down _ _ _ ⟨hy.1, hy.2, by simp only [turn]; linarith⟩, passes_up _ _ _ ⟨hy.1, hy.2, by simp only [turn]; linarith⟩]; norm_num
      · by_cases h2 : p.1 ≤ 41 / 10
        · exact absurd ⟨by linarith, h2, hy.1, hy.2.le⟩ hc
        · rw [passes_zero, passes_zero]
          · norm_num
          all_goals (simp only [turn]; rintro ⟨a1, a2, a3⟩; linarith)
    · rw [passes_zero, passes_zero]
      · norm_num
      all_goals (rintro ⟨a1, a2, a3⟩; simp only at a1 a2; first | linarith | exact hy ⟨a1, a2⟩)

theorem area_misses {p : Point} (h1 : 39 / 10 ≤ p.1) (h2 : p.1 ≤ 41 / 10) (h3 : -1 / 10 ≤ p.2) (h4 : p.2 ≤ 1 / 10) : ¬ Covered (area somebody 4) p := by
  rw [area_somebody]
  rintro (⟨s, hs, t, t0, t1, e⟩ | h)
  · simp only [sides, List.tail_cons, List.zip_cons_cons, List.zip_nil_right, List.mem_cons, List.not_mem_nil, or_false] at hs
    rw [e] at h1 h2 h3 h4
    rcases hs with rfl | rfl | rfl | rfl <;> simp only at h1 h2 h3 h4 <;> linarith
  · apply h
    simp only [winding, sides, List.tail_cons, List.zip_cons_cons, List.zip_nil_right, List.map_cons, List.map_nil, List.sum_cons, List.sum_nil]
    rw [passes_flat, passes_flat]
    rw [passes_zero, passes_zero]
    · norm_num
    all_goals (simp only [turn]; rintro ⟨a1, a2, a3⟩; linarith)

/-- **C160 is violated** for something narrow: a post straight ahead, all of it in the strip in front of the pedestrian, is not seen, and the pedestrian walks on, however rings that
cross themselves are treated by Boost, as long as it finds no intersection where there is no common point. -/
theorem C160_narrow_violated (g : Boost) (hg : Lawful g) (hh : Honest g) :
    Looks look ∧ Usual somebody ∧ look.stopDistance + somebody.length + 2 = 4 ∧ distance somebody post ≤ 4 ∧
      (∀ p, Covered (outline post) p → InStrip somebody 4 p) ∧ walkSpeed g look somebody [post] = .ok 1 := by
  have h4 : look.stopDistance + somebody.length + 2 = 4 := by norm_num [look, somebody]
  refine ⟨⟨rfl, rfl, rfl⟩, usual_somebody, h4, ?_, ?_, ?_⟩
  · rw [distance_le (by norm_num)]; norm_num [somebody, post]
  · intro p hp
    obtain ⟨h1, h2, h3, h4⟩ := covered_post hp
    simp only [InStrip, ahead, leftward, somebody, Real.cos_zero, Real.sin_zero]
    refine ⟨?_, ?_, ?_, ?_⟩ <;> linarith
  · rw [C160_stops g hg look ⟨rfl, rfl, rfl⟩ somebody usual_somebody (by rw [h4]; norm_num) [post] (by simp [post, somebody]) 1 (.inl rfl), h4, if_neg]
    rintro ⟨o, ho, -, -, hi⟩
    rw [List.mem_singleton] at ho
    subst ho
    obtain ⟨p, ha, hp⟩ := hh _ _ hi
    obtain ⟨h1, h2, h3, h4⟩ := covered_post hp
    exact area_misses h1 h2 h3 h4 ha

/-- The hypotheses of `C160_stops` are met, and there is somebody to stop for: rings are said to intersect always. -/
example : walkSpeed ⟨fun _ _ => true, fun _ _ => false⟩ look somebody [post] = .ok 0 := by
  have h4 : look.stopDistance + somebody.length + 2 = 4 := by norm_num [look, somebody]
  rw [C160_stops _ ⟨fun _ _ => rfl, fun _ _ => rfl⟩ look ⟨rfl, rfl, rfl⟩ somebody usual_somebody (by rw [h4]; norm_num) [post] (by simp [post, somebody]) 1 (.inl rfl), h4, if_pos]
  exact ⟨post, List.mem_singleton.2 rfl, by norm_num [somebody, post], by norm_num [ahead, somebody, post], rfl⟩

end Verif.Pedestrian
