import Verif.Follow.WayTheorems
/-
C113: where an entity that follows a trajectory goes, that a call returns, and where following fails.
-/
namespace Verif.Follow
open Classical Verif.Geometry Spec

theorem towards_eq (w : World) (s : Status) (p : Pt) (m : ℝ) (hl : s.onLane = false) (hp : p ≠ s.pos) :
    0 < (p.sub s.pos).norm ∧ towards w s p m = (p.sub s.pos).smul (m / (p.sub s.pos).norm) := by
  have hpos : 0 < (p.sub s.pos).norm := by
    rw [Pt.norm]
    apply Real.sqrt_pos.2
    by_contra hn
    apply hp
    have h1 := sq_nonneg (p.sub s.pos).x
    have h2 := sq_nonneg (p.sub s.pos).y
    have h3 := sq_nonneg (p.sub s.pos).z
    have e1 : (p.sub s.pos).x = 0 := pow_eq_zero_iff (two_ne_zero) |>.1 (by linarith)
    have e2 : (p.sub s.pos).y = 0 := pow_eq_zero_iff (two_ne_zero) |>.1 (by linarith)
    have e3 : (p.sub s.pos).z = 0 := pow_eq_zero_iff (two_ne_zero) |>.1 (by linarith)
    simp only [Pt.sub] at e1 e2 e3
    ext <;> linarith
  refine ⟨hpos, ?_⟩
  simp only [towards, hl, Bool.false_eq_true, if_false]
  generalize hd : p.sub s.pos = d at *
  have c1 := @atan2_cos d.y d.x
  have c2 := @atan2_sin d.y d.x
  have c3 := @atan2_cos d.z (Real.sqrt (d.x ^ 2 + d.y ^ 2))
  have c4 := @atan2_sin d.z (Real.sqrt (d.x ^ 2 + d.y ^ 2))
  have hn : Real.sqrt (Real.sqrt (d.x ^ 2 + d.y ^ 2) ^ 2 + d.z ^ 2) = d.norm := by
    rw [Real.sq_sqrt (by positivity), Pt.norm]
  rw [hn] at c3 c4
  generalize Real.sqrt (d.x ^ 2 + d.y ^ 2) = h at *
  generalize Real.cos (atan2 d.y d.x) = cy at *
  generalize Real.sin (atan2 d.y d.x) = sy at *
  generalize Real.cos (atan2 d.z h) = cp at *
  generalize Real.sin (atan2 d.z h) = sp at *
  have hne : d.norm ≠ 0 := hpos.ne'
  simp only [Pt.smul, Pt.mk.injEq]
  refine ⟨?_, ?_, ?_⟩ <;> field_simp
  · rw [← c1, ← c3]; ring
  · rw [← c2, ← c3]; ring
  · rw [← c4]; ring

/-- C113: an entity that is not on a lane moves straight towards the target waypoint, unless it is at its end and only brakes; the new speed is the one the controller
gives for the waypoint that decides. It is turned along the line from the previous waypoint to the target. -/
theorem C113_direction (w : World) (b : Param) (dt : ℝ) (target : Option ℝ) (s s' : Status) (hdt : 0 ≤ dt) (t t' : Traj)
    (h : follow w b dt target s t = some (.ok (some s', t'))) (v₀ v₁ : Vertex) (l : List Vertex) (hv : t'.vertices = v₀ :: v₁ :: l)
    (hfar : l ≠ [] ∨ 1 / 10 < w.dist s.pos v₁.pos) :
    ∃ a, Asked w b dt target s t' (v₁ :: l) a ∧ s'.vel.x = |s.vel.x + a * dt| ∧
      (s.onLane = false → v₁.pos ≠ s.pos → 1 / 10 ^ 15 ≤ s.vel.x + a * dt → ∃ k, 0 ≤ k ∧ s'.pos.sub s.pos = (v₁.pos.sub s.pos).smul k) ∧
      (1 / 10 ^ 15 ≤ (v₁.pos.sub v₀.pos).norm → rotate s'.orient ⟨(v₁.pos.sub v₀.pos).norm, 0, 0⟩ = v₁.pos.sub v₀.pos) := by
  obtain ⟨-, u₀, u₁, l', hv', ⟨hr, -⟩ | ⟨v, s', hr, hm, hc⟩⟩ := follow_cases w b dt target s hdt _ t t' h
  · cases hr
  cases hr
  rw [hv] at hv'
  simp only [List.cons.injEq] at hv'
  obtain ⟨rfl, rfl, rfl⟩ := hv'
  have hd : desired w b dt target s t' v₁ = .ok v := by
    rcases hc with ⟨rfl, hf⟩ | ⟨-, hi⟩
    · have hfar : 1 / 10 < w.dist s.pos v₁.pos := hfar.resolve_left (by simp)
      have hfar' : ¬ w.dist s.pos v₁.pos ≤ arrivalTol := by rw [arrivalTol]; linarith
      simp only [final] at hf
      rw [if_neg (fun h => hfar' h.2)] at hf
      split at hf
      · cases hf
      · cases hd : desired w b dt target s t' v₁ with
        | error e => rw [hd] at hf; cases hf
        | ok u => rw [hd] at hf; injection hf with hf; injection hf with hf; rw [hf]
    · simp only [intermediate] at hi
      split at hi
      · cases hi
      · rename_i u hd
        rw [hd]
        repeat' split at hi
        all_goals first | (cases hi; done) | skip
        all_goals (injection hi with hi; injection hi with hi; rw [hi])
  obtain ⟨a, ha, rfl⟩ := desired_asked _ _ _ _ _ _ _ _ hd
  rw [hv, List.drop_succ_cons, List.drop_zero] at ha
  simp only [move] at hm
  split at hm
  · cases hm
  injection hm with hm
  subst hm
  have he : eps < 1 / 10 ^ 15 := by rw [eps]; norm_num
  have he0 : 0 < eps := by rw [eps]; positivity
  refine ⟨a, ha, towards_norm _ _ _ _, ?_, ?_⟩
  · intro hl hp ha0
    obtain ⟨hn, e⟩ := towards_eq w s v₁.pos (s.vel.x + a * dt) hl hp
    have hnorm := towards_norm w s v₁.pos (s.vel.x + a * dt)
    have hm0 : 0 < s.vel.x + a * dt := by linarith
    rw [abs_of_pos hm0] at hnorm
    simp only [hl, Bool.false_eq_true, if_false, displacement, hnorm]
    rw [if_pos (by linarith), e]
    generalize s.vel.x + a * dt = m at *
    have hs := norm_nonneg' s.vel
    generalize hdd : v₁.pos.sub s.pos = d at *
    refine ⟨m / d.norm * (1 / m) * ((s.vel.norm + m) * (1 / 2) * dt), by positivity, ?_⟩
    simp only [Pt.sub, Pt.add, Pt.smul, Pt.mk.injEq]
    refine ⟨?_, ?_, ?_⟩ <;> ring
  · intro hn
    simp only [heading]
    rw [if_pos (by linarith)]
    exact (directionToQuat_forward _).2.1

/-- C113: a call returns, for every trajectory that is not closed. -/
theorem C113_returns (w : World) (b : Param) (dt : ℝ) (target : Option ℝ) (s : Status) (t : Traj) (hc : t.closed = false) : follow w b dt target s t ≠ none := by
  generalize hn : t.vertices.length = n
  induction n generalizing t with
  | zero =>
    rw [follow.eq_1, List.eq_nil_of_length_eq_zero hn]
    simp
  | succ n ih =>
    rw [follow.eq_1]
    split
    · rename_i v₀ v₁ l hv
      split
      · simp
      · simp
      · split <;> simp
      · apply ih
        · exact hc
        · rw [hv] at hn
          simp only [discard, hc, Bool.false_eq_true, if_false]
          simpa using hn
    · simp

theorem brake_speed (dt v r : ℝ) (hdt : 0 < dt) (hr : r ≠ 0) (hv : 0 < v) : 0 ≤ v + jerkAcc dt v 0 r * dt ∧ jerkAcc dt v 0 r < 0 := by
  obtain ⟨n, h1, -, h2⟩ := C109_partial dt v 0 r hdt hr
  obtain ⟨h3, h4, h5, -⟩ := h2 hv
  have hr' : 0 < |r| := abs_pos.2 hr
  have key : ∀ k, 1 ≤ k → k ≤ n → speedAfter dt v (jerkAcc dt v 0 r) (-|r|) k ≤ speedAfter dt v (jerkAcc dt v 0 r) (-|r|) 1 := by
    intro k hk
    induction k, hk using Nat.le_induction with
    | base => exact fun _ => le_refl _
    | succ k hk ih => exact fun hkn => (h4 k (by omega)).trans (ih (by omega))
  have h6 := key n h1 le_rfl
  rw [h3] at h6
  have h7 : speedAfter dt v (jerkAcc dt v 0 r) (-|r|) 1 = v + jerkAcc dt v 0 r * dt := by rw [speedAfter_eq]; push_cast; ring
  rw [h7] at h6
  refine ⟨h6, ?_⟩
  have hn : (0 : ℝ) ≤ |r| * dt * (n - 1) := by
    have : (1 : ℝ) ≤ n := by exact_mod_cast h1
    have : (0 : ℝ) ≤ n - 1 := by linarith
    positivity
  have h8 : jerkAcc dt v 0 r ≤ 0 := by linarith
  rcases h8.lt_or_eq with h9 | h9
  · exact h9
  · exfalso
    rw [h9] at h5 h3
    have h10 : |r| * dt * ((n : ℝ) - 1) = 0 := by linarith
    have h11 : (n : ℝ) - 1 = 0 := by
      rcases mul_eq_zero.1 h10 with h | h
      · exact absurd h (by positivity)
      · exact h
    rw [speedAfter_eq, show (n : ℝ) = 1 by linarith] at h3
    simp at h3
    linarith

/-- C113: within 0.1 of the last waypoint a moving entity brakes: it gets slower, by no more than its limit, and does not turn back. -/
theorem C113_brake (w : World) (b : Param) (dt : ℝ) (target : Option ℝ) (s s' : Status) (hdt : 0 < dt) (hr : b.maxDecRate ≠ 0) (hb : 0 < b.maxDec) (t t' : Traj)
    (h : follow w b dt target s t = some (.ok (some s', t'))) (v₀ v₁ : Vertex) (hv : t'.vertices = [v₀, v₁]) (hnear : w.dist s.pos v₁.pos ≤ 1 / 10) (hs : 1 / 10 ^ 12 ≤ s.vel.x) :
    0 ≤ s'.vel.x ∧ s'.vel.x < s.vel.x ∧ s.vel.x - b.maxDec * dt ≤ s'.vel.x := by
  obtain ⟨-, u₀, u₁, l', hv', ⟨hr, -⟩ | ⟨v, s', hr, hm, hc⟩⟩ := follow_cases w b dt target s hdt.le _ t t' h
  · cases hr
  cases hr
  rw [hv] at hv'
  simp only [List.cons.injEq] at hv'
  obtain ⟨rfl, rfl, rfl⟩ := hv'
  have hf := (hc.resolve_right (fun h => h.1 rfl)).2
  have hns : ¬ still s := fun h => by
    have := h.1
    rw [ε] at this
    exact absurd (le_abs_self s.vel.x) (by linarith)
  simp only [final] at hf
  rw [if_neg (fun h => hns h.1), if_neg (fun h => hns h.1.1), if_pos (by rw [arrivalTol]; exact hnear)] at hf
  injection hf with hf
  injection hf with hf
  subst hf
  simp only [move] at hm
  split at hm
  · cases hm
  injection hm with hm
  subst hm
  have hpos : 0 < s.vel.x := lt_of_lt_of_le (by norm_num) hs
  obtain ⟨h1, h2⟩ := brake_speed dt s.vel.x b.maxDecRate hdt hr hpos
  have h3 : s.vel.x + jerkAcc dt s.vel.x 0 b.maxDecRate * dt ≤ s.vel.x + max (jerkAcc dt s.vel.x 0 b.maxDecRate) (-b.maxDec) * dt := by
    have := mul_le_mul_of_nonneg_right (le_max_left (jerkAcc dt s.vel.x 0 b.maxDecRate) (-b.maxDec)) hdt.le
    linarith
  have h4 : -b.maxDec * dt ≤ max (jerkAcc dt s.vel.x 0 b.maxDecRate) (-b.maxDec) * dt := mul_le_mul_of_nonneg_right (le_max_right _ _) hdt.le
  have h5 : max (jerkAcc dt s.vel.x 0 b.maxDecRate) (-b.maxDec) * dt < 0 := mul_neg_of_neg_of_pos (max_lt h2 (by linarith)) hdt
  simp only [brakeVelocity, direct_norm]
  rw [abs_of_nonneg (by linarith)]
  exact ⟨by linarith, by linarith, by linarith⟩

/-- C113: an entity that stands at most 0.1 away from the last waypoint before its time waits there. -/
theorem C113_wait (w : World) (b : Param) (dt : ℝ) (target : Option ℝ) (s : Status) (hdt : 0 < dt) (t : Traj) (v₀ v₁ : Vertex) (hv : t.vertices = [v₀, v₁])
    (h1 : |s.vel.x| < 1 / 10 ^ 12) (h2 : |s.acc.x| < 1 / 10 ^ 12) (h3 : w.dist s.pos v₁.pos ≤ 1 / 10) (due : ℝ) (h4 : Due t v₁ due) (h5 : s.time + dt / 2 ≤ due) :
    ∃ s', follow w b dt target s t = some (.ok (some s', t)) ∧ s'.vel = ⟨0, 0, 0⟩ ∧ (s.onLane = false → (s'.pos.sub s.pos).norm = s.vel.norm / 2 * dt) := by
  obtain ⟨x, hx, rfl⟩ := h4
  have hne : t.base.getD 0 + x - s.time ≠ 0 := by linarith
  have hf : final w b dt target s t v₀ v₁ = .ok (.go ⟨0, 0, 0⟩) := by
    have hs : still s ∧ w.dist s.pos v₁.pos ≤ arrivalTol := ⟨⟨h1, h2⟩, h3⟩
    simp only [final]
    rw [if_pos hs]
    simp only [remaining, hx, Option.map_some]
    rw [if_pos hne, if_neg]
    intro h
    have := less_lt h
    linarith
  have hz : (Pt.mk 0 0 0).norm = 0 := by simp [Pt.norm]
  have hm : ∃ s', move w dt s t v₀ v₁ ⟨0, 0, 0⟩ = .ok s' := by
    simp only [move]
    rw [if_neg]
    · exact ⟨_, rfl⟩
    · rintro ⟨r, hr, hlt⟩
      simp only [remainingTimed, remaining, hv, List.drop_succ_cons, List.drop_zero, nearestTimed, hx, Option.map_some, Option.some.injEq] at hr
      rw [if_pos hne] at hr
      linarith
  obtain ⟨s', hm⟩ := hm
  have hfol : follow w b dt target s t = some (.ok (some s', t)) := by
    rw [follow.eq_1, hv]
    simp only [List.isEmpty_nil, if_true, hf, hm]
  have hmove := C113_move w b dt target s s' hdt.le t t hfol
  have hv0 : s'.vel = ⟨0, 0, 0⟩ := by
    simp only [move] at hm
    split at hm
    · cases hm
    · injection hm with hm
      subst hm
      rw [hz]
  refine ⟨s', hfol, hv0, fun hl => ?_⟩
  rw [hmove.2.2.2.2.2.1 hl, hv0]
  simp

/-- A world without lanes, for the concrete cases. -/
noncomputable def field : World := ⟨distance, fun _ _ _ _ => none, fun _ => 0, fun _ => 0⟩

/-- An entity at the origin with the given speed, and a vehicle that goes 1 at most and changes its acceleration by 1 per second. -/
def atOrigin (v : ℝ) : Status := ⟨0, ⟨0, 0, 0⟩, ⟨0, 0, 0, 1⟩, ⟨v, 0, 0⟩, ⟨0, 0, 0⟩, false⟩
def slow : Param := ⟨1, 10, 1, 10, 1⟩

theorem slow_acceleration (f : Bool) (time : Option ℝ) (d : ℝ) : acceleration (Ctrl.make 1 f 1 10 1 10 1 none) time d 0 5 = some (-1) := by
  rw [acceleration, if_neg (by simp only [Ctrl.make]; norm_num), if_pos (by simp only [Ctrl.make, Option.getD]; norm_num)]
  simp only [Ctrl.make]
  norm_num

theorem slow_desired (t : Traj) (v₁ : Vertex) (hg : t.ignorable = true) (d : ℝ) (hd : distanceTimed field ⟨0, 0, 0⟩ (t.vertices.drop 1) = some d) :
    desired field slow 1 none (atOrigin 5) t v₁ = .ok (towards field (atOrigin 5) v₁.pos 4) := by
  simp only [desired, hg, Bool.true_eq_false, if_false, ite_self]
  have h := slow_acceleration (timedFinal (t.vertices.drop 1)) (remainingTimed t.base (atOrigin 5).time (t.vertices.drop 1)) d
  simp only [slow, atOrigin] at h ⊢
  rw [hd]
  simp only [h]
  norm_num

theorem five_norm : (atOrigin 5).vel.norm = 5 := by
  simp only [atOrigin, Pt.norm]
  norm_num
  rw [show (25 : ℝ) = 5 ^ 2 by norm_num, Real.sqrt_sq (by norm_num)]

theorem line_distance (x y : ℝ) : distance ⟨x, 0, 0⟩ ⟨y, 0, 0⟩ = |x - y| := by
  simp only [distance]
  rw [← Real.sqrt_sq_eq_abs]
  congr 1
  ring

/-- A concrete case: at speed 5, braking to 4, the waypoint at distance 1 is left behind and the entity goes on to the one at distance 10. -/
theorem pass_case : ∃ s', follow field slow 1 none (atOrigin 5) ⟨none, true, false, [⟨⟨0, 0, 0⟩, none⟩, ⟨⟨1, 0, 0⟩, none⟩, ⟨⟨10, 0, 0⟩, none⟩]⟩ =
    some (.ok (some s', ⟨none, true, false, [⟨⟨1, 0, 0⟩, none⟩, ⟨⟨10, 0, 0⟩, none⟩]⟩)) ∧ s'.vel.x = 4 := by
  have e1 : distance ⟨0, 0, 0⟩ ⟨1, 0, 0⟩ = 1 := by rw [line_distance]; norm_num
  have e2 : distance ⟨0, 0, 0⟩ ⟨10, 0, 0⟩ = 10 := by rw [line_distance]; norm_num
  have h1 : intermediate field slow 1 none (atOrigin 5) ⟨none, true, false, [⟨⟨0, 0, 0⟩, none⟩, ⟨⟨1, 0, 0⟩, none⟩, ⟨⟨10, 0, 0⟩, none⟩]⟩ ⟨⟨1, 0, 0⟩, none⟩ = .ok .next := by
    simp only [intermediate]
    rw [slow_desired _ _ rfl _ rfl]
    simp only [displacement_norm field 1 (atOrigin 5) _ zero_le_one, towards_norm, five_norm, remaining, Option.map_none]
    rw [if_pos]
    left
    simp only [field, atOrigin, e1]
    norm_num
  have h2 : final field slow 1 none (atOrigin 5) ⟨none, true, false, [⟨⟨1, 0, 0⟩, none⟩, ⟨⟨10, 0, 0⟩, none⟩]⟩ ⟨⟨1, 0, 0⟩, none⟩ ⟨⟨10, 0, 0⟩, none⟩ =
      .ok (.go (towards field (atOrigin 5) ⟨10, 0, 0⟩ 4)) := by
    have hfar : ¬ field.dist (atOrigin 5).pos ⟨10, 0, 0⟩ ≤ arrivalTol := by simp only [field, atOrigin, e2, arrivalTol]; norm_num
    have hs : ¬ still (atOrigin 5) := by rintro ⟨h, -⟩; simp only [atOrigin, ε] at h; norm_num at h
    simp only [final]
    rw [if_neg (fun h => hs h.1), if_neg (fun h => hs h.1.1), if_neg hfar, slow_desired _ _ rfl _ rfl]
    rfl
  have h3 : ∃ s', move field 1 (atOrigin 5) ⟨none, true, false, [⟨⟨1, 0, 0⟩, none⟩, ⟨⟨10, 0, 0⟩, none⟩]⟩ ⟨⟨1, 0, 0⟩, none⟩ ⟨⟨10, 0, 0⟩, none⟩
      (towards field (atOrigin 5) ⟨10, 0, 0⟩ 4) = .ok s' ∧ s'.vel.x = 4 := by
    simp only [move]
    rw [if_neg (by simp [remainingTimed, nearestTimed, remaining])]
    exact ⟨_, rfl, by rw [towards_norm]; norm_num⟩
  obtain ⟨s', h3, h4⟩ := h3
  refine ⟨s', ?_, h4⟩
  rw [follow.eq_1]
  simp only [List.isEmpty_cons, Bool.false_eq_true, if_false, h1, discard, Option.isSome, Bool.and_false]
  rw [follow.eq_1]
  simp only [List.isEmpty_nil, if_true, h2, h3]

theorem leaves_may {now : ℝ} {may : Traj → Prop} {t t' : Traj} (h : Leaves now may t t') (hne : t ≠ t') : may t := by
  cases h with
  | none => exact absurd rfl hne
  | one hm _ _ => exact hm

example : ∃ s', follow field slow 1 none (atOrigin 5) ⟨none, true, false, [⟨⟨0, 0, 0⟩, none⟩, ⟨⟨1, 0, 0⟩, none⟩, ⟨⟨10, 0, 0⟩, none⟩]⟩ =
    some (.ok (some s', ⟨none, true, false, [⟨⟨1, 0, 0⟩, none⟩, ⟨⟨10, 0, 0⟩, none⟩]⟩)) ∧ (1 / 10 : ℝ) < field.dist (atOrigin 5).pos ⟨10, 0, 0⟩ ∧
    MayLeave field slow 1 none (atOrigin 5) ⟨none, true, false, [⟨⟨0, 0, 0⟩, none⟩, ⟨⟨1, 0, 0⟩, none⟩, ⟨⟨10, 0, 0⟩, none⟩]⟩ := by
  obtain ⟨s', h, -⟩ := pass_case
  refine ⟨s', h, by simp only [field, atOrigin, line_distance]; norm_num, ?_⟩
  exact leaves_may (C113_order _ _ _ _ _ zero_le_one _ _ _ h) (by simp)

/-- A concrete case of the end, of waiting for the time, and of braking. -/
example : (∃ t', follow field slow 1 none (atOrigin 0) ⟨none, true, false, [⟨⟨1, 0, 0⟩, none⟩, ⟨⟨0, 0, 0⟩, none⟩]⟩ = some (.ok (none, t'))) ∧
    (∃ s' t', follow field slow 1 none (atOrigin 0) ⟨none, true, false, [⟨⟨1, 0, 0⟩, none⟩, ⟨⟨0, 0, 0⟩, some 7⟩]⟩ = some (.ok (some s', t')) ∧ s'.vel = ⟨0, 0, 0⟩) ∧
    (∃ s' t', follow field slow 1 none (atOrigin 5) ⟨none, true, false, [⟨⟨1, 0, 0⟩, none⟩, ⟨⟨0, 0, 0⟩, none⟩]⟩ = some (.ok (some s', t'))) := by
  have e0 : (field.dist (atOrigin 0).pos ⟨0, 0, 0⟩ : ℝ) ≤ 1 / 10 := by simp only [field, atOrigin, line_distance]; norm_num
  have e5 : (field.dist (atOrigin 5).pos ⟨0, 0, 0⟩ : ℝ) ≤ 1 / 10 := by simp only [field, atOrigin, line_distance]; norm_num
  refine ⟨⟨_, C113_done_now field slow 1 none (atOrigin 0) (by norm_num) _ _ _ rfl (by simp [atOrigin]) (by simp [atOrigin]) e0 ?_⟩, ?_, ?_⟩
  · rintro due ⟨x, hx, -⟩
    cases hx
  · obtain ⟨s', h, h', -⟩ := C113_wait field slow 1 none (atOrigin 0) one_pos ⟨none, true, false, [⟨⟨1, 0, 0⟩, none⟩, ⟨⟨0, 0, 0⟩, some 7⟩]⟩ _ _ rfl (by simp [atOrigin])
      (by simp [atOrigin]) e0 7 ⟨7, rfl, by simp⟩ (by simp only [atOrigin]; norm_num)
    exact ⟨s', _, h, h'⟩
  · have hs : ¬ still (atOrigin 5) := by rintro ⟨h, -⟩; simp only [atOrigin, ε] at h; norm_num at h
    have hf : final field slow 1 none (atOrigin 5) ⟨none, true, false, [⟨⟨1, 0, 0⟩, none⟩, ⟨⟨0, 0, 0⟩, none⟩]⟩ ⟨⟨1, 0, 0⟩, none⟩ ⟨⟨0, 0, 0⟩, none⟩ =
        .ok (.go (brakeVelocity field slow 1 (atOrigin 5).vel.x (atOrigin 5).orient)) := by
      simp only [final]
      rw [if_neg (fun h => hs h.1), if_neg (fun h => hs h.1.1), if_pos (show _ ≤ arrivalTol by rw [arrivalTol]; exact e5)]
    have hm : ∃ s', move field 1 (atOrigin 5) ⟨none, true, false, [⟨⟨1, 0, 0⟩, none⟩, ⟨⟨0, 0, 0⟩, none⟩]⟩ ⟨⟨1, 0, 0⟩, none⟩ ⟨⟨0, 0, 0⟩, none⟩
        (brakeVelocity field slow 1 (atOrigin 5).vel.x (atOrigin 5).orient) = .ok s' := by
      simp only [move]
      rw [if_neg (by simp [remainingTimed, nearestTimed, remaining])]
      exact ⟨_, rfl⟩
    obtain ⟨s', hm⟩ := hm
    refine ⟨s', ⟨none, true, false, [⟨⟨1, 0, 0⟩, none⟩, ⟨⟨0, 0, 0⟩, none⟩]⟩, ?_⟩
    rw [follow.eq_1]
    simp only [List.isEmpty_nil, if_true, hf, hm]

/-- C113 is violated by closed trajectories: with three or more waypoints where the entity is, the recursion never ends. -/
theorem C113_closed_violated (vs : List Vertex) (h3 : 3 ≤ vs.length) (hv : ∀ v ∈ vs, v.pos = ⟨0, 0, 0⟩ ∧ v.time = none) :
    follow field slow 1 none (atOrigin 5) ⟨none, true, true, vs⟩ = none := by
  cases h : follow field slow 1 none (atOrigin 5) ⟨none, true, true, vs⟩ with
  | none => rfl
  | some r =>
    exfalso
    refine follow.partial_correctness field slow 1 none (atOrigin 5)
      (fun t _ => t.ignorable = true → t.closed = true → 3 ≤ t.vertices.length → (∀ v ∈ t.vertices, v.pos = ⟨0, 0, 0⟩ ∧ v.time = none) → False) ?_ _ _ h rfl rfl h3 hv
    clear h h3 hv r vs
    intro rec ih t r h hg hc hl hv
    have hpath : ∀ (l : List Vertex) (n : ℕ) (p : Pt), n < l.length → ∃ d, pathTo field p l n = some d := by
      intro l
      induction l with
      | nil => intro n p hn; simp at hn
      | cons v l ih =>
        intro n p hn
        cases n with
        | zero => exact ⟨_, rfl⟩
        | succ n =>
          obtain ⟨d, hd⟩ := ih n v.pos (by simpa using hn)
          exact ⟨_, by rw [pathTo, hd, Option.map_some]⟩
    split at h
    · rename_i v₀ v₁ l hvs
      rw [hvs] at hl hv
      obtain ⟨v₂, l, rfl⟩ : ∃ v₂ l', l = v₂ :: l' := by
        cases l with
        | nil => simp at hl
        | cons a l => exact ⟨a, l, rfl⟩
      have h1 := hv v₁ (by simp)
      have hd : ∃ d, distanceTimed field ⟨0, 0, 0⟩ (t.vertices.drop 1) = some d := by
        rw [hvs]
        simp only [List.drop_succ_cons, List.drop_zero, distanceTimed]
        split
        · rename_i q hq
          obtain ⟨⟨u, hu, hx⟩, -⟩ := nearestTimed_some _ q.1 q.2 hq
          rw [(hv u (List.mem_cons_of_mem _ (List.mem_of_getElem? hu))).2] at hx
          cases hx
        · exact hpath _ _ _ (by simp)
      obtain ⟨d, hd⟩ := hd
      have hi : intermediate field slow 1 none (atOrigin 5) t v₁ = .ok .next := by
        simp only [intermediate]
        rw [slow_desired t v₁ hg d hd]
        simp only [displacement_norm field 1 (atOrigin 5) _ zero_le_one, towards_norm, five_norm, remaining, h1.2, Option.map_none]
        rw [if_pos]
        left
        simp only [h1.1, field, atOrigin, line_distance]
        norm_num
      simp only [List.isEmpty_cons, Bool.false_eq_true, if_false, hi] at h
      refine ih _ _ h hg hc ?_ ?_
      · simp only [discard, hc, if_true]
        simp
      · simp only [discard, hc, if_true]
        intro v hvm
        apply hv
        simp only [List.cons_append, List.mem_cons, List.mem_append, List.not_mem_nil, or_false] at hvm ⊢
        tauto
    · rename_i hne
      match hvs : t.vertices, hl with
      | v₀ :: v₁ :: l, _ => exact hne v₀ v₁ l hvs

/-- C113 is violated by trajectories of fewer than two waypoints: instead of the error that the function has for them, they are read beyond their end. -/
theorem C113_short_violated (w : World) (b : Param) (dt : ℝ) (target : Option ℝ) (s : Status) (t : Traj) (h : t.vertices.length < 2) :
    follow w b dt target s t = some (.error .undefined) := by
  rw [follow.eq_1]
  split
  · rename_i hv
    rw [hv] at h
    simp at h
  · rfl

/-- C113 is violated by closed trajectories of two waypoints: they end at the second one instead of going on for ever. -/
theorem C113_pair_violated (p : Pt) : follow field slow 1 none (atOrigin 0) ⟨none, true, true, [⟨p, none⟩, ⟨⟨0, 0, 0⟩, none⟩]⟩ =
    some (.ok (none, ⟨none, true, true, [⟨p, none⟩, ⟨⟨0, 0, 0⟩, none⟩]⟩)) := by
  refine C113_done_now field slow 1 none (atOrigin 0) (by norm_num) _ _ _ rfl (by simp [atOrigin]) (by simp [atOrigin]) ?_ ?_
  · simp only [field, atOrigin, line_distance]; norm_num
  · rintro due ⟨x, hx, -⟩
    cases hx

end Verif.Follow
