import Verif.Pedestrian.Theorems
/-
How pedestrians walk straight on, and their waypoints.
-/
namespace Verif.Pedestrian
open Classical Spec

theorem step_speed {dt : ℝ} {c : Speed.Constraints ℝ} {t : ℝ} {s s' : Speed.State ℝ} (h : Speed.step dt c t s = some s') : |s'.speed| ≤ c.maxSpeed := by
  unfold Speed.step at h
  simp only [Option.bind_eq_bind, Option.bind_eq_some_iff, Option.pure_def, Option.some.injEq] at h
  obtain ⟨j, -, a, -, v, hv, rfl⟩ := h
  unfold Speed.forwardTwist Speed.clamp at hv
  simp only
  by_cases hc : c.maxSpeed < -1 * c.maxSpeed
  · rw [if_pos hc] at hv; cases hv
  · rw [if_neg hc] at hv
    simp only [Option.some.injEq] at hv
    rw [abs_le]
    split at hv
    · constructor <;> linarith
    · split at hv
      · constructor <;> linarith
      · constructor <;> linarith

/-- How a frame of walking goes: the speed planner, the free pose, and the correction. -/
theorem walk_ok {m : Map} {f : Pose → Option LanePose} {dt : ℝ} {c : Speed.Constraints ℝ} {t : ℝ} {w w' : Walker} (h : walk m f dt c t w = .ok w') :
    ∃ s, Speed.step dt c t w.motion = some s ∧ ∃ p, updatedPose m w s.speed (w.side + w.sideAcceleration * dt) (w.spin + w.spinAcceleration * dt) dt = .ok p ∧
      w' = ⟨p, s, w.side + w.sideAcceleration * dt, (w.side + w.sideAcceleration * dt - w.side) / dt, w.spin + w.spinAcceleration * dt,
        (w.spin + w.spinAcceleration * dt - w.spin) / dt, f p⟩ := by
  unfold walk at h
  cases hs : Speed.step dt c t w.motion with
  | none => rw [hs] at h; cases h
  | some s =>
    rw [hs] at h
    refine ⟨s, rfl, ?_⟩
    simp only [bind, Except.bind, pure, Except.pure] at h
    cases hp : updatedPose m w s.speed (w.side + w.sideAcceleration * dt) (w.spin + w.spinAcceleration * dt) dt with
    | error e => rw [hp] at h; cases h
    | ok p =>
      rw [hp] at h
      simp only [Except.ok.injEq] at h
      exact ⟨p, rfl, h.symm⟩

theorem updatedPose_free (m : Map) (w : Walker) (v s a dt : ℝ)
    (h : ∀ l, w.lane = some l → (displacement m l (v, s) false dt).1 ≤ m.length l.lane - l.s) : updatedPose m w v s a dt = .ok (free w.pose v s a dt) := by
  unfold updatedPose
  cases hl : w.lane with
  | none => rfl
  | some l =>
    simp only
    cases m.near (free w.pose v s a dt) with
    | none => rfl
    | some n =>
      simp only [transition, if_pos (h l hl)]
      rfl

theorem displacement_straight (m : Map) (l : LanePose) (v dt : ℝ) : displacement m l (v, 0) false dt = (v * dt * Real.cos l.yaw, v * dt * Real.sin l.yaw) := by
  simp only [displacement, Bool.false_eq_true, if_false, rotate, mul_zero, sub_zero, add_zero]
  ext <;> simp only <;> ring

theorem free_straight (p : Pose) (v dt : ℝ) : free p v 0 0 dt = ⟨p.x + v * dt * Real.cos p.yaw, p.y + v * dt * Real.sin p.yaw, p.z, p.yaw⟩ := by
  simp only [free, rotate, zero_mul, add_zero, mul_zero, sub_zero, Pose.mk.injEq]
  refine ⟨by ring, by ring, trivial, trivial⟩

/-- **C161 (one frame).** A pedestrian who moves only along the heading is, after a frame that does not go beyond the end of the lanelet, straight ahead by the new speed for the
duration of the frame; heading and height are the same, and the pedestrian still moves only along the heading. Missing: frames that go beyond the end of a lanelet. -/
theorem C161_straight_partial (m : Map) (f : Pose → Option LanePose) (dt : ℝ) (c : Speed.Constraints ℝ) (t : ℝ) (w w' : Walker) (hw : Straight w)
    (h : walk m f dt c t w = .ok w') (hl : ∀ l, w.lane = some l → w'.motion.speed * dt * Real.cos l.yaw ≤ m.length l.lane - l.s) :
    w'.pose = ⟨w.pose.x + w'.motion.speed * dt * Real.cos w.pose.yaw, w.pose.y + w'.motion.speed * dt * Real.sin w.pose.yaw, w.pose.z, w.pose.yaw⟩ ∧
      Straight w' ∧ |w'.motion.speed| ≤ c.maxSpeed ∧ w'.lane = f w'.pose := by
  obtain ⟨h1, h2, h3, h4⟩ := hw
  obtain ⟨s, hs, p, hp, rfl⟩ := walk_ok h
  simp only [h1, h2, h3, h4, zero_mul, add_zero] at hp hl ⊢
  rw [updatedPose_free m w s.speed 0 0 dt (by intro l e; rw [displacement_straight]; exact hl l e), free_straight] at hp
  simp only [Except.ok.injEq] at hp
  exact ⟨hp.symm, ⟨rfl, by simp, rfl, by simp⟩, step_speed hs, trivial⟩

/-- **C161 (many frames).** As long as the pedestrian stays away from the ends of lanelets by the way of a frame, it walks along one straight line, in all frames together, never further
than its highest speed allows. Missing: frames that go beyond the end of a lanelet. -/
theorem C161_line_partial (m : Map) (f : Pose → Option LanePose) (dt : ℝ) (hdt : 0 ≤ dt) (c : Speed.Constraints ℝ)
    (hf : ∀ p l, f p = some l → c.maxSpeed * dt ≤ m.length l.lane - l.s) (ts : List ℝ) (w w' : Walker) (hw : Straight w)
    (h0 : ∀ l, w.lane = some l → c.maxSpeed * dt ≤ m.length l.lane - l.s) (h : walks m f dt c ts w = .ok w') :
    ∃ d : ℝ, |d| ≤ ts.length * (c.maxSpeed * dt) ∧
      w'.pose = ⟨w.pose.x + d * Real.cos w.pose.yaw, w.pose.y + d * Real.sin w.pose.yaw, w.pose.z, w.pose.yaw⟩ := by
  induction ts generalizing w with
  | nil =>
    simp only [walks, Except.ok.injEq] at h
    subst h
    exact ⟨0, by simp, by simp⟩
  | cons t ts ih =>
    simp only [walks, bind, Except.bind] at h
    cases h1 : walk m f dt c t w with
    | error e => rw [h1] at h; cases h
    | ok w1 =>
      rw [h1] at h
      obtain ⟨s, hs, p, hp, e⟩ := walk_ok h1
      have hsp : w1.motion.speed = s.speed := by rw [e]
      have hb := step_speed hs
      have hl : ∀ l, w.lane = some l → w1.motion.speed * dt * Real.cos l.yaw ≤ m.length l.lane - l.s := by
        intro l hl
        refine le_trans ?_ (h0 l hl)
        rw [hsp]
        have hc1 := Real.abs_cos_le_one l.yaw
        calc s.speed * dt * Real.cos l.yaw ≤ |s.speed * dt * Real.cos l.yaw| := le_abs_self _
          _ = |s.speed| * dt * |Real.cos l.yaw| := by rw [abs_mul, abs_mul, abs_of_nonneg hdt]
          _ ≤ |s.speed| * dt * 1 := mul_le_mul_of_nonneg_left hc1 (mul_nonneg (abs_nonneg _) hdt)
          _ = |s.speed| * dt := mul_one _
          _ ≤ c.maxSpeed * dt := mul_le_mul_of_nonneg_right hb hdt
      obtain ⟨e1, e2, e3, e4⟩ := C161_straight_partial m f dt c t w w1 hw h1 hl
      obtain ⟨d, hd, e5⟩ := ih w1 e2 (fun l hl => hf _ l (e4 ▸ hl)) h
      refine ⟨w1.motion.speed * dt + d, ?_, ?_⟩
      · calc |w1.motion.speed * dt + d| ≤ |w1.motion.speed * dt| + |d| := abs_add_le _ _
          _ ≤ c.maxSpeed * dt + ts.length * (c.maxSpeed * dt) := by
            refine add_le_add ?_ hd
            rw [abs_mul, abs_of_nonneg hdt]
            exact mul_le_mul_of_nonneg_right e3 hdt
          _ = _ := by rw [List.length_cons]; push_cast; ring
      · rw [e5, e1]
        simp only [Pose.mk.injEq, and_true]
        exact ⟨by ring, by ring⟩

/-- **C161 (end of a lanelet).** A frame that goes beyond the end of the lanelet puts the pedestrian as far beyond the beginning of the lanelet that is found at the new place as it went
beyond the end of the old one, and moves it across by the part of the movement that is across the old lanelet; if the lanelet found is not that long, the frame fails. -/
theorem C161_end (m : Map) (f : Pose → Option LanePose) (dt : ℝ) (c : Speed.Constraints ℝ) (t : ℝ) (w : Walker) (hw : Straight w) (s : Speed.State ℝ)
    (hs : Speed.step dt c t w.motion = some s) (l : LanePose) (hl : w.lane = some l) (n : ℤ)
    (hn : m.near ⟨w.pose.x + s.speed * dt * Real.cos w.pose.yaw, w.pose.y + s.speed * dt * Real.sin w.pose.yaw, w.pose.z, w.pose.yaw⟩ = some n)
    (over : ℝ) (ho : over = s.speed * dt * Real.cos l.yaw - (m.length l.lane - l.s)) (hp : 0 < over) :
    (m.length n ≤ over → walk m f dt c t w = .error .thrown) ∧
    (over < m.length n → ∃ w', walk m f dt c t w = .ok w' ∧ w'.motion = s ∧ w'.pose.yaw = w.pose.yaw ∧
      ∃ q, q = m.toMap ⟨n, over, l.offset + s.speed * dt * Real.sin l.yaw, l.yaw⟩ ∧ w'.pose.x = q.x ∧ w'.pose.y = q.y ∧ w'.pose.z = q.z) := by
  obtain ⟨h1, h2, h3, h4⟩ := hw
  have hne : ¬ s.speed * dt * Real.cos l.yaw ≤ m.length l.lane - l.s := by rw [ho] at hp; linarith
  unfold walk
  rw [hs]
  simp only [h1, h2, h3, h4, zero_mul, add_zero, updatedPose, free_straight, hl, hn, transition, displacement_straight, if_neg hne, ← ho]
  constructor
  · intro hc
    rw [if_neg (not_lt.2 hc)]
    rfl
  · intro hc
    rw [if_pos hc]
    exact ⟨_, rfl, rfl, rfl, _, rfl, rfl, rfl, rfl⟩

/-- two lanelets on the x-axis, from 0 m to 10 m and from 5 m to 15 m -/
noncomputable def road : Map where
  length _ := 10
  toMap l := ⟨(if l.lane = 2 then 5 else 0) + l.s, l.offset, 0, l.yaw⟩
  near p := if p.z ≠ 0 then none else if 0 ≤ p.x ∧ p.x ≤ 10 then some 1 else if 10 < p.x ∧ p.x ≤ 15 then some 2 else none

theorem road_consistent : Consistent road := by
  intro p i h
  unfold road at h ⊢
  simp only at h ⊢
  obtain ⟨x, y, z, a⟩ := p
  simp only at h ⊢
  by_cases h0 : z ≠ 0
  · rw [if_pos h0] at h; cases h
  · rw [if_neg h0] at h
    rw [not_not] at h0
    by_cases h1 : 0 ≤ x ∧ x ≤ 10
    · rw [if_pos h1] at h
      simp only [Option.some.injEq] at h
      subst h
      exact ⟨x, y, a, h1.1, h1.2, by simp [h0]⟩
    · rw [if_neg h1] at h
      by_cases h2 : 10 < x ∧ x ≤ 15
      · rw [if_pos h2] at h
        simp only [Option.some.injEq] at h
        subst h
        exact ⟨x - 5, y, a, by linarith, by linarith, by simp [h0]⟩
      · rw [if_neg h2] at h; cases h

noncomputable def ordinary : Speed.Constraints ℝ := ⟨1, 1, 1, 1, 2⟩

/-- a pedestrian at 1 m/s, 10 cm before the end of the first lanelet -/
noncomputable def walker : Walker := ⟨⟨99 / 10, 0, 0, 0⟩, ⟨1, 0, 0⟩, 0, 0, 0, 0, some ⟨1, 99 / 10, 0, 0⟩⟩

theorem step_walker : Speed.step (2 / 10) ordinary 1 walker.motion = some ⟨1, 0, 0⟩ := by
  norm_num [Speed.step, Speed.planLinearJerk, Speed.isAccelerating, Speed.clamp, Speed.forwardAccel, Speed.forwardTwist, ordinary, walker]

/-- **C161 is violated** where lanelets overlap: the lanelet that is found at the new place need not begin where the old one ends, and the pedestrian, who walks forward at 1 m/s, is put
back by 4.8 m in a frame of 0.2 s. -/
theorem C161_jump_violated (f : Pose → Option LanePose) : Consistent road ∧ Straight walker ∧ (∀ l, walker.lane = some l → road.toMap l = walker.pose) ∧
    ∃ w', walk road f (2 / 10) ordinary 1 walker = .ok w' ∧ w'.motion.speed = 1 ∧ w'.pose.x = walker.pose.x - 48 / 10 := by
  have hw : Straight walker := ⟨rfl, rfl, rfl, rfl⟩
  refine ⟨road_consistent, hw, ?_, ?_⟩
  · intro l hl
    simp only [walker, Option.some.injEq] at hl
    subst hl
    simp [road, walker]
  · obtain ⟨w', h1, h2, -, q, hq, h3, -⟩ := (C161_end road f (2 / 10) ordinary 1 walker hw ⟨1, 0, 0⟩ step_walker ⟨1, 99 / 10, 0, 0⟩ rfl 2
      (by norm_num [road, walker]) (1 / 10) (by norm_num [road]) (by norm_num)).2 (by norm_num [road])
    refine ⟨w', h1, by rw [h2], ?_⟩
    rw [h3, hq]
    norm_num [road, walker]

/-- The hypotheses of `C161_line_partial` are met off the lanes. -/
example : ∃ w', walks road (fun _ => none) (2 / 10) ordinary [1] { walker with lane := none } = .ok w' ∧ w'.pose.x = 101 / 10 := by
  refine ⟨_, by simp only [walks, walk, step_walker, updatedPose, bind, Except.bind, pure, Except.pure]; rfl, ?_⟩
  norm_num [free, rotate, walker]

/-- **C161 (turning).** Off the lanes, a pedestrian who also turns and sidesteps is turned first, by its new turning speed for the duration of the frame, and then moves in the new
heading and across it. -/
theorem C161_turning (m : Map) (f : Pose → Option LanePose) (dt : ℝ) (c : Speed.Constraints ℝ) (t : ℝ) (w w' : Walker) (hl : w.lane = none)
    (h : walk m f dt c t w = .ok w') :
    w'.spin = w.spin + w.spinAcceleration * dt ∧ w'.side = w.side + w.sideAcceleration * dt ∧
      w'.pose.yaw = w.pose.yaw + w'.spin * dt ∧ w'.pose.z = w.pose.z ∧
      w'.pose.x = w.pose.x + (w'.motion.speed * Real.cos w'.pose.yaw - w'.side * Real.sin w'.pose.yaw) * dt ∧
      w'.pose.y = w.pose.y + (w'.motion.speed * Real.sin w'.pose.yaw + w'.side * Real.cos w'.pose.yaw) * dt := by
  obtain ⟨s, hs, p, hp, rfl⟩ := walk_ok h
  rw [updatedPose_free m w _ _ _ dt (by intro l e; rw [hl] at e; cases e)] at hp
  simp only [Except.ok.injEq] at hp
  subst hp
  simp only [free, rotate]
  refine ⟨trivial, trivial, trivial, trivial, ?_, ?_⟩ <;> ring

/-- A pedestrian off the lanes who turns. -/
example : ∃ w', walk road (fun _ => none) (2 / 10) ordinary 1 { walker with lane := none, spin := 1 } = .ok w' ∧ w'.pose.yaw = walker.pose.yaw + 2 / 10 := by
  refine ⟨_, by simp only [walk, step_walker, updatedPose, bind, Except.bind, pure, Except.pure]; rfl, ?_⟩
  norm_num [free, rotate, walker]

/-- **C161 (velocities on the map).** If a velocity on the map is given, the displacement is that velocity for the duration of the frame, seen along and across the lane. -/
theorem C161_global (m : Map) (l : LanePose) (v : Point) (dt direction : ℝ) (h : (m.toMap l).yaw = direction + l.yaw) :
    displacement m l v true dt = ((v.1 * Real.cos direction + v.2 * Real.sin direction) * dt, (v.2 * Real.cos direction - v.1 * Real.sin direction) * dt) := by
  have hc : Real.cos direction = Real.cos (direction + l.yaw) * Real.cos l.yaw + Real.sin (direction + l.yaw) * Real.sin l.yaw := by
    rw [← Real.cos_sub]; congr 1; ring
  have hs : Real.sin direction = Real.sin (direction + l.yaw) * Real.cos l.yaw - Real.cos (direction + l.yaw) * Real.sin l.yaw := by
    rw [← Real.sin_sub]; congr 1; ring
  simp only [displacement, if_true, rotate, h, Real.cos_neg, Real.sin_neg]
  rw [hc, hs]
  ext <;> simp only <;> ring

/-! ### Waypoints -/

/-- **C163 (horizon).** The way that is shown is five seconds long, but at least 20 m and at most 50 m. -/
theorem C163_horizon (v : ℝ) : 20 ≤ horizon v ∧ horizon v ≤ 50 ∧ (4 ≤ v → v ≤ 10 → horizon v = 5 * v) := by
  unfold horizon
  split
  · exact ⟨le_refl _, by norm_num, fun _ _ => by linarith⟩
  · split
    · exact ⟨by norm_num, le_refl _, fun _ _ => by linarith⟩
    · exact ⟨by linarith, by linarith, fun _ _ => by ring⟩

/-- the point so far ahead -/
noncomputable def on (p : Pose) (d : ℝ) : Point := (p.x + d * Real.cos p.yaw, p.y + d * Real.sin p.yaw)

theorem on_dist (p : Pose) (a d : ℝ) : Real.sqrt (((on p a).1 - (on p d).1) ^ 2 + ((on p a).2 - (on p d).2) ^ 2) = |a - d| := by
  have h := sq_one p.yaw
  have : ((on p a).1 - (on p d).1) ^ 2 + ((on p a).2 - (on p d).2) ^ 2 = (a - d) ^ 2 := by
    simp only [on]
    linear_combination (a - d) ^ 2 * h
  rw [this, Real.sqrt_sq_eq_abs]

/-- the points at whole metres, up to that many -/
noncomputable def metres (p : Pose) (k : Nat) : List Point := (List.range (k + 1)).map fun i : Nat => on p (i : ℝ)

theorem metres_succ (p : Pose) (k : Nat) : metres p (k + 1) = metres p k ++ [on p ((k : ℝ) + 1)] := by
  unfold metres
  rw [List.range_succ, List.map_append]
  simp

theorem metres_last (p : Pose) (k : Nat) : (metres p k).getLast? = some (on p k) := by
  unfold metres
  rw [List.range_succ, List.map_append]
  simp

theorem append_metres (p : Pose) (k : Nat) (d : ℝ) : appendIfDifferent (metres p k) (on p d) = if 1 / 1000 < |(k : ℝ) - d| then metres p k ++ [on p d] else metres p k := by
  unfold appendIfDifferent
  rw [metres_last]
  simp only [on_dist]

theorem stride_eq (p : Pose) (h : ℝ) (n k : Nat) (hk : (k : ℝ) ≤ h) (hn : h < k + n) :
    stride p.yaw h n (metres p k, on p k, (k : ℝ)) = (metres p ⌊h⌋₊, on p ⌊h⌋₊, (⌊h⌋₊ : ℝ)) := by
  induction n generalizing k with
  | zero => simp at hn; linarith
  | succ n ih =>
    unfold stride
    simp only
    by_cases hc : (k : ℝ) + 1 ≤ h
    · rw [if_pos hc]
      have e : ((on p k).1 + 1 * Real.cos p.yaw, (on p k).2 + 1 * Real.sin p.yaw) = on p ((k : ℝ) + 1) := by
        simp only [on]; ext <;> simp only <;> ring
      rw [e, append_metres, if_pos (by rw [show (k : ℝ) - (k + 1) = -1 by ring]; norm_num), ← metres_succ]
      have := ih (k + 1) (by push_cast; exact hc) (by push_cast at hn ⊢; linarith)
      push_cast at this
      exact this
    · rw [if_neg hc]
      have : ⌊h⌋₊ = k := (Nat.floor_eq_iff (le_trans (Nat.cast_nonneg k) hk)).2 ⟨hk, by linarith⟩
      rw [this]

theorem waypoints_eq (p : Pose) (v : ℝ) : walkWaypoints p v = if 1 / 1000 < horizon v - ⌊horizon v⌋₊ then metres p ⌊horizon v⌋₊ ++ [on p (horizon v)] else metres p ⌊horizon v⌋₊ := by
  obtain ⟨h1, h2, -⟩ := C163_horizon v
  have h0 : appendIfDifferent [] (p.x, p.y) = metres p 0 := by simp [appendIfDifferent, metres, on]
  have hs := stride_eq p (horizon v) 51 0 (by simp; linarith) (by push_cast; linarith)
  have e0 : on p ((0 : Nat) : ℝ) = (p.x, p.y) := by simp [on]
  rw [e0] at hs
  push_cast at hs
  unfold walkWaypoints
  simp only [h0, hs]
  generalize hh : horizon v = h at *
  generalize hk : ⌊h⌋₊ = k
  have hf : (k : ℝ) ≤ h := hk ▸ Nat.floor_le (by linarith)
  have e : ((on p (k : ℝ)).1 + (h - k) * Real.cos p.yaw, (on p (k : ℝ)).2 + (h - k) * Real.sin p.yaw) = on p h := by
    simp only [on]; ext <;> simp only <;> ring
  have ha : |(k : ℝ) - h| = h - k := by rw [abs_sub_comm, abs_of_nonneg (by linarith)]
  by_cases hc : Geometry.eps < h - k
  · rw [if_pos hc, e, append_metres, ha]
  · rw [if_neg hc, if_neg]
    intro hn
    apply hc
    refine lt_trans ?_ hn
    norm_num [Geometry.eps]

/-- **C163 (waypoints).** The waypoints of a pedestrian who walks straight on begin at the pedestrian and go straight ahead, metre by metre; they end at the horizon, or not more than a
millimetre before it, and each is ahead of the one before. -/
theorem C163_waypoints (p : Pose) (v : ℝ) : ∃ ds : List ℝ, walkWaypoints p v = ds.map (fun d => (p.x + d * Real.cos p.yaw, p.y + d * Real.sin p.yaw)) ∧
    ds.Pairwise (· < ·) ∧ (∀ i : Nat, (i : ℝ) ≤ horizon v → ds[i]? = some (i : ℝ)) ∧ (∀ d ∈ ds, 0 ≤ d ∧ d ≤ horizon v) ∧
      ∃ d, ds.getLast? = some d ∧ horizon v - d ≤ 1 / 1000 := by
  obtain ⟨h1, h2, -⟩ := C163_horizon v
  rw [waypoints_eq]
  generalize hh : horizon v = h at *
  have hf : (⌊h⌋₊ : ℝ) ≤ h := Nat.floor_le (by linarith)
  have hsort : ((List.range (⌊h⌋₊ + 1)).map fun i : Nat => (i : ℝ)).Pairwise (· < ·) := by
    rw [List.pairwise_map]
    exact List.pairwise_lt_range.imp fun h => Nat.cast_lt.2 h
  have hget : ∀ i : Nat, (i : ℝ) ≤ h → ((List.range (⌊h⌋₊ + 1)).map fun i : Nat => (i : ℝ))[i]? = some (i : ℝ) := by
    intro i hi
    have : i < ⌊h⌋₊ + 1 := Nat.lt_succ_of_le (Nat.le_floor hi)
    rw [List.getElem?_map, List.getElem?_range this]
    rfl
  have hmem : ∀ d ∈ (List.range (⌊h⌋₊ + 1)).map fun i : Nat => (i : ℝ), 0 ≤ d ∧ d ≤ (⌊h⌋₊ : ℝ) := by
    intro d hd
    obtain ⟨i, hi, rfl⟩ := List.mem_map.1 hd
    exact ⟨Nat.cast_nonneg i, Nat.cast_le.2 (Nat.le_of_lt_succ (List.mem_range.1 hi))⟩
  by_cases hc : 1 / 1000 < h - ⌊h⌋₊
  · rw [if_pos hc]
    refine ⟨(List.range (⌊h⌋₊ + 1)).map (fun i : Nat => (i : ℝ)) ++ [h], ?_, ?_, ?_, ?_, h, by simp, by norm_num⟩
    · rw [List.map_append, List.map_map]; rfl
    · rw [List.pairwise_append]
      refine ⟨hsort, List.pairwise_singleton _ _, fun a ha b hb => ?_⟩
      rw [List.mem_singleton] at hb
      subst hb
      have := (hmem a ha).2
      linarith
    · intro i hi
      rw [List.getElem?_append_left, hget i hi]
      rw [List.length_map, List.length_range]
      exact Nat.lt_succ_of_le (Nat.le_floor hi)
    · intro d hd
      rcases List.mem_append.1 hd with hd | hd
      · have := hmem d hd
        exact ⟨this.1, by linarith⟩
      · rw [List.mem_singleton] at hd
        subst hd
        exact ⟨by linarith, le_refl _⟩
  · rw [if_neg hc]
    refine ⟨(List.range (⌊h⌋₊ + 1)).map (fun i : Nat => (i : ℝ)), ?_, hsort, hget, fun d hd => ⟨(hmem d hd).1, (hmem d hd).2.trans hf⟩, (⌊h⌋₊ : ℝ), ?_, by linarith⟩
    · rw [List.map_map]; rfl
    · rw [List.range_succ, List.map_append]; simp

/-- At 1 m/s there are 21 waypoints. -/
example : (walkWaypoints ⟨0, 0, 0, 0⟩ 1).length = 21 := by
  have h : horizon 1 = 20 := by norm_num [horizon]
  rw [waypoints_eq, h]
  norm_num [metres]

end Verif.Pedestrian
