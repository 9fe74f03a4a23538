import Verif.Matching.PlaceTheorems
/-! C222: the map pose of a place on a lane. -/
namespace Verif.Matching
open Verif.Geometry Classical

theorem unit_euler (v : Pt) : Geometry.Unit (eulerToQuat v) := (eulerToQuat_spec v.x v.y v.z).1

theorem unit_mul {a b : Quat} (ha : Geometry.Unit a) (hb : Geometry.Unit b) : Geometry.Unit (a.mul b) := by
  have h : (a.x ^ 2 + a.y ^ 2 + a.z ^ 2 + a.w ^ 2) * (b.x ^ 2 + b.y ^ 2 + b.z ^ 2 + b.w ^ 2) = 1 := by
    unfold Geometry.Unit at ha hb; rw [ha, hb]; norm_num
  unfold Geometry.Unit Quat.mul
  simp only
  rw [← h]; ring

theorem heading_euler (v : Pt) : (heading (eulerToQuat v)).z = -Real.sin v.y := by
  have := (eulerToQuat_spec v.x v.y v.z).2 ⟨1, 0, 0⟩
  unfold heading
  have e : (⟨v.x, v.y, v.z⟩ : Pt) = v := rfl
  rw [e] at this
  rw [this]
  simp

theorem heading_direction (t : Pt) : t.norm * (heading (directionToQuat t)).z = t.z := by
  obtain ⟨-, h, -⟩ := directionToQuat_forward t
  rw [(rotate_scaled _ _).1] at h
  exact congrArg Pt.z h

theorem pitch_direction (t : Pt) : t.norm * -Real.sin (quatToEuler (directionToQuat t)).y = t.z := by
  have h := C217_angles _ (directionToQuat_forward t).1 ⟨1, 0, 0⟩
  have e := heading_euler (quatToEuler (directionToQuat t))
  unfold heading at e
  rw [h] at e
  rw [← e]
  exact heading_direction t

theorem place_level (c t : Pt) (o : ℝ) (hp : 0 < Real.sqrt (t.x ^ 2 + t.y ^ 2)) :
    LeftBy c t (c.add (((⟨-t.y, t.x, 0⟩ : Pt).smul (1 / Real.sqrt (t.x ^ 2 + t.y ^ 2))).smul o)) o := by
  have hsq : Real.sqrt (t.x ^ 2 + t.y ^ 2) ^ 2 = t.x ^ 2 + t.y ^ 2 := Real.sq_sqrt (by positivity)
  unfold LeftBy Pt.add Pt.smul
  simp only
  generalize Real.sqrt (t.x ^ 2 + t.y ^ 2) = n at *
  refine ⟨by ring, ?_⟩
  have hn : n ≠ 0 := hp.ne'
  field_simp
  linear_combination -o * hsq

/-- **C222** The map pose that is made of a place on a lane: it is beside the centre line by the offset, at the height of the point of the lane that
is straight beside it within three metres, or else at the height of the centre line at the place. Without the slope of the road nothing else
happens. With it, the front rises or falls as steeply as the lane, and the turn kept with the place is the one from the lane to the new orientation. -/
theorem C222_canonical (k : Spline) (slope : Bool) (l l' : LanePose) (m' : Pose) (h : canonicalPose k slope l = some (l', m')) (c t : Pt)
    (hc : k.point l.s = some c) (ht : k.tangent l.s = some t) (hp : 1 / 2 ^ 52 < Real.sqrt (t.x ^ 2 + t.y ^ 2)) :
    ∃ m, place k l slope = some m ∧ LeftBy c t m.position l.offset ∧ m.position.z = c.z ∧
      m'.position.x = m.position.x ∧ m'.position.y = m.position.y ∧
      ((∃ s c', k.sValue m 3 = some (some s) ∧ k.point s = some c' ∧ m'.position.z = c'.z) ∨ (k.sValue m 3 = some none ∧ m'.position.z = c.z)) ∧
      l'.id = l.id ∧ l'.s = l.s ∧ l'.offset = l.offset ∧
      (slope = false → l'.rpy = l.rpy ∧ m'.orientation = m.orientation) ∧
      (slope = true → t.norm * (heading m'.orientation).z = t.z ∧ SameTurn ((directionToQuat t).mul (eulerToQuat l'.rpy)) m'.orientation) := by
  have hpos : 0 < Real.sqrt (t.x ^ 2 + t.y ^ 2) := lt_trans (by positivity) hp
  have hm := place_at (l := l) hc ht hp slope
  unfold canonicalPose at h
  rw [hm] at h
  refine ⟨_, hm, place_level c t l.offset hpos, by simp [Pt.add, Pt.smul], ?_⟩
  simp only [Option.bind_some] at h
  generalize hq : (⟨c.add (((⟨-t.y, t.x, 0⟩ : Pt).smul (1 / Real.sqrt (t.x ^ 2 + t.y ^ 2))).smul l.offset),
    (eulerToQuat (directionAngles t slope)).mul (eulerToQuat l.rpy)⟩ : Pose) = m at *
  have hz : m.position.z = c.z := by rw [← hq]; simp [Pt.add, Pt.smul]
  have hu : Geometry.Unit m.orientation := by rw [← hq]; exact unit_mul (unit_euler _) (unit_euler _)
  have e := pose_at hc ht true
  rw [angles_true] at e
  -- the second step, for any pose after the first
  have step : ∀ m1 : Pose, (if slope = true then
      Option.map (fun c =>
          let lane := quatToEuler c.orientation
          let entity := quatToEuler m1.orientation
          let q := eulerToQuat ⟨entity.x, lane.y, entity.z⟩
          ({ l with rpy := quatToEuler (getRotation c.orientation q) }, { m1 with orientation := q })) (splinePose k l.s true)
      else some (l, m1)) = some (l', m') → m1.orientation = m.orientation →
      m'.position = m1.position ∧ l'.id = l.id ∧ l'.s = l.s ∧ l'.offset = l.offset ∧
      (slope = false → l'.rpy = l.rpy ∧ m'.orientation = m.orientation) ∧
      (slope = true → t.norm * (heading m'.orientation).z = t.z ∧ SameTurn ((directionToQuat t).mul (eulerToQuat l'.rpy)) m'.orientation) := by
    intro m1 h1 ho
    cases slope with
    | false =>
      simp only [Bool.false_eq_true, if_false, Option.some.injEq, Prod.mk.injEq] at h1
      obtain ⟨rfl, rfl⟩ := h1
      exact ⟨rfl, rfl, rfl, rfl, fun _ => ⟨rfl, ho⟩, nofun⟩
    | true =>
      rw [if_pos rfl, e] at h1
      simp only [Option.map_some, Option.some.injEq, Prod.mk.injEq] at h1
      obtain ⟨rfl, rfl⟩ := h1
      refine ⟨rfl, rfl, rfl, rfl, nofun, fun _ => ⟨?_, ?_⟩⟩
      · simp only
        rw [heading_euler]
        exact pitch_direction t
      · intro v
        have hd := (directionToQuat_forward t).1
        simp only
        rw [rotate_mul, C217_angles _ (unit_rotation hd (unit_euler _))]
        unfold getRotation
        rw [rotate_mul, rotate_conj' hd]
  unfold adjust at h
  simp only at h
  cases hs : k.sValue m 3 with
  | none => rw [hs] at h; cases h
  | some o =>
    cases o with
    | none =>
      rw [hs] at h
      simp only [Option.bind_some] at h
      obtain ⟨a, b⟩ := step m h rfl
      rw [a]
      exact ⟨rfl, rfl, Or.inr ⟨rfl, hz⟩, b⟩
    | some s =>
      rw [hs] at h
      simp only at h
      cases hpt : k.point s with
      | none => rw [hpt] at h; cases h
      | some c' =>
        rw [hpt] at h
        simp only [Option.map_some, Option.bind_some] at h
        obtain ⟨a, b⟩ := step _ h rfl
        rw [a]
        exact ⟨rfl, rfl, Or.inl ⟨s, c', rfl, hpt, rfl⟩, b⟩

/-- **C222** An entity that is not turned against its lane gets the orientation of the lane, slope included. -/
theorem C222_slope_partial (k : Spline) (l l' : LanePose) (m' : Pose) (h : canonicalPose k true l = some (l', m')) (c t : Pt)
    (hc : k.point l.s = some c) (ht : k.tangent l.s = some t) (hp : 1 / 2 ^ 52 < Real.sqrt (t.x ^ 2 + t.y ^ 2)) (hl : l.rpy = ⟨0, 0, 0⟩) :
    SameTurn m'.orientation (directionToQuat t) := by
  have hm := place_at (l := l) hc ht hp true
  have hone : eulerToQuat ⟨0, 0, 0⟩ = ⟨0, 0, 0, 1⟩ := by unfold eulerToQuat; simp
  have hmul : ∀ q : Quat, q.mul ⟨0, 0, 0, 1⟩ = q := by intro q; unfold Quat.mul; simp
  rw [hl, hone, hmul, angles_true] at hm
  have e := pose_at hc ht true
  rw [angles_true] at e
  unfold canonicalPose at h
  rw [hm] at h
  simp only [Option.bind_some] at h
  unfold adjust at h
  simp only [if_true, e, Option.map_some] at h
  rw [Option.bind_eq_some_iff] at h
  obtain ⟨m1, h1, h2⟩ := h
  have ho : m1.orientation = directionToQuat t := by
    split at h1
    · cases h1
    · simp only [Option.some.injEq] at h1; rw [← h1]
    · simp only [Option.map_eq_some_iff] at h1
      obtain ⟨c', -, rfl⟩ := h1
      rfl
  simp only [Option.some.injEq, Prod.mk.injEq] at h2
  obtain ⟨-, rfl⟩ := h2
  simp only [ho]
  exact C217_angles _ (directionToQuat_forward t).1

/-- **C222** An entity that faces backwards on a lane that rises has its front turned down at first, but the map pose turns it up: for every such lane. -/
theorem C222_reverse_violated (k : Spline) (l l' : LanePose) (m' : Pose) (h : canonicalPose k true l = some (l', m')) (c t : Pt)
    (hc : k.point l.s = some c) (ht : k.tangent l.s = some t) (hp : 1 / 2 ^ 52 < Real.sqrt (t.x ^ 2 + t.y ^ 2)) (hl : l.rpy = ⟨0, 0, Real.pi⟩)
    (hz : 0 < t.z) :
    ∃ m, place k l true = some m ∧ (heading m.orientation).z < 0 ∧ 0 < (heading m'.orientation).z := by
  have hm := place_at (l := l) hc ht hp true
  have hn : 0 < t.norm := by
    unfold Pt.norm; apply Real.sqrt_pos.mpr
    have := sq_pos_of_pos hz; have := sq_nonneg t.x; have := sq_nonneg t.y; linarith
  refine ⟨_, hm, ?_, ?_⟩
  · simp only
    rw [hl, angles_true]
    unfold heading
    rw [rotate_mul, (eulerToQuat_spec 0 0 Real.pi).2]
    simp only [Real.cos_pi, Real.sin_pi, Real.cos_zero, Real.sin_zero]
    have hd := heading_direction t
    unfold heading at hd
    have hneg := (rotate_scaled (directionToQuat t) (-1)).1
    have e : (⟨-1 * (1 * 1 + 0 * (0 * 0 + 1 * 0)) - 0 * (1 * 0 - 0 * 0), 0 * (1 * 1 + 0 * (0 * 0 + 1 * 0)) + -1 * (1 * 0 - 0 * 0),
        -0 * 1 + 1 * (0 * 0 + 1 * 0)⟩ : Pt) = ⟨-1, 0, 0⟩ := by norm_num
    rw [e, hneg]
    simp only
    by_contra hx
    push Not at hx
    have := mul_nonneg hn.le hx
    nlinarith
  · obtain ⟨m, -, -, -, -, -, -, -, -, -, -, hs⟩ := C222_canonical k true l l' m' h c t hc ht hp
    have := (hs rfl).1
    by_contra hx
    push Not at hx
    have h2 := mul_nonneg hn.le (neg_nonneg.mpr hx)
    linarith

/-- **C222** Aligned to its lane, an entity keeps its place and position and looks along the lane. -/
theorem C222_align (k : Spline) (x : LanePose × Pose) (c t : Pt) (hc : k.point x.1.s = some c) (ht : k.tangent x.1.s = some t) :
    ∃ y, align k x = some y ∧ y.1.id = x.1.id ∧ y.1.s = x.1.s ∧ y.1.offset = x.1.offset ∧ y.1.rpy = ⟨0, 0, 0⟩ ∧ y.2.position = x.2.position ∧
      rotate y.2.orientation ⟨t.norm, 0, 0⟩ = t ∧ (rotate y.2.orientation ⟨0, 1, 0⟩).z = 0 := by
  have e := pose_at hc ht true
  rw [angles_true] at e
  unfold align
  rw [e]
  exact ⟨_, rfl, rfl, rfl, rfl, rfl, rfl, (directionToQuat_forward t).2⟩

/-- The rising lane of `rising_place` and an entity along it or one that faces backwards on it: a case for these theorems. -/
example (rpy : Pt) (h : rpy = ⟨0, 0, 0⟩ ∨ rpy = ⟨0, 0, Real.pi⟩) : ∃ (k : Spline) (l l' : LanePose) (m' : Pose) (c t : Pt),
    canonicalPose k true l = some (l', m') ∧ k.point l.s = some c ∧ k.tangent l.s = some t ∧ l.rpy = rpy ∧ 0 < t.z ∧
    1 / 2 ^ 52 < Real.sqrt (t.x ^ 2 + t.y ^ 2) := by
  obtain ⟨s, -, e2, e3⟩ := rising_place
  have h3 : Real.sqrt ((3 : ℝ) ^ 2 + 0 ^ 2) = 3 := by
    rw [show (3 : ℝ) ^ 2 + 0 ^ 2 = 3 ^ 2 by norm_num, Real.sqrt_sq (by norm_num)]
  have hp : (1 : ℝ) / 2 ^ 52 < Real.sqrt ((⟨3, 0, 4⟩ : Pt).x ^ 2 + (⟨3, 0, 4⟩ : Pt).y ^ 2) := by simp only [h3]; norm_num
  have hm := place_at (l := ⟨7, s, 0, rpy⟩) e2 e3 hp true
  have hpos : (⟨3 / 2, 0, 2⟩ : Pt).add (((⟨-(⟨3, 0, 4⟩ : Pt).y, (⟨3, 0, 4⟩ : Pt).x, 0⟩ : Pt).smul
      (1 / Real.sqrt ((⟨3, 0, 4⟩ : Pt).x ^ 2 + (⟨3, 0, 4⟩ : Pt).y ^ 2))).smul 0) = ⟨3 / 2, 0, 2⟩ := by
    unfold Pt.add Pt.smul; simp
  simp only at hm
  rw [hpos, angles_true] at hm
  -- the line across, in either direction
  obtain ⟨σ, hσ, hr⟩ : ∃ σ : ℝ, (σ = 1 ∨ σ = -1) ∧ ∀ a, rotate ((directionToQuat ⟨3, 0, 4⟩).mul (eulerToQuat rpy)) ⟨0, 3 * a, 0⟩ = ⟨0, 3 * a * σ, 0⟩ := by
    have hl := directionToQuat_left ⟨3, 0, 4⟩
    simp only [h3] at hl
    rw [(rotate_scaled _ _).2] at hl
    have l1 := congrArg Pt.x hl
    have l2 := congrArg Pt.y hl
    have l3 := congrArg Pt.z hl
    simp only at l1 l2 l3
    have k1 : (rotate (directionToQuat ⟨3, 0, 4⟩) ⟨0, 1, 0⟩).x = 0 := by linarith
    have k2 : (rotate (directionToQuat ⟨3, 0, 4⟩) ⟨0, 1, 0⟩).y = 1 := by linarith
    have k3 : (rotate (directionToQuat ⟨3, 0, 4⟩) ⟨0, 1, 0⟩).z = 0 := by linarith
    have key : ∀ a, rotate (directionToQuat ⟨3, 0, 4⟩) ⟨0, a, 0⟩ = ⟨0, a, 0⟩ := by
      intro a
      rw [(rotate_scaled _ _).2, k1, k2, k3]; simp
    rcases h with h | h
    · refine ⟨1, Or.inl rfl, fun a => ?_⟩
      rw [rotate_mul, h, (eulerToQuat_spec 0 0 0).2]
      simp only [Real.cos_zero, Real.sin_zero]
      rw [← key (3 * a * 1)]
      congr 1
      ext <;> simp only <;> ring
    · refine ⟨-1, Or.inr rfl, fun a => ?_⟩
      rw [rotate_mul, h, (eulerToQuat_spec 0 0 Real.pi).2]
      simp only [Real.cos_zero, Real.sin_zero, Real.cos_pi, Real.sin_pi]
      rw [← key (3 * a * -1)]
      congr 1
      ext <;> simp only <;> ring
  have hline : (⟨[⟨0, 0, 0⟩, ⟨3, 0, 4⟩], []⟩ : Spline).sValue ⟨⟨3 / 2, 0, 2⟩, (directionToQuat ⟨3, 0, 4⟩).mul (eulerToQuat rpy)⟩ 3 =
      (⟨⟨0, 0, 0⟩, ⟨3, 0, 4⟩⟩ : Seg).sValueSeg ⟨⟨3 / 2, 3 * σ, 2⟩, ⟨3 / 2, -(3 * σ), 2⟩⟩ true := by
    have h0 := hr 1
    have h1 := hr (-1)
    simp only [mul_one, mul_neg] at h0 h1
    unfold Spline.sValue Seg.getSValue transformPoint
    simp only [h0, h1, Pt.add]
    simp
  obtain ⟨c1, -⟩ := s_of_crossing ⟨⟨0, 0, 0⟩, ⟨3, 0, 4⟩⟩ ⟨⟨3 / 2, 3 * σ, 2⟩, ⟨3 / 2, -(3 * σ), 2⟩⟩
    (by rcases hσ with rfl | rfl <;> refine ⟨Or.inr ?_, Or.inr ?_, Or.inr ?_, Or.inr ?_⟩ <;> unfold area <;> norm_num [abs_of_neg, abs_of_pos])
    (by rcases hσ with rfl | rfl <;> unfold area <;> norm_num) true (by norm_num)
  obtain ⟨s', q, d1, d2, -⟩ := c1 ⟨⟨3 / 2, 0, 2⟩, ⟨1 / 2, by norm_num, by norm_num, by norm_num, by norm_num⟩,
    ⟨1 / 2, by norm_num, by norm_num, by norm_num, by simp only; ring⟩⟩
  have hpt := (straight_facts (by simp) d2).1
  rw [d1] at hline
  have hpose := pose_at e2 e3 true
  have hdef : ∃ y, canonicalPose ⟨[⟨0, 0, 0⟩, ⟨3, 0, 4⟩], []⟩ true ⟨7, s, 0, rpy⟩ = some y := by
    unfold canonicalPose
    rw [hm]
    simp only [Option.bind_some]
    unfold adjust
    simp only [hline, hpt, hpose, Option.map_some, Option.bind_some, if_true]
    exact ⟨_, rfl⟩
  obtain ⟨y, hy⟩ := hdef
  exact ⟨_, ⟨7, s, 0, rpy⟩, y.1, y.2, _, _, hy, e2, e3, rfl, by norm_num, hp⟩

end Verif.Matching
