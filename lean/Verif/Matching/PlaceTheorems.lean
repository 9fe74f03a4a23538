import Verif.Matching.AngleTheorems
import Verif.Geometry.SplinePlaceTheorems
import Verif.Geometry.SplineUseTheorems
import Verif.Geometry.TurnTheorems
/-! C218, C219: the place of a pose on a lane, and back. -/
namespace Verif.Matching
open Verif.Geometry Classical

/-- The pose of a spline at a place with a point and a direction. -/
theorem pose_at {k : Spline} {s : ℝ} {c t : Pt} (hc : k.point s = some c) (ht : k.tangent s = some t) (f : Bool) :
    splinePose k s f = some ⟨c, eulerToQuat (directionAngles t f)⟩ := by
  unfold Spline.point at hc
  unfold Spline.tangent at ht
  unfold splinePose
  split
  · rename_i e; rw [e] at hc; cases hc
  · rename_i e; rw [e] at ht; cases ht
  · rename_i p q e
    simp only [e] at hc ht
    split at ht
    · simp only [Option.some.injEq] at ht
      unfold segPose
      rw [hc, ← ht]; rfl
    · cases ht
  · rename_i h0 h1 h2
    split at hc
    · rename_i e; exact absurd e h0
    · rename_i e; exact absurd e (h1 _)
    · rename_i e; exact absurd e (h2 _ _)
    split at ht
    · rename_i e; exact absurd e h0
    · rename_i e; exact absurd e (h1 _)
    · rename_i e; exact absurd e (h2 _ _)
    unfold Spline.onCurve at *
    split
    · rename_i i v e
      rw [e] at hc ht
      simp only [Option.map_eq_some_iff] at hc ht ⊢
      obtain ⟨x, hx, rfl⟩ := hc
      obtain ⟨y, hy, rfl⟩ := ht
      rw [hx] at hy; cases hy
      exact ⟨x, hx, rfl⟩
    · rename_i e
      rw [e] at hc; cases hc

theorem angles_true (t : Pt) : eulerToQuat (directionAngles t true) = directionToQuat t := by
  unfold directionAngles directionToQuat
  simp

/-- The left axis of the orientation of a direction. -/
theorem directionToQuat_left (d : Pt) :
    rotate (directionToQuat d) ⟨0, Real.sqrt (d.x ^ 2 + d.y ^ 2), 0⟩ = ⟨-d.y, d.x, 0⟩ := by
  unfold directionToQuat
  obtain ⟨hu, hr⟩ := eulerToQuat_spec 0 (atan2 (-d.z) (Real.sqrt (d.x ^ 2 + d.y ^ 2))) (atan2 d.y d.x)
  rw [hr]
  have a1 := @atan2_cos d.y d.x
  have a2 := @atan2_sin d.y d.x
  simp only [Real.cos_zero, Real.sin_zero]
  ext <;> simp only
  · linear_combination -a2
  · linear_combination a1
  · ring

theorem conj_rotate_xy (q : Quat) (v : Pt) :
    (rotate q.conj v).x = v.x * (rotate q ⟨1, 0, 0⟩).x + v.y * (rotate q ⟨1, 0, 0⟩).y + v.z * (rotate q ⟨1, 0, 0⟩).z ∧
    (rotate q.conj v).y = v.x * (rotate q ⟨0, 1, 0⟩).x + v.y * (rotate q ⟨0, 1, 0⟩).y + v.z * (rotate q ⟨0, 1, 0⟩).z := by
  unfold rotate Quat.conj
  constructor <;> simp only <;> ring

theorem rotate_scaled (q : Quat) (a : ℝ) :
    rotate q ⟨a, 0, 0⟩ = ⟨a * (rotate q ⟨1, 0, 0⟩).x, a * (rotate q ⟨1, 0, 0⟩).y, a * (rotate q ⟨1, 0, 0⟩).z⟩ ∧
    rotate q ⟨0, a, 0⟩ = ⟨a * (rotate q ⟨0, 1, 0⟩).x, a * (rotate q ⟨0, 1, 0⟩).y, a * (rotate q ⟨0, 1, 0⟩).z⟩ := by
  unfold rotate
  constructor <;> (ext <;> simp only <;> ring)

theorem planar_pos {t : Pt} (h : Passable t) : 0 < Real.sqrt (t.x ^ 2 + t.y ^ 2) ∧ 0 < t.norm := by
  have hp : 0 < t.x ^ 2 + t.y ^ 2 := by
    rcases h with h | h
    · have := sq_pos_of_ne_zero h; have := sq_nonneg t.y; linarith
    · have := sq_pos_of_ne_zero h; have := sq_nonneg t.x; linarith
  refine ⟨Real.sqrt_pos.mpr hp, ?_⟩
  unfold Pt.norm
  apply Real.sqrt_pos.mpr
  have := sq_nonneg t.z; linarith

theorem unit_rotation {a b : Quat} (ha : Geometry.Unit a) (hb : Geometry.Unit b) : Geometry.Unit (getRotation a b) := by
  have h : (a.x ^ 2 + a.y ^ 2 + a.z ^ 2 + a.w ^ 2) * (b.x ^ 2 + b.y ^ 2 + b.z ^ 2 + b.w ^ 2) = 1 := by
    unfold Geometry.Unit at ha hb; rw [ha, hb]; norm_num
  unfold Geometry.Unit getRotation Quat.conj Quat.mul
  simp only
  rw [← h]; ring

/-- The test of the heading in the code is the one of the specification. -/
theorem sideways_iff {t : Pt} {q : Quat} (ht : Passable t) (hq : Geometry.Unit q) :
    (|(quatToEuler (getRotation (directionToQuat t) q)).z| > Real.pi * 45 / 180 ∧
      |(quatToEuler (getRotation (directionToQuat t) q)).z| < Real.pi - Real.pi * 45 / 180) ↔ Sideways (heading q) t := by
  obtain ⟨hu, hf, -⟩ := directionToQuat_forward t
  have hl := directionToQuat_left t
  obtain ⟨h2, h3⟩ := planar_pos ht
  rw [yaw_beyond (unit_rotation hu hq)]
  unfold getRotation Sideways heading
  rw [rotate_mul, (conj_rotate_xy _ _).1, (conj_rotate_xy _ _).2]
  rw [(rotate_scaled _ _).1] at hf
  rw [(rotate_scaled _ _).2] at hl
  have hn : Real.sqrt (t.x ^ 2 + t.y ^ 2 + t.z ^ 2) = t.norm := rfl
  rw [hn]
  generalize rotate (directionToQuat t) ⟨1, 0, 0⟩ = a at *
  generalize rotate (directionToQuat t) ⟨0, 1, 0⟩ = b at *
  generalize rotate q ⟨1, 0, 0⟩ = f at *
  generalize Real.sqrt (t.x ^ 2 + t.y ^ 2) = h at *
  generalize t.norm = n at *
  have f1 := congrArg Pt.x hf
  have f2 := congrArg Pt.y hf
  have f3 := congrArg Pt.z hf
  have l1 := congrArg Pt.x hl
  have l2 := congrArg Pt.y hl
  have l3 := congrArg Pt.z hl
  simp only at f1 f2 f3 l1 l2 l3
  have e1 : f.x * t.x + f.y * t.y + f.z * t.z = n * (f.x * a.x + f.y * a.y + f.z * a.z) := by rw [← f1, ← f2, ← f3]; ring
  have e2 : t.x * f.y - t.y * f.x = h * (f.x * b.x + f.y * b.y + f.z * b.z) := by
    linear_combination -f.x * l1 - f.y * l2 - f.z * l3
  rw [e1, e2, abs_mul, abs_mul, abs_of_pos h2, abs_of_pos h3]
  have hp := mul_pos h3 h2
  constructor
  · intro hlt
    have := mul_lt_mul_of_pos_left hlt hp
    linarith
  · intro hlt
    have : (n * h) * |f.x * a.x + f.y * a.y + f.z * a.z| < (n * h) * |f.x * b.x + f.y * b.y + f.z * b.z| := by linarith
    exact lt_of_mul_lt_mul_left this hp.le

/-- **C218** A pose whose line across meets a lane at the place `s`, with the point `c` and the direction `t` of the lane there, is on that lane
unless it is more than a metre above or below it or is turned across it by more than 45 degrees. Its place has the coordinate `s`, the distance
from the centre line, positive to the left, and the turn from the direction of the lane to its own orientation. -/
theorem C218_place (k : Spline) (id : Id) (p : Pose) (reach s : ℝ) (c t : Pt) (hs : k.sValue p reach = some (some s)) (hc : k.point s = some c)
    (ht : k.tangent s = some t) (hp : Passable t) (hu : Geometry.Unit p.orientation) :
    (1 < |p.position.z - c.z| ∨ Sideways (heading p.orientation) t → toLane k id p reach = some none) ∧
    (¬ (1 < |p.position.z - c.z| ∨ Sideways (heading p.orientation) t) →
      ∃ l, toLane k id p reach = some (some l) ∧ l.id = id ∧ l.s = s ∧ OffsetOf c t p.position l.offset ∧
        SameTurn ((directionToQuat t).mul (eulerToQuat l.rpy)) p.orientation) := by
  have e := pose_at hc ht true
  rw [angles_true] at e
  have hside := sideways_iff (q := p.orientation) hp hu
  have hn : k.normal s = some ⟨-t.y, t.x, 0⟩ := by rw [spline_normal, ht]; rfl
  unfold toLane
  rw [hs]
  simp only [e]
  unfold withinThreshold altitudeThreshold
  constructor
  · intro h
    by_cases hz : |p.position.z - c.z| ≤ 1
    · rw [if_neg (by simpa using hz)]
      have := h.resolve_left (not_lt.mpr hz)
      rw [if_pos (hside.mpr this)]
    · rw [if_pos hz]
  · intro h
    push Not at h
    rw [if_neg (by simpa using h.1), if_neg (fun x => h.2 (hside.mp x))]
    unfold squaredDistance distanceVector
    rw [hc, hn]
    refine ⟨_, rfl, rfl, rfl, ?_, ?_⟩
    · have hd : 0 ≤ sq2 p.position c := by unfold sq2; positivity
      have hpos : t.x * (p.position.y - c.y) - t.y * (p.position.x - c.x) ≠ 0 → 0 < sq2 p.position c := by
        intro hne
        refine lt_of_le_of_ne hd fun h0 => hne ?_
        unfold sq2 at h0
        have h1 := sq_nonneg (p.position.x - c.x)
        have h2 := sq_nonneg (p.position.y - c.y)
        have h3 : p.position.x - c.x = 0 := by apply pow_eq_zero_iff (two_ne_zero) |>.mp; linarith
        have h4 : p.position.y - c.y = 0 := by apply pow_eq_zero_iff (two_ne_zero) |>.mp; linarith
        rw [h3, h4]; ring
      have key : ∀ w : ℝ, w = t.x * (p.position.y - c.y) - t.y * (p.position.x - c.x) →
          OffsetOf c t p.position (if w < 0 then Real.sqrt (sq2 p.position c) * (-1) else Real.sqrt (sq2 p.position c)) := by
        intro w hw
        unfold OffsetOf
        rw [← hw] at hpos ⊢
        refine ⟨?_, ?_, ?_⟩
        · split
          · rw [mul_neg_one, neg_sq, Real.sq_sqrt hd]
          · rw [Real.sq_sqrt hd]
        · intro h0
          rw [if_neg (not_lt.mpr h0.le)]
          exact Real.sqrt_pos.mpr (hpos h0.ne')
        · intro h0
          rw [if_pos h0]
          have := Real.sqrt_pos.mpr (hpos h0.ne)
          linarith
      exact key _ (by simp only [inner]; ring)
    · intro v
      have hq := (directionToQuat_forward t).1
      simp only
      rw [rotate_mul, C217_angles _ (unit_rotation hq hu)]
      unfold getRotation
      rw [rotate_mul, rotate_conj' hq]

/-- **C218** A pose whose line across does not meet the lane has no place on it. -/
theorem C218_no_place (k : Spline) (id : Id) (p : Pose) (reach : ℝ) (hs : k.sValue p reach = some none) : toLane k id p reach = some none := by
  unfold toLane; rw [hs]

/-- Conversely a place that is given is one where the line across the pose meets the lane. -/
theorem toLane_some {k : Spline} {id : Id} {p : Pose} {reach : ℝ} {l : LanePose} (h : toLane k id p reach = some (some l)) :
    k.sValue p reach = some (some l.s) ∧ (∃ c, k.point l.s = some c) ∧ (∃ t, k.tangent l.s = some t) ∧ l.id = id := by
  unfold toLane at h
  split at h
  · cases h
  · cases h
  · rename_i s hs
    split at h
    · cases h
    · split at h
      · cases h
      · simp only at h
        split at h
        · cases h
        · split at h
          · rename_i d n v hd hn hv
            simp only [Option.some.injEq] at h
            rw [← h]
            refine ⟨hs, ?_, ?_, rfl⟩
            · unfold squaredDistance at hd
              simp only [Option.map_eq_some_iff] at hd
              obtain ⟨c, hc, -⟩ := hd
              exact ⟨c, hc⟩
            · rw [spline_normal] at hn
              simp only [Option.map_eq_some_iff] at hn
              obtain ⟨c, hc, -⟩ := hn
              exact ⟨c, hc⟩
          · cases h

theorem onSegment_across {pos c : Pt} {θ reach : ℝ}
    (h : OnSegment ⟨pos.x - reach * Real.sin θ, pos.y + reach * Real.cos θ, pos.z⟩ ⟨pos.x + reach * Real.sin θ, pos.y - reach * Real.cos θ, pos.z⟩ c) :
    Beside ⟨pos, ⟨0, 0, Real.sin (θ / 2), Real.cos (θ / 2)⟩⟩ c ∧ sq2 pos c ≤ reach ^ 2 := by
  obtain ⟨u, u0, u1, hx, hy⟩ := h
  simp only at hx hy
  have e1 : Real.sin θ = 2 * Real.sin (θ / 2) * Real.cos (θ / 2) := by
    rw [← Real.sin_two_mul]; ring_nf
  have e2 : Real.cos θ = Real.cos (θ / 2) * Real.cos (θ / 2) - Real.sin (θ / 2) * Real.sin (θ / 2) := by
    rw [← Real.cos_add]; ring_nf
  constructor
  · refine ⟨reach * (1 - 2 * u), ?_, ?_⟩
    · rw [hx]; simp only [rotate]; rw [e1]; ring
    · rw [hy]; simp only [rotate]; rw [e2]; ring
  · unfold sq2
    rw [hx, hy]
    have h1 := Real.sin_sq_add_cos_sq θ
    have : (pos.x - (pos.x - reach * Real.sin θ + u * (pos.x + reach * Real.sin θ - (pos.x - reach * Real.sin θ)))) ^ 2 +
        (pos.y - (pos.y + reach * Real.cos θ + u * (pos.y - reach * Real.cos θ - (pos.y + reach * Real.cos θ)))) ^ 2 =
        reach ^ 2 * (1 - 2 * u) ^ 2 * (Real.sin θ ^ 2 + Real.cos θ ^ 2) := by ring
    rw [this, h1, mul_one]
    have h2 : (1 - 2 * u) ^ 2 ≤ 1 := by nlinarith
    have := mul_le_mul_of_nonneg_left h2 (sq_nonneg reach)
    linarith

/-- **C218** For a level pose with heading `θ` and a lane of three or more points: the place that is given has its point straight beside the pose and
no farther than `reach`, and if a point of the lane is straight beside the pose within `reach`, a crossing at that place or before it is what is
tested. Missing: poses with roll or pitch, crossings exactly at a joint of the curves of the lane, and equations of crossings within the tolerance
of the solver. -/
theorem C218_beside_partial (raw : List Pt) (k : Spline) (h : Spline.make raw = some k) (h3 : 3 ≤ k.cp.length) (id : Id) (pos : Pt) (θ reach : ℝ)
    (hreach : reach ≠ 0) (p0 p1 : Pt) (hp0 : p0 = ⟨pos.x - reach * Real.sin θ, pos.y + reach * Real.cos θ, pos.z⟩)
    (hp1 : p1 = ⟨pos.x + reach * Real.sin θ, pos.y - reach * Real.cos θ, pos.z⟩)
    (hr : ∀ c ∈ k.curves, WellPosed fun t => area p0 p1 (c.point t)) (p : Pose) (hp : p = ⟨pos, ⟨0, 0, Real.sin (θ / 2), Real.cos (θ / 2)⟩⟩) :
    (∀ l, toLane k id p reach = some (some l) → 0 ≤ l.s ∧ l.s ≤ k.total ∧ ((∀ i : Nat, l.s ≠ ((k.curves.take i).map Curve.length).sum) →
      ∃ c, k.point l.s = some c ∧ Beside p c ∧ sq2 pos c ≤ reach ^ 2)) ∧
    (∀ s c, 0 ≤ s → s ≤ k.total → k.point s = some c → OnSegment p0 p1 c →
      ∃ s', s' ≤ s ∧ k.sValue p reach = some (some s')) := by
  obtain ⟨o, e1, e2, -, e3⟩ := spline_place_partial raw k h h3 pos θ reach hreach p0 p1 hp0 hp1 hr
  rw [← hp] at e1
  constructor
  · intro l hl
    obtain ⟨hs, -⟩ := toLane_some hl
    rw [e1] at hs
    obtain ⟨a, b, c⟩ := e3 l.s (by simpa using hs)
    refine ⟨a, b, fun hj => ?_⟩
    obtain ⟨q, hq, hon⟩ := c hj
    rw [hp0, hp1] at hon
    have := onSegment_across hon
    rw [hp]
    exact ⟨q, hq, this.1, this.2⟩
  · intro s c h0 h1 hc hon
    obtain ⟨s', hs', hle⟩ := e2 s c h0 h1 hc hon
    exact ⟨s', hle, by rw [e1, hs']⟩

/-- A pose on a straight lane through three points, turned round, is a case for `C218_beside_partial`. -/
example : ∃ (k : Spline) (p0 p1 : Pt), Spline.make [⟨0, 0, 0⟩, ⟨1, 0, 0⟩, ⟨2, 0, 0⟩] = some k ∧ 3 ≤ k.cp.length ∧
    p0 = ⟨1 / 4 - 1 * Real.sin Real.pi, 0 + 1 * Real.cos Real.pi, 0⟩ ∧ p1 = ⟨1 / 4 + 1 * Real.sin Real.pi, 0 - 1 * Real.cos Real.pi, 0⟩ ∧
    ∀ c ∈ k.curves, WellPosed fun t => area p0 p1 (c.point t) :=
  ⟨_, ⟨1 / 4, -1, 0⟩, ⟨1 / 4, 1, 0⟩, straight_made, by simp, by simp, by simp,
    fun c hc => (straight_regular c hc 0 ⟨1 / 4, -1, 0⟩ ⟨1 / 4, 1, 0⟩ rfl rfl).2⟩

/-- The pose of a place on a lane. -/
theorem place_at {k : Spline} {l : LanePose} {c t : Pt} (hc : k.point l.s = some c) (ht : k.tangent l.s = some t)
    (hp : 1 / 2 ^ 52 < Real.sqrt (t.x ^ 2 + t.y ^ 2)) (fill : Bool) :
    place k l fill = some ⟨c.add (((⟨-t.y, t.x, 0⟩ : Pt).smul (1 / Real.sqrt (t.x ^ 2 + t.y ^ 2))).smul l.offset),
      (eulerToQuat (directionAngles t fill)).mul (eulerToQuat l.rpy)⟩ := by
  have hpos : 0 < Real.sqrt (t.x ^ 2 + t.y ^ 2) := lt_trans (by positivity) hp
  have hn : k.normal l.s = some ⟨-t.y, t.x, 0⟩ := by rw [spline_normal, ht]; rfl
  have hnorm : (⟨-t.y, t.x, 0⟩ : Pt).norm = Real.sqrt (t.x ^ 2 + t.y ^ 2) := by
    unfold Pt.norm; congr 1; simp only; ring
  have hN : Geometry.normalize ⟨-t.y, t.x, 0⟩ = some ((⟨-t.y, t.x, 0⟩ : Pt).smul (1 / Real.sqrt (t.x ^ 2 + t.y ^ 2))) := by
    unfold Geometry.normalize
    rw [hnorm, if_neg (by rw [abs_of_pos hpos]; unfold eps; exact not_le.mpr hp)]
  unfold place
  rw [pose_at hc ht true, hn, ht]
  simp only [Option.bind_some, hN]

/-- **C219** From the map to a lane and back: the orientation is the same (if the pitch of the road is used, or the road is level there), the height
is that of the lane, and the position seen from above is the same exactly if the centre line is met at right angles. -/
theorem C219_back (k : Spline) (id : Id) (p : Pose) (reach : ℝ) (l : LanePose) (h : toLane k id p reach = some (some l)) (c t : Pt)
    (hc : k.point l.s = some c) (ht : k.tangent l.s = some t) (hp : 1 / 2 ^ 52 < Real.sqrt (t.x ^ 2 + t.y ^ 2)) (hu : Geometry.Unit p.orientation)
    (fill : Bool) (hf : fill = true ∨ t.z = 0) :
    ∃ m, place k l fill = some m ∧ SameTurn m.orientation p.orientation ∧ m.position.z = c.z ∧ |p.position.z - m.position.z| ≤ 1 ∧
      (m.position.x = p.position.x ∧ m.position.y = p.position.y ↔
        (p.position.x - c.x) * t.x + (p.position.y - c.y) * t.y = 0) := by
  have hpos : 0 < Real.sqrt (t.x ^ 2 + t.y ^ 2) := lt_trans (by positivity) hp
  have hsq : Real.sqrt (t.x ^ 2 + t.y ^ 2) ^ 2 = t.x ^ 2 + t.y ^ 2 := Real.sq_sqrt (by positivity)
  have hpass : Passable t := by
    by_contra hn
    unfold Passable at hn
    push Not at hn
    rw [hn.1, hn.2] at hpos
    simp at hpos
  obtain ⟨hs, -, -, -⟩ := toLane_some h
  obtain ⟨h1, h2⟩ := C218_place k id p reach l.s c t hs hc ht hpass hu
  have hcond : ¬ (1 < |p.position.z - c.z| ∨ Sideways (heading p.orientation) t) := by
    intro hx; rw [h1 hx] at h; cases h
  obtain ⟨l', hl', -, -, ho, hturn⟩ := h2 hcond
  rw [h] at hl'
  cases hl'
  have hang : eulerToQuat (directionAngles t fill) = directionToQuat t := by
    rcases hf with hf | hf
    · rw [hf, angles_true]
    · rw [← angles_true]
      unfold directionAngles
      cases fill
      · have : atan2 (-t.z) (Real.sqrt (t.x ^ 2 + t.y ^ 2)) = 0 := by
          rw [hf, neg_zero]
          unfold atan2
          exact Complex.arg_ofReal_of_nonneg hpos.le
        simp [this]
      · rfl
  refine ⟨_, place_at hc ht hp fill, ?_, ?_, ?_, ?_⟩
  · rw [hang]; exact hturn
  · simp [Pt.add, Pt.smul]
  · simp only [Pt.add, Pt.smul, zero_mul, add_zero]
    exact not_lt.mp (fun hx => hcond (Or.inl hx))
  · simp only [Pt.add, Pt.smul]
    obtain ⟨o1, o2, o3⟩ := ho
    unfold sq2 at o1
    generalize Real.sqrt (t.x ^ 2 + t.y ^ 2) = n at *
    generalize l.offset = o at *
    generalize p.position.x = px at *
    generalize p.position.y = py at *
    constructor
    · rintro ⟨ex, ey⟩
      rw [← ex, ← ey]
      ring
    · intro h0
      -- the displacement is `w / n` times the unit normal
      have hw2 : (t.x * (py - c.y) - t.y * (px - c.x)) ^ 2 = (n * o) ^ 2 := by
        rw [mul_pow, hsq, o1]
        linear_combination (-(px - c.x) * t.x - (py - c.y) * t.y) * h0
      have hw : t.x * (py - c.y) - t.y * (px - c.x) = n * o := by
        rcases sq_eq_sq_iff_eq_or_eq_neg.mp hw2 with hw | hw
        · exact hw
        · rcases lt_trichotomy (t.x * (py - c.y) - t.y * (px - c.x)) 0 with hx | hx | hx
          · have := o3 hx; rw [hw] at hx
            have := mul_pos_of_neg_of_neg (o3 (by rw [hw]; exact hx)) (by linarith : -n < 0)
            linarith
          · rw [hx] at hw ⊢; linarith
          · have := mul_pos hpos (o2 hx); linarith
      have hn0 : n ≠ 0 := hpos.ne'
      have hxx : n ^ 2 * (px - c.x) = -t.y * (n * o) := by
        rw [hsq]; linear_combination t.x * h0 - t.y * hw
      have hyy : n ^ 2 * (py - c.y) = t.x * (n * o) := by
        rw [hsq]; linear_combination t.y * h0 + t.x * hw
      constructor
      · have : px - c.x = -t.y * (1 / n) * o := by
          field_simp
          have := mul_left_cancel₀ hn0 (show n * (n * (px - c.x)) = n * (-t.y * o) by linear_combination hxx)
          linarith
        linarith
      · have : py - c.y = t.x * (1 / n) * o := by
          field_simp
          have := mul_left_cancel₀ hn0 (show n * (n * (py - c.y)) = n * (t.x * o) by linear_combination hyy)
          linarith
        linarith

/-! ### Straight lanes of two points -/

theorem straight_facts {p q : Pt} (h : p ≠ q) {s : ℝ} {c : Pt} (hc : (⟨p, q⟩ : Seg).getPoint s true = some c) :
    (⟨[p, q], []⟩ : Spline).point s = some c ∧ (⟨[p, q], []⟩ : Spline).tangent s = some ⟨q.x - p.x, q.y - p.y, q.z - p.z⟩ ∧
      ∃ u, c = ⟨p.x + (q.x - p.x) * u, p.y + (q.y - p.y) * u, p.z + (q.z - p.z) * u⟩ := by
  obtain ⟨-, ht, hpos, hall⟩ := two_points p q h
  have hl : (⟨p, q⟩ : Seg).length = distance q p := rfl
  have hr : 0 ≤ s / distance q p ∧ s / distance q p ≤ 1 := by
    unfold Seg.getPoint at hc
    simp only [if_true, hl] at hc
    split at hc
    · rename_i h; exact h
    · cases hc
  have h0 : 0 ≤ s := by have := mul_nonneg hr.1 hpos.le; rwa [div_mul_cancel₀ _ hpos.ne'] at this
  have h1 : s ≤ distance q p := (div_le_one hpos).mp hr.2
  obtain ⟨a, b⟩ := hall s h0 h1
  refine ⟨hc, b, s / distance q p, ?_⟩
  have : (⟨[p, q], []⟩ : Spline).point s = some c := hc
  rw [a] at this
  exact (Option.some.inj this).symm

/-- The heading of a level pose. -/
theorem heading_level (θ : ℝ) : heading ⟨0, 0, Real.sin (θ / 2), Real.cos (θ / 2)⟩ = ⟨Real.cos θ, Real.sin θ, 0⟩ := by
  have e1 : Real.sin θ = 2 * Real.sin (θ / 2) * Real.cos (θ / 2) := by rw [← Real.sin_two_mul]; ring_nf
  have e2 : Real.cos θ = Real.cos (θ / 2) * Real.cos (θ / 2) - Real.sin (θ / 2) * Real.sin (θ / 2) := by rw [← Real.cos_add]; ring_nf
  unfold heading rotate
  rw [e1, e2]
  ext <;> simp only <;> ring

theorem unit_level (θ : ℝ) : Geometry.Unit ⟨0, 0, Real.sin (θ / 2), Real.cos (θ / 2)⟩ := by
  unfold Geometry.Unit
  have := Real.sin_sq_add_cos_sq (θ / 2)
  simp only; linarith

/-- A lane of ten metres along the x axis and a pose a metre to its left, turned to the left by `θ` with sine 3/5: its line across meets the lane
at x = 23/4. -/
theorem skew_place (θ : ℝ) (hs : Real.sin θ = 3 / 5) (hc : Real.cos θ = 4 / 5) :
    ∃ s, (⟨[⟨0, 0, 0⟩, ⟨10, 0, 0⟩], []⟩ : Spline).sValue ⟨⟨5, 1, 0⟩, ⟨0, 0, Real.sin (θ / 2), Real.cos (θ / 2)⟩⟩ 2 = some (some s) ∧
      (⟨[⟨0, 0, 0⟩, ⟨10, 0, 0⟩], []⟩ : Spline).point s = some ⟨23 / 4, 0, 0⟩ ∧
      (⟨[⟨0, 0, 0⟩, ⟨10, 0, 0⟩], []⟩ : Spline).tangent s = some ⟨10, 0, 0⟩ := by
  obtain ⟨h1, -⟩ := s_of_pose ⟨⟨0, 0, 0⟩, ⟨10, 0, 0⟩⟩ ⟨5, 1, 0⟩ θ 2 true ⟨⟨19 / 5, 13 / 5, 0⟩, ⟨31 / 5, -(3 / 5), 0⟩⟩
    (by rw [hs, hc]; norm_num)
    (by refine ⟨Or.inr ?_, Or.inr ?_, Or.inr ?_, Or.inr ?_⟩ <;> unfold area <;> norm_num [abs_of_neg, abs_of_pos])
    (by unfold area; norm_num) (by norm_num)
  obtain ⟨s, q, e1, e2, hon⟩ := h1 ⟨⟨23 / 4, 0, 0⟩, ⟨23 / 40, by norm_num, by norm_num, by norm_num, by norm_num⟩,
    ⟨13 / 16, by norm_num, by norm_num, by norm_num, by norm_num⟩⟩
  obtain ⟨f1, f2, u, f3⟩ := straight_facts (by simp) e2
  obtain ⟨v, -, -, vx, vy⟩ := hon
  rw [f3] at vx vy
  simp only at vx vy
  have hv : v = 13 / 16 := by linarith
  have hu : u = 23 / 40 := by rw [hv] at vx; linarith
  refine ⟨s, e1, ?_, ?_⟩
  · rw [f1, f3, hu]; norm_num
  · rw [f2]; norm_num

theorem skew_angle : ∃ θ : ℝ, Real.sin θ = 3 / 5 ∧ Real.cos θ = 4 / 5 := by
  refine ⟨Real.arcsin (3 / 5), Real.sin_arcsin (by norm_num) (by norm_num), ?_⟩
  rw [Real.cos_arcsin, show (1 : ℝ) - (3 / 5) ^ 2 = (4 / 5) ^ 2 by norm_num, Real.sqrt_sq (by norm_num)]

theorem skew_lane : ∃ (p : Pose) (s : ℝ) (l : LanePose), Geometry.Unit p.orientation ∧ p.position = ⟨5, 1, 0⟩ ∧
    (⟨[⟨0, 0, 0⟩, ⟨10, 0, 0⟩], []⟩ : Spline).sValue p 2 = some (some s) ∧
    (⟨[⟨0, 0, 0⟩, ⟨10, 0, 0⟩], []⟩ : Spline).point s = some ⟨23 / 4, 0, 0⟩ ∧
    (⟨[⟨0, 0, 0⟩, ⟨10, 0, 0⟩], []⟩ : Spline).tangent s = some ⟨10, 0, 0⟩ ∧
    ¬ (1 < |p.position.z - 0| ∨ Sideways (heading p.orientation) ⟨10, 0, 0⟩) ∧
    toLane ⟨[⟨0, 0, 0⟩, ⟨10, 0, 0⟩], []⟩ 7 p 2 = some (some l) ∧ l.s = s := by
  obtain ⟨θ, hs, hc⟩ := skew_angle
  obtain ⟨s, e1, e2, e3⟩ := skew_place θ hs hc
  have hn : ¬ (1 < |(0 : ℝ) - 0| ∨ Sideways (heading ⟨0, 0, Real.sin (θ / 2), Real.cos (θ / 2)⟩) ⟨10, 0, 0⟩) := by
    rw [heading_level, hs, hc]
    unfold Sideways
    norm_num [abs_of_pos]
  obtain ⟨l, hl, -, h2, -⟩ := (C218_place _ 7 _ 2 s _ _ e1 e2 e3 (Or.inl (by norm_num)) (unit_level θ)).2 hn
  exact ⟨_, s, l, unit_level θ, rfl, e1, e2, e3, hn, hl, h2⟩

/-- **C219** The position is not kept by an entity turned against its lane: five metres along a lane of ten metres, a metre to its left, turned to
the left by 37 degrees, it comes back with another position. -/
theorem C219_skew_violated : ∃ raw k p l m, Spline.make raw = some k ∧ Geometry.Unit p.orientation ∧ toLane k 7 p 2 = some (some l) ∧
    place k l true = some m ∧ ¬ (m.position.x = p.position.x ∧ m.position.y = p.position.y) := by
  obtain ⟨p, s, l, hu, hp, e1, e2, e3, -, hl, rfl⟩ := skew_lane
  have h100 : Real.sqrt ((10 : ℝ) ^ 2 + 0 ^ 2) = 10 := by
    rw [show (10 : ℝ) ^ 2 + 0 ^ 2 = 10 ^ 2 by norm_num, Real.sqrt_sq (by norm_num)]
  obtain ⟨m, hm, -, -, -, hpos⟩ := C219_back _ 7 p 2 l hl _ _ e2 e3 (by simp only [h100]; norm_num) hu true (Or.inl rfl)
  refine ⟨_, _, p, l, m, (two_points ⟨0, 0, 0⟩ ⟨10, 0, 0⟩ (by simp)).1, hu, hl, hm, ?_⟩
  rw [hpos, hp]
  norm_num

/-- The middle of a lane that rises by four metres in three, met by a level pose with heading 0. -/
theorem rising_place :
    ∃ s, (⟨[⟨0, 0, 0⟩, ⟨3, 0, 4⟩], []⟩ : Spline).sValue ⟨⟨3 / 2, 0, 2⟩, ⟨0, 0, Real.sin (0 / 2), Real.cos (0 / 2)⟩⟩ 2 = some (some s) ∧
      (⟨[⟨0, 0, 0⟩, ⟨3, 0, 4⟩], []⟩ : Spline).point s = some ⟨3 / 2, 0, 2⟩ ∧
      (⟨[⟨0, 0, 0⟩, ⟨3, 0, 4⟩], []⟩ : Spline).tangent s = some ⟨3, 0, 4⟩ := by
  obtain ⟨h1, -⟩ := s_of_pose ⟨⟨0, 0, 0⟩, ⟨3, 0, 4⟩⟩ ⟨3 / 2, 0, 2⟩ 0 2 true ⟨⟨3 / 2, 2, 2⟩, ⟨3 / 2, -2, 2⟩⟩
    (by rw [Real.sin_zero, Real.cos_zero]; norm_num)
    (by refine ⟨Or.inr ?_, Or.inr ?_, Or.inr ?_, Or.inr ?_⟩ <;> unfold area <;> norm_num [abs_of_neg, abs_of_pos])
    (by unfold area; norm_num) (by norm_num)
  obtain ⟨s, q, e1, e2, hon⟩ := h1 ⟨⟨3 / 2, 0, 2⟩, ⟨1 / 2, by norm_num, by norm_num, by norm_num, by norm_num⟩,
    ⟨1 / 2, by norm_num, by norm_num, by norm_num, by norm_num⟩⟩
  obtain ⟨f1, f2, u, f3⟩ := straight_facts (by simp) e2
  obtain ⟨v, -, -, vx, vy⟩ := hon
  rw [f3] at vx vy
  simp only at vx vy
  have hu : u = 1 / 2 := by linarith
  refine ⟨s, e1, ?_, ?_⟩
  · rw [f1, f3, hu]; norm_num
  · rw [f2]; norm_num

/-- **C219** Without the pitch of the road the orientation is not kept on a slope: a level pose on a rising lane comes back with its front turned
down. -/
theorem C219_pitch_violated : ∃ raw k p l m, Spline.make raw = some k ∧ Geometry.Unit p.orientation ∧ (heading p.orientation).z = 0 ∧
    toLane k 7 p 2 = some (some l) ∧ place k l false = some m ∧ (heading m.orientation).z < 0 := by
  obtain ⟨s, e1, e2, e3⟩ := rising_place
  have hu := unit_level 0
  have h5 : (⟨3, 0, 4⟩ : Pt).norm = 5 := by
    unfold Pt.norm
    rw [show (3 : ℝ) ^ 2 + 0 ^ 2 + 4 ^ 2 = 5 ^ 2 by norm_num, Real.sqrt_sq (by norm_num)]
  have h3 : Real.sqrt ((3 : ℝ) ^ 2 + 0 ^ 2) = 3 := by
    rw [show (3 : ℝ) ^ 2 + 0 ^ 2 = 3 ^ 2 by norm_num, Real.sqrt_sq (by norm_num)]
  have hn : ¬ (1 < |(2 : ℝ) - 2| ∨ Sideways (heading ⟨0, 0, Real.sin (0 / 2), Real.cos (0 / 2)⟩) ⟨3, 0, 4⟩) := by
    rw [heading_level, Real.sin_zero, Real.cos_zero]
    unfold Sideways
    norm_num
  obtain ⟨l, hl, -, rfl, -, hturn⟩ := (C218_place _ 7 _ 2 s _ _ e1 e2 e3 (Or.inl (by norm_num)) hu).2 hn
  obtain ⟨huq, hfw, -⟩ := directionToQuat_forward ⟨3, 0, 4⟩
  rw [h5, (rotate_scaled _ _).1] at hfw
  -- the turn from the lane to the pose is the inverse of the orientation of the lane
  have hrel : ∀ v, rotate (eulerToQuat l.rpy) v = rotate (directionToQuat ⟨3, 0, 4⟩).conj (rotate ⟨0, 0, Real.sin (0 / 2), Real.cos (0 / 2)⟩ v) := by
    intro v
    have := hturn v
    rw [← this, rotate_mul, rotate_conj huq]
  have hlevel : rotate ⟨0, 0, Real.sin (0 / 2), Real.cos (0 / 2)⟩ ⟨1, 0, 0⟩ = ⟨1, 0, 0⟩ := by
    have := heading_level 0
    unfold heading at this
    rw [this, Real.sin_zero, Real.cos_zero]
  have hz : (rotate (directionToQuat ⟨3, 0, 4⟩).conj ⟨1, 0, 0⟩).z = -(4 / 5) := by
    -- the third axis of the lane, from its angles
    obtain ⟨-, hr⟩ := eulerToQuat_spec 0 (atan2 (-4) 3) (atan2 0 3)
    have hy : atan2 0 3 = 0 := by
      unfold atan2
      exact Complex.arg_ofReal_of_nonneg (by norm_num : (0 : ℝ) ≤ 3)
    have hs5 : Real.sqrt ((3 : ℝ) ^ 2 + (-4) ^ 2) = 5 := by
      rw [show (3 : ℝ) ^ 2 + (-4) ^ 2 = 5 ^ 2 by norm_num, Real.sqrt_sq (by norm_num)]
    have hsin := @atan2_sin (-4) 3
    rw [hs5] at hsin
    have e : directionToQuat ⟨3, 0, 4⟩ = eulerToQuat ⟨0, atan2 (-4) 3, atan2 0 3⟩ := by
      unfold directionToQuat
      simp only [h3]
    have hc : (rotate (directionToQuat ⟨3, 0, 4⟩).conj ⟨1, 0, 0⟩).z = (rotate (directionToQuat ⟨3, 0, 4⟩) ⟨0, 0, 1⟩).x := by
      unfold rotate Quat.conj; simp only; ring
    rw [hc, e, hr, hy]
    simp only [Real.cos_zero, Real.sin_zero]
    linarith
  refine ⟨_, _, _, l, _, (two_points ⟨0, 0, 0⟩ ⟨3, 0, 4⟩ (by simp)).1, hu, ?_, hl, place_at e2 e3 (by simp only [h3]; norm_num) false, ?_⟩
  · rw [heading_level]
  · have hflat : eulerToQuat (directionAngles ⟨3, 0, 4⟩ false) = ⟨0, 0, Real.sin (0 / 2), Real.cos (0 / 2)⟩ := by
      have hy : atan2 0 3 = 0 := by
        unfold atan2
        exact Complex.arg_ofReal_of_nonneg (by norm_num : (0 : ℝ) ≤ 3)
      unfold directionAngles eulerToQuat
      simp [hy]
    unfold heading
    simp only [hflat]
    rw [rotate_mul, hrel, hlevel]
    have : ∀ v, (rotate ⟨0, 0, Real.sin (0 / 2), Real.cos (0 / 2)⟩ v).z = v.z := by
      intro v; unfold rotate; simp
    rw [this, hz]
    norm_num

end Verif.Matching
