import Verif.Geometry.Turn
import Verif.Geometry.Spec
import Verif.Geometry.Box
import Verif.Geometry.SegmentTheorems
import Mathlib.Tactic.Linarith
import Mathlib.Tactic.FieldSimp
import Mathlib.Tactic.LinearCombination
import Mathlib.Tactic.NormNum
import Mathlib.Tactic.Positivity
/-
Properties of orientations: turns, directions, interpolation, angle between orientations.
-/
namespace Verif.Geometry
open Classical

/-- The quaternion of a turn to the left by `θ` about the vertical axis. -/
noncomputable def yawQuat (θ : ℝ) : Quat := ⟨0, 0, Real.sin (θ / 2), Real.cos (θ / 2)⟩

theorem half_angle (θ : ℝ) : Real.cos θ = Real.cos (θ / 2) ^ 2 - Real.sin (θ / 2) ^ 2 ∧ Real.sin θ = 2 * Real.sin (θ / 2) * Real.cos (θ / 2) := by
  have h1 := Real.cos_sq' (θ / 2)
  have h2 := Real.cos_two_mul (θ / 2)
  have h3 := Real.sin_two_mul (θ / 2)
  have e : 2 * (θ / 2) = θ := by ring
  rw [e] at h2 h3
  exact ⟨by rw [h2]; linarith, h3⟩

/-- **C84** A pose that is turned to the left by `θ` moves a point the way plane geometry says: turned by `θ`, then shifted. -/
theorem transformPoint_yaw (pos : Pt) (θ : ℝ) (p : Pt) :
    transformPoint ⟨pos, ⟨0, 0, Real.sin (θ / 2), Real.cos (θ / 2)⟩⟩ p =
      ⟨pos.x + (Real.cos θ * p.x - Real.sin θ * p.y), pos.y + (Real.sin θ * p.x + Real.cos θ * p.y), pos.z + p.z⟩ := by
  obtain ⟨h1, h2⟩ := half_angle θ
  have h3 := Real.sin_sq_add_cos_sq (θ / 2)
  unfold transformPoint rotate Pt.add
  rw [h1, h2]
  ext <;> simp only
  · ring
  · ring
  · linear_combination p.z * h3

/-- **C82** The outline of a box of a pose with heading `θ` goes round the four corners of the box: half the length ahead of and behind
its centre and half the width to the left and right of it, in the directions of the heading. -/
theorem outline_corners (pos : Pt) (θ : ℝ) (box : BBox) :
    let corner := fun (i j : ℝ) =>
      (⟨pos.x + (box.center.x + i * (box.dims.x / 2)) * Real.cos θ - (box.center.y + j * (box.dims.y / 2)) * Real.sin θ,
        pos.y + (box.center.x + i * (box.dims.x / 2)) * Real.sin θ + (box.center.y + j * (box.dims.y / 2)) * Real.cos θ, 0⟩ : Pt)
    outline ⟨pos, ⟨0, 0, Real.sin (θ / 2), Real.cos (θ / 2)⟩⟩ box = [corner 1 1, corner (-1) 1, corner (-1) (-1), corner 1 (-1), corner 1 1] := by
  intro corner
  unfold outline toRing corners
  simp only [List.map_cons, List.map_nil, transformPoint_yaw, flat, List.take_succ_cons, List.take_zero, List.cons_append, List.nil_append]
  have key : ∀ (a b c d : ℝ) (ha : a = b) (hc : c = d), (⟨a, c, 0⟩ : Pt) = ⟨b, d, 0⟩ := by intro a b c d ha hc; rw [ha, hc]
  refine List.cons_eq_cons.mpr ⟨key _ _ _ _ (by ring) (by ring), List.cons_eq_cons.mpr ⟨key _ _ _ _ (by ring) (by ring),
    List.cons_eq_cons.mpr ⟨key _ _ _ _ (by ring) (by ring), List.cons_eq_cons.mpr ⟨key _ _ _ _ (by ring) (by ring),
    List.cons_eq_cons.mpr ⟨key _ _ _ _ (by ring) (by ring), rfl⟩⟩⟩⟩⟩

/-- **C79** The coordinate of a pose with heading `θ` along a segment is that of the point where the segment crosses the line through the pose
at right angles to its heading, `reach` to either side; there is none if the segment does not cross it. -/
theorem s_of_pose (l : Seg) (pos : Pt) (θ reach : ℝ) (d : Bool) (line : Seg)
    (hline : line = ⟨⟨pos.x - reach * Real.sin θ, pos.y + reach * Real.cos θ, pos.z⟩, ⟨pos.x + reach * Real.sin θ, pos.y - reach * Real.cos θ, pos.z⟩⟩)
    (h : ClearPair l line)
    (hn : ¬ (area l.start l.stop line.start = 0 ∧ area l.start l.stop line.stop = 0 ∧
      area line.start line.stop l.start = 0 ∧ area line.start line.stop l.stop = 0))
    (hne : l.start.x ≠ l.stop.x ∨ l.start.y ≠ l.stop.y) :
    (Meet l line → ∃ s q, l.getSValue ⟨pos, ⟨0, 0, Real.sin (θ / 2), Real.cos (θ / 2)⟩⟩ reach d = some (some s) ∧ l.getPoint s d = some q ∧
      OnSegment line.start line.stop q) ∧
    (¬ Meet l line → l.getSValue ⟨pos, ⟨0, 0, Real.sin (θ / 2), Real.cos (θ / 2)⟩⟩ reach d = some none) := by
  have e : l.getSValue ⟨pos, ⟨0, 0, Real.sin (θ / 2), Real.cos (θ / 2)⟩⟩ reach d = l.sValueSeg line d := by
    unfold Seg.getSValue
    rw [transformPoint_yaw, transformPoint_yaw, hline]
    simp only [mul_zero, zero_sub, zero_add, add_zero, mul_neg, neg_neg]
    congr 3 <;> ring
  rw [e]
  exact s_of_crossing l line h hn d hne

/-- A pose with heading 0 a metre beside the middle of a segment of four metres along the x axis. -/
example : let l : Seg := ⟨⟨0, 0, 0⟩, ⟨4, 0, 0⟩⟩
    let line : Seg := ⟨⟨2 - 2 * Real.sin 0, 1 + 2 * Real.cos 0, 0⟩, ⟨2 + 2 * Real.sin 0, 1 - 2 * Real.cos 0, 0⟩⟩
    ClearPair l line ∧ ¬ (area l.start l.stop line.start = 0) ∧ Meet l line := by
  simp only [Real.sin_zero, Real.cos_zero]
  refine ⟨⟨Or.inr ?_, Or.inr ?_, Or.inr ?_, Or.inr ?_⟩, ?_, ⟨⟨2, 0, 0⟩, ⟨1 / 2, by norm_num, by norm_num, by norm_num, by norm_num⟩,
    ⟨3 / 4, by norm_num, by norm_num, by norm_num, by norm_num⟩⟩⟩ <;> unfold area <;> norm_num

/-- **C79** The segment built from a start, a direction and a length starts there, leads in the direction, and is as long as asked, seen from
above. A vertical direction is refused. -/
theorem ofVector_spec (start vec : Pt) (length : ℝ) (hl : 0 ≤ length) :
    (vec.x = 0 ∧ vec.y = 0 → Seg.ofVector start vec length = none) ∧
    (¬ (vec.x = 0 ∧ vec.y = 0) → ∃ l k, Seg.ofVector start vec length = some l ∧ l.start = start ∧ 0 ≤ k ∧
      l.stop = ⟨start.x + k * vec.x, start.y + k * vec.y, start.z + k * vec.z⟩ ∧ sq2 l.start l.stop = length ^ 2) := by
  unfold Seg.ofVector
  simp only
  constructor
  · rintro ⟨h1, h2⟩
    rw [if_pos (by rw [h1, h2]; norm_num)]
  · intro h
    have hp : 0 < vec.x ^ 2 + vec.y ^ 2 := by
      rcases not_and_or.mp h with h | h
      · have := pow_pos (abs_pos.mpr h) 2; rw [sq_abs] at this; have := sq_nonneg vec.y; linarith
      · have := pow_pos (abs_pos.mpr h) 2; rw [sq_abs] at this; have := sq_nonneg vec.x; linarith
    have hs : 0 < Real.sqrt (vec.x ^ 2 + vec.y ^ 2) := Real.sqrt_pos.mpr hp
    have hsq : Real.sqrt (vec.x ^ 2 + vec.y ^ 2) ^ 2 = vec.x ^ 2 + vec.y ^ 2 := Real.sq_sqrt hp.le
    rw [if_neg hs.ne']
    refine ⟨_, length / Real.sqrt (vec.x ^ 2 + vec.y ^ 2), rfl, rfl, div_nonneg hl hs.le, ?_, ?_⟩
    · ext <;> simp only <;> ring
    · unfold sq2
      simp only
      generalize Real.sqrt (vec.x ^ 2 + vec.y ^ 2) = r at *
      field_simp
      rw [hsq]; ring

/-- **C84** The quaternion of Euler angles is a unit quaternion and is the turn about x by roll, then about y by pitch, then about z by
yaw. -/
theorem eulerToQuat_spec (roll pitch yaw : ℝ) :
    Unit (eulerToQuat ⟨roll, pitch, yaw⟩) ∧ ∀ v : Pt, rotate (eulerToQuat ⟨roll, pitch, yaw⟩) v =
      let v1 : Pt := ⟨v.x, Real.cos roll * v.y - Real.sin roll * v.z, Real.sin roll * v.y + Real.cos roll * v.z⟩
      let v2 : Pt := ⟨Real.cos pitch * v1.x + Real.sin pitch * v1.z, v1.y, -Real.sin pitch * v1.x + Real.cos pitch * v1.z⟩
      ⟨Real.cos yaw * v2.x - Real.sin yaw * v2.y, Real.sin yaw * v2.x + Real.cos yaw * v2.y, v2.z⟩ := by
  obtain ⟨r1, r2⟩ := half_angle roll
  obtain ⟨p1, p2⟩ := half_angle pitch
  obtain ⟨y1, y2⟩ := half_angle yaw
  have r3 := Real.sin_sq_add_cos_sq (roll / 2)
  have p3 := Real.sin_sq_add_cos_sq (pitch / 2)
  have y3 := Real.sin_sq_add_cos_sq (yaw / 2)
  have hq : eulerToQuat ⟨roll, pitch, yaw⟩ =
      Quat.mul ⟨0, 0, Real.sin (yaw / 2), Real.cos (yaw / 2)⟩ (Quat.mul ⟨0, Real.sin (pitch / 2), 0, Real.cos (pitch / 2)⟩ ⟨Real.sin (roll / 2), 0, 0, Real.cos (roll / 2)⟩) := by
    unfold eulerToQuat Quat.mul; ext <;> simp only <;> ring
  constructor
  · unfold Unit eulerToQuat
    simp only
    generalize Real.sin (roll / 2) = sr at *
    generalize Real.cos (roll / 2) = cr at *
    generalize Real.sin (pitch / 2) = sp at *
    generalize Real.cos (pitch / 2) = cp at *
    generalize Real.sin (yaw / 2) = sy at *
    generalize Real.cos (yaw / 2) = cy at *
    have : (sr * cp * cy - cr * sp * sy) ^ 2 + (cr * sp * cy + sr * cp * sy) ^ 2 + (cr * cp * sy - sr * sp * cy) ^ 2 + (cr * cp * cy + sr * sp * sy) ^ 2
        = (sr ^ 2 + cr ^ 2) * (sp ^ 2 + cp ^ 2) * (sy ^ 2 + cy ^ 2) := by ring
    rw [this, r3, p3, y3]; norm_num
  · intro v
    have rot : ∀ (a b : Quat) (v : Pt), rotate (a.mul b) v = rotate a (rotate b v) := by
      intro a b v; unfold rotate Quat.mul; ext <;> simp only <;> ring
    rw [hq, rot, rot]
    have e1 : rotate ⟨Real.sin (roll / 2), 0, 0, Real.cos (roll / 2)⟩ v =
        ⟨v.x, Real.cos roll * v.y - Real.sin roll * v.z, Real.sin roll * v.y + Real.cos roll * v.z⟩ := by
      unfold rotate; rw [r1, r2]
      ext <;> simp only
      · linear_combination v.x * r3
      · ring
      · ring
    have e2 : ∀ v : Pt, rotate ⟨0, Real.sin (pitch / 2), 0, Real.cos (pitch / 2)⟩ v =
        ⟨Real.cos pitch * v.x + Real.sin pitch * v.z, v.y, -Real.sin pitch * v.x + Real.cos pitch * v.z⟩ := by
      intro v; unfold rotate; rw [p1, p2]
      ext <;> simp only
      · ring
      · linear_combination v.y * p3
      · ring
    have e3 : ∀ v : Pt, rotate ⟨0, 0, Real.sin (yaw / 2), Real.cos (yaw / 2)⟩ v =
        ⟨Real.cos yaw * v.x - Real.sin yaw * v.y, Real.sin yaw * v.x + Real.cos yaw * v.y, v.z⟩ := by
      intro v; unfold rotate; rw [y1, y2]
      ext <;> simp only
      · ring
      · ring
      · linear_combination v.z * y3
    rw [e1, e2, e3]

theorem atan2_cos {y x : ℝ} : Real.sqrt (x ^ 2 + y ^ 2) * Real.cos (atan2 y x) = x := by
  have h := Complex.norm_mul_cos_arg ⟨x, y⟩
  rw [Complex.norm_def, Complex.normSq_mk] at h
  unfold atan2
  rw [pow_two, pow_two]; exact h

theorem atan2_sin {y x : ℝ} : Real.sqrt (x ^ 2 + y ^ 2) * Real.sin (atan2 y x) = y := by
  have h := Complex.norm_mul_sin_arg ⟨x, y⟩
  rw [Complex.norm_def, Complex.normSq_mk] at h
  unfold atan2
  rw [pow_two, pow_two]; exact h

/-- **C84** An entity given the orientation of a direction looks that way: its forward axis, times the length of the direction, is the
direction, and its left axis stays horizontal. -/
theorem directionToQuat_forward (d : Pt) :
    Unit (directionToQuat d) ∧ (rotate (directionToQuat d) ⟨d.norm, 0, 0⟩) = d ∧ (rotate (directionToQuat d) ⟨0, 1, 0⟩).z = 0 := by
  unfold directionToQuat
  obtain ⟨hu, hr⟩ := eulerToQuat_spec 0 (atan2 (-d.z) (Real.sqrt (d.x ^ 2 + d.y ^ 2))) (atan2 d.y d.x)
  refine ⟨hu, ?_, ?_⟩
  · rw [hr]
    simp only [Real.cos_zero, Real.sin_zero]
    have a1 := @atan2_cos d.y d.x
    have a2 := @atan2_sin d.y d.x
    have b1 := @atan2_cos (-d.z) (Real.sqrt (d.x ^ 2 + d.y ^ 2))
    have b2 := @atan2_sin (-d.z) (Real.sqrt (d.x ^ 2 + d.y ^ 2))
    have hn : Real.sqrt (Real.sqrt (d.x ^ 2 + d.y ^ 2) ^ 2 + (-d.z) ^ 2) = d.norm := by
      unfold Pt.norm; rw [Real.sq_sqrt (by positivity), neg_sq]
    rw [hn] at b1 b2
    generalize Real.cos (atan2 (-d.z) (Real.sqrt (d.x ^ 2 + d.y ^ 2))) = cp at *
    generalize Real.sin (atan2 (-d.z) (Real.sqrt (d.x ^ 2 + d.y ^ 2))) = sp at *
    generalize Real.cos (atan2 d.y d.x) = cy at *
    generalize Real.sin (atan2 d.y d.x) = sy at *
    ext <;> simp only
    · linear_combination cy * b1 + a1
    · linear_combination sy * b1 + a2
    · linear_combination -b2
  · rw [hr]; simp

/-- Uphill to the north: a direction that `directionToQuat_forward` speaks about. -/
example : (directionToQuat ⟨0, 4, 3⟩) ≠ ⟨0, 0, 0, 1⟩ := by
  intro h
  have := (directionToQuat_forward ⟨0, 4, 3⟩).2.1
  rw [h] at this
  unfold rotate at this
  simp at this

/-- The dot product of unit quaternions is between -1 and 1. -/
theorem dot_le {a b : Quat} (ha : Unit a) (hb : Unit b) :
    -1 ≤ a.w * b.w + a.x * b.x + a.y * b.y + a.z * b.z ∧ a.w * b.w + a.x * b.x + a.y * b.y + a.z * b.z ≤ 1 := by
  unfold Unit at ha hb
  constructor
  · nlinarith [sq_nonneg (a.x + b.x), sq_nonneg (a.y + b.y), sq_nonneg (a.z + b.z), sq_nonneg (a.w + b.w)]
  · nlinarith [sq_nonneg (a.x - b.x), sq_nonneg (a.y - b.y), sq_nonneg (a.z - b.z), sq_nonneg (a.w - b.w)]

/-- **C85** Interpolation between two orientations begins at the first. -/
theorem slerp_zero (a b : Quat) (ha : Unit a) (hb : Unit b) : slerp a b 0 = a := by
  unfold slerp
  simp only
  split
  · rfl
  · rename_i h
    obtain ⟨h1, h2⟩ := dot_le ha hb
    set qr := a.w * b.w + a.x * b.x + a.y * b.y + a.z * b.z
    rw [mul_zero, sub_zero, Real.sin_zero, Real.sin_arccos, pow_two]
    have hs : Real.sqrt (1 - qr * qr) ≠ 0 := by
      intro h0
      apply h
      have := Real.sqrt_eq_zero'.mp h0
      have hq : 0 ≤ 1 - qr * qr := by nlinarith
      have : 1 - qr * qr = 0 := le_antisymm this hq
      rw [this, abs_zero]; unfold eps; positivity
    rw [div_self hs]
    ext <;> simp

/-- **C85** Interpolation between two orientations ends at the second, if the two are not the same or opposite up to the tolerance. -/
theorem slerp_one (a b : Quat)
    (hd : 1 / 2 ^ 52 < 1 - (a.w * b.w + a.x * b.x + a.y * b.y + a.z * b.z) ^ 2) : slerp a b 1 = b := by
  have he : eps = 1 / 2 ^ 52 := rfl
  have hp : 0 < eps := by unfold eps; positivity
  unfold slerp
  simp only
  rw [pow_two, ← he] at hd
  set qr := a.w * b.w + a.x * b.x + a.y * b.y + a.z * b.z
  rw [if_neg (by rw [abs_of_pos (by linarith)]; linarith), mul_one, sub_self, Real.sin_zero, Real.sin_arccos, pow_two]
  have hs : Real.sqrt (1 - qr * qr) ≠ 0 := (Real.sqrt_pos.mpr (by linarith)).ne'
  rw [div_self hs]
  ext <;> simp

/-- **C85** Every interpolated orientation is a unit quaternion. -/
theorem slerp_unit (a b : Quat) (t : ℝ) (ha : Unit a) (hb : Unit b) : Unit (slerp a b t) := by
  have hp : 0 < eps := by unfold eps; positivity
  unfold slerp
  simp only
  split
  · exact ha
  · rename_i h
    obtain ⟨h1, h2⟩ := dot_le ha hb
    set qr := a.w * b.w + a.x * b.x + a.y * b.y + a.z * b.z with hqr
    have hss : 0 ≤ 1 - qr * qr := by nlinarith
    have hpos : 0 < 1 - qr * qr := by
      rcases hss.lt_or_eq with h' | h'
      · exact h'
      · rw [← h', abs_zero] at h; exact absurd hp.le h
    have hs : 0 < Real.sqrt (1 - qr * qr) := Real.sqrt_pos.mpr hpos
    have hcos : Real.cos (Real.arccos qr) = qr := Real.cos_arccos h1 h2
    have hsin : Real.sin (Real.arccos qr) = Real.sqrt (1 - qr * qr) := by rw [Real.sin_arccos, pow_two]
    set sp := Real.sqrt (1 - qr * qr) with hsp
    set ph := Real.arccos qr
    rw [Real.sin_sub, hcos, hsin]
    have hsq : sp * sp = 1 - qr * qr := by rw [hsp]; exact Real.mul_self_sqrt hpos.le
    have hcs := Real.sin_sq_add_cos_sq (ph * t)
    generalize Real.sin (ph * t) = s at *
    generalize Real.cos (ph * t) = c at *
    unfold Unit at ha hb ⊢
    simp only
    have e0 : (sp * c - qr * s) / sp = c - qr * (s / sp) := by field_simp
    rw [e0]
    have hk : (s / sp) * sp = s := div_mul_cancel₀ _ hs.ne'
    generalize s / sp = k at *
    subst hk
    have : (a.x * (c - qr * k) + b.x * k) ^ 2 + (a.y * (c - qr * k) + b.y * k) ^ 2 + (a.z * (c - qr * k) + b.z * k) ^ 2 +
        (a.w * (c - qr * k) + b.w * k) ^ 2 =
        (a.x ^ 2 + a.y ^ 2 + a.z ^ 2 + a.w ^ 2) * (c - qr * k) ^ 2 + (b.x ^ 2 + b.y ^ 2 + b.z ^ 2 + b.w ^ 2) * k ^ 2 +
          2 * (a.w * b.w + a.x * b.x + a.y * b.y + a.z * b.z) * ((c - qr * k) * k) := by ring
    rw [this, ha, hb, ← hqr]
    linear_combination hcs - k ^ 2 * hsq

/-- Two headings, 0 and 2 * atan(3/4): `slerp_one` speaks about them. -/
example : Unit ⟨0, 0, 0, 1⟩ ∧ Unit ⟨0, 0, 3 / 5, 4 / 5⟩ ∧
    (1 : ℝ) / 2 ^ 52 < 1 - ((1 : ℝ) * (4 / 5) + 0 * 0 + 0 * 0 + 0 * (3 / 5)) ^ 2 := by
  unfold Unit; norm_num

/-- **C85** Between two headings no more than half a turn apart the interpolation turns evenly: at `t` it is at the heading that divides the
turn in the ratio of `t`. -/
theorem slerp_yaw (θ φ t : ℝ) (h0 : 0 ≤ φ - θ) (h1 : φ - θ ≤ 2 * Real.pi)
    (hd : 1 / 2 ^ 52 < Real.sin ((φ - θ) / 2) ^ 2) :
    slerp ⟨0, 0, Real.sin (θ / 2), Real.cos (θ / 2)⟩ ⟨0, 0, Real.sin (φ / 2), Real.cos (φ / 2)⟩ t =
      ⟨0, 0, Real.sin ((θ + t * (φ - θ)) / 2), Real.cos ((θ + t * (φ - θ)) / 2)⟩ := by
  have hp : 0 < eps := by unfold eps; positivity
  have he : eps = 1 / 2 ^ 52 := rfl
  set δ := (φ - θ) / 2 with hδ
  have hqr : Real.cos (θ / 2) * Real.cos (φ / 2) + 0 * 0 + 0 * 0 + Real.sin (θ / 2) * Real.sin (φ / 2) = Real.cos δ := by
    have : δ = φ / 2 - θ / 2 := by rw [hδ]; ring
    rw [this, Real.cos_sub]; ring
  have hss : 1 - Real.cos δ * Real.cos δ = Real.sin δ ^ 2 := by have := Real.sin_sq_add_cos_sq δ; linarith
  have hδ0 : 0 ≤ δ := by rw [hδ]; linarith
  have hδ1 : δ ≤ Real.pi := by rw [hδ]; linarith
  have hsn : 0 ≤ Real.sin δ := Real.sin_nonneg_of_nonneg_of_le_pi hδ0 hδ1
  have hs0 : Real.sin δ ≠ 0 := by intro h; rw [h] at hd; norm_num at hd
  unfold slerp
  simp only
  rw [hqr, hss, if_neg (by rw [abs_of_nonneg (sq_nonneg _), he]; exact not_le.mpr hd), Real.sqrt_sq hsn, Real.arccos_cos hδ0 hδ1]
  have ea : (θ + t * (φ - θ)) / 2 = θ / 2 + δ * t := by rw [hδ]; ring
  have eb : φ / 2 = θ / 2 + δ := by rw [hδ]; ring
  rw [ea, eb]
  simp only [Real.sin_add, Real.cos_add, Real.sin_sub]
  have h2 := Real.sin_sq_add_cos_sq δ
  generalize Real.sin (θ / 2) = a
  generalize Real.cos (θ / 2) = b
  generalize Real.sin (δ * t) = c
  generalize Real.cos (δ * t) = d
  ext <;> simp only
  · ring
  · ring
  · field_simp; ring
  · field_simp; ring

/-- Interpolation depends on which of the two quaternions of an orientation is given: the quaternions `b` and `-b` describe the same
orientation, a heading of 120 degrees to the left, and half way between heading 0 and it is a heading of 60 degrees to the left for the
one and, the long way round, 120 degrees to the right for the other. -/
theorem slerp_long_way_violated :
    ∃ a b : Quat, Unit a ∧ Unit b ∧
      (∀ v, rotate ⟨-b.x, -b.y, -b.z, -b.w⟩ v = rotate b v) ∧
      (rotate (slerp a b (1 / 2)) ⟨1, 0, 0⟩).x = 1 / 2 ∧ (rotate (slerp a ⟨-b.x, -b.y, -b.z, -b.w⟩ (1 / 2)) ⟨1, 0, 0⟩).x = -1 / 2 := by
  have h3 : Real.sqrt 3 ^ 2 = 3 := Real.sq_sqrt (by norm_num)
  have h30 : 0 < Real.sqrt 3 := Real.sqrt_pos.mpr (by norm_num)
  have hp : eps < 3 / 4 := by unfold eps; norm_num
  have hs : Real.sqrt (3 / 4) = Real.sqrt 3 / 2 := by
    rw [Real.sqrt_div (by norm_num), show (4 : ℝ) = 2 ^ 2 by norm_num, Real.sqrt_sq (by norm_num)]
  have hacos : Real.arccos (1 / 2) = Real.pi / 3 := by
    rw [← Real.cos_pi_div_three]; exact Real.arccos_cos (by positivity) (by linarith [Real.pi_pos])
  have hacos' : Real.arccos (-(1 / 2)) = Real.pi - Real.pi / 3 := by rw [Real.arccos_neg, hacos]
  refine ⟨⟨0, 0, 0, 1⟩, ⟨0, 0, Real.sqrt 3 / 2, 1 / 2⟩, ?_, ?_, ?_, ?_, ?_⟩
  · unfold Unit; norm_num
  · unfold Unit; simp only; linear_combination (1 / 4) * h3
  · intro v; unfold rotate; ext <;> simp only <;> ring
  · unfold slerp
    simp only
    rw [show (1 : ℝ) * (1 / 2) + 0 * 0 + 0 * 0 + 0 * (Real.sqrt 3 / 2) = 1 / 2 by ring, show (1 : ℝ) - 1 / 2 * (1 / 2) = 3 / 4 by norm_num,
      if_neg (by rw [abs_of_pos (by norm_num)]; linarith), hs, hacos,
      show Real.pi / 3 - Real.pi / 3 * (1 / 2) = Real.pi / 6 by ring, show Real.pi / 3 * (1 / 2) = Real.pi / 6 by ring, Real.sin_pi_div_six]
    unfold rotate
    simp only
    field_simp
    nlinarith
  · unfold slerp
    simp only
    rw [show (1 : ℝ) * -(1 / 2) + 0 * -0 + 0 * -0 + 0 * -(Real.sqrt 3 / 2) = -(1 / 2) by ring, show (1 : ℝ) - -(1 / 2) * -(1 / 2) = 3 / 4 by norm_num,
      if_neg (by rw [abs_of_pos (by norm_num)]; linarith), hs, hacos',
      show Real.pi - Real.pi / 3 - (Real.pi - Real.pi / 3) * (1 / 2) = Real.pi / 3 by ring, show (Real.pi - Real.pi / 3) * (1 / 2) = Real.pi / 3 by ring, Real.sin_pi_div_three]
    unfold rotate
    simp only
    field_simp
    nlinarith

/-- **C85** The angle between two headings is how far one has to turn from the one to the other, the short way round. -/
theorem angleDifference_yaw (θ φ : ℝ) (h : |φ - θ| ≤ Real.pi) :
    angleDifference ⟨0, 0, Real.sin (θ / 2), Real.cos (θ / 2)⟩ ⟨0, 0, Real.sin (φ / 2), Real.cos (φ / 2)⟩ = |φ - θ| := by
  set δ := (φ - θ) / 2 with hδ
  have hn : (0 : ℝ) ^ 2 + 0 ^ 2 + Real.sin (θ / 2) ^ 2 + Real.cos (θ / 2) ^ 2 = 1 := by have := Real.sin_sq_add_cos_sq (θ / 2); linarith
  have hδ' : δ = φ / 2 - θ / 2 := by rw [hδ]; ring
  have hs : Real.sin δ = Real.sin (φ / 2) * Real.cos (θ / 2) - Real.cos (φ / 2) * Real.sin (θ / 2) := by rw [hδ', Real.sin_sub]
  have hc : Real.cos δ = Real.cos (φ / 2) * Real.cos (θ / 2) + Real.sin (φ / 2) * Real.sin (θ / 2) := by rw [hδ', Real.cos_sub]
  have habs : |δ| ≤ Real.pi / 2 := by rw [hδ, abs_div]; simp only [abs_two]; linarith
  have hcos0 : 0 ≤ Real.cos δ := by
    rw [← Real.cos_abs]; exact Real.cos_nonneg_of_neg_pi_div_two_le_of_le (by linarith [abs_nonneg δ, Real.pi_pos]) habs
  unfold angleDifference
  simp only [hn, div_one, Quat.mul]
  have ex : Real.cos (θ / 2) * 0 - -Real.sin (θ / 2) * 0 + -0 * Real.sin (φ / 2) + -0 * Real.cos (φ / 2) = 0 := by ring
  have ey : -Real.sin (θ / 2) * 0 + Real.cos (θ / 2) * 0 - -0 * Real.sin (φ / 2) + -0 * Real.cos (φ / 2) = 0 := by ring
  have ez : - -0 * 0 + -0 * 0 + Real.cos (θ / 2) * Real.sin (φ / 2) + -Real.sin (θ / 2) * Real.cos (φ / 2) = Real.sin δ := by rw [hs]; ring
  have ew : - -0 * 0 - -0 * 0 - -Real.sin (θ / 2) * Real.sin (φ / 2) + Real.cos (θ / 2) * Real.cos (φ / 2) = Real.cos δ := by rw [hc]; ring
  rw [ex, ey, ez, ew, abs_of_nonneg hcos0]
  have e1 : Real.sqrt ((0 : ℝ) ^ 2 + 0 ^ 2 + Real.sin δ ^ 2) = Real.sin |δ| := by
    rw [show (0 : ℝ) ^ 2 + 0 ^ 2 + Real.sin δ ^ 2 = Real.sin δ ^ 2 by ring, Real.sqrt_sq_eq_abs]
    rcases le_total 0 δ with h0 | h0
    · rw [abs_of_nonneg h0] at habs ⊢
      exact abs_of_nonneg (Real.sin_nonneg_of_nonneg_of_le_pi h0 (by linarith [Real.pi_pos]))
    · rw [abs_of_nonpos h0] at habs ⊢
      rw [← abs_neg, ← Real.sin_neg]
      exact abs_of_nonneg (Real.sin_nonneg_of_nonneg_of_le_pi (by linarith) (by linarith [Real.pi_pos]))
  rw [e1, ← Real.cos_abs δ]
  have e2 : atan2 (Real.sin |δ|) (Real.cos |δ|) = |δ| := by
    unfold atan2
    have := Complex.arg_cos_add_sin_mul_I (θ := |δ|) ⟨by linarith [abs_nonneg δ, Real.pi_pos], by linarith [Real.pi_pos]⟩
    refine Eq.trans ?_ this
    congr 1
    apply Complex.ext <;> simp [← Complex.ofReal_cos, ← Complex.ofReal_sin]
  rw [e2, hδ, ← abs_two (α := ℝ), ← abs_mul, abs_abs]
  congr 1; ring

/-- A quarter turn to the left meets the hypothesis. -/
example : |Real.pi / 2 - 0| ≤ Real.pi := by rw [sub_zero, abs_of_pos (by positivity)]; linarith [Real.pi_pos]

end Verif.Geometry
