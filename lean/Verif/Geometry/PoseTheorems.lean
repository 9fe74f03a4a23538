import Verif.Geometry.Spec
import Mathlib.Tactic.Linarith
import Mathlib.Tactic.FieldSimp
import Mathlib.Tactic.LinearCombination
import Mathlib.Tactic.NormNum
import Mathlib.Tactic.Positivity
/-
Properties of poses, transformations and vectors.
-/
namespace Verif.Geometry
open Classical

/-- Rotation by a product of quaternions is rotation by one after the other. -/
theorem rotate_mul (a b : Quat) (v : Pt) : rotate (a.mul b) v = rotate a (rotate b v) := by
  unfold rotate Quat.mul
  ext <;> simp only <;> ring

theorem rotate_conj {q : Quat} (h : Unit q) (v : Pt) : rotate q.conj (rotate q v) = v := by
  have key : ∀ c : ℝ, (q.x ^ 2 + q.y ^ 2 + q.z ^ 2 + q.w ^ 2) ^ 2 * c = c := by intro c; unfold Unit at h; rw [h]; ring
  ext
  · rw [← key v.x]; unfold rotate Quat.conj; simp only; ring
  · rw [← key v.y]; unfold rotate Quat.conj; simp only; ring
  · rw [← key v.z]; unfold rotate Quat.conj; simp only; ring

theorem conj_conj (q : Quat) : q.conj.conj = q := by unfold Quat.conj; simp

theorem unit_conj {q : Quat} (h : Unit q) : Unit q.conj := by unfold Unit Quat.conj at *; simp only; linarith

theorem rotate_conj' {q : Quat} (h : Unit q) (v : Pt) : rotate q (rotate q.conj v) = v := by
  have := rotate_conj (unit_conj h) v
  rw [conj_conj] at this
  exact this

theorem rotate_sub (q : Quat) (u v : Pt) : rotate q (u.sub v) = (rotate q u).sub (rotate q v) := by
  unfold rotate Pt.sub; ext <;> simp only <;> ring

theorem rotate_norm {q : Quat} (h : Unit q) (v : Pt) :
    (rotate q v).x ^ 2 + (rotate q v).y ^ 2 + (rotate q v).z ^ 2 = v.x ^ 2 + v.y ^ 2 + v.z ^ 2 := by
  have : (rotate q v).x ^ 2 + (rotate q v).y ^ 2 + (rotate q v).z ^ 2 =
      (q.x ^ 2 + q.y ^ 2 + q.z ^ 2 + q.w ^ 2) ^ 2 * (v.x ^ 2 + v.y ^ 2 + v.z ^ 2) := by
    unfold rotate; simp only; ring
  unfold Unit at h
  rw [this, h]; ring

/-- **C83** Moving points with a pose whose orientation is a unit quaternion keeps their distances. -/
theorem transformPoint_rigid (pose : Pose) (h : Unit pose.orientation) (p q : Pt) :
    distance (transformPoint pose p) (transformPoint pose q) = distance p q := by
  have e := rotate_norm h (p.sub q)
  rw [rotate_sub] at e
  unfold distance transformPoint
  congr 1
  unfold Pt.add
  unfold Pt.sub at e
  simp only at e ⊢
  linear_combination e

/-- A turn to the left about the vertical axis, by 2 * atan(3/4), meets the hypothesis of `transformPoint_rigid`. -/
example : Unit ⟨0, 0, 3 / 5, 4 / 5⟩ := by unfold Unit; norm_num

/-- Without unit length of the quaternion distances are scaled: nothing normalises the orientation. -/
theorem transformPoint_nonunit_violated : ∃ (pose : Pose) (p q : Pt), distance (transformPoint pose p) (transformPoint pose q) ≠ distance p q := by
  refine ⟨⟨⟨0, 0, 0⟩, ⟨0, 0, 0, 2⟩⟩, ⟨1, 0, 0⟩, ⟨0, 0, 0⟩, ?_⟩
  unfold distance transformPoint rotate Pt.add
  norm_num

theorem mul_conj_mul {q : Quat} (h : Unit q) (r : Quat) : q.mul (q.conj.mul r) = r := by
  have key : ∀ c : ℝ, (q.x ^ 2 + q.y ^ 2 + q.z ^ 2 + q.w ^ 2) * c = c := by intro c; unfold Unit at h; rw [h]; ring
  ext
  · rw [← key r.x]; unfold Quat.mul Quat.conj; simp only; ring
  · rw [← key r.y]; unfold Quat.mul Quat.conj; simp only; ring
  · rw [← key r.z]; unfold Quat.mul Quat.conj; simp only; ring
  · rw [← key r.w]; unfold Quat.mul Quat.conj; simp only; ring

theorem conj_mul_mul {q : Quat} (h : Unit q) (r : Quat) : q.conj.mul (q.mul r) = r := by
  have := mul_conj_mul (unit_conj h) r
  rw [conj_conj] at this
  exact this

theorem add_sub_cancel_pt (u v : Pt) : (u.sub v).add v = u := by unfold Pt.sub Pt.add; ext <;> simp

theorem sub_add_cancel_pt (u v : Pt) : (u.add v).sub v = u := by unfold Pt.sub Pt.add; ext <;> simp

/-- **C83** The relative pose, put back at the reference pose, is the original pose. -/
theorem relative_then_global (a b : Pose) (h : Unit a.orientation) :
    transformRelativePoseToGlobal a (getRelativePose a b) = b := by
  unfold transformRelativePoseToGlobal getRelativePose
  simp only
  rw [rotate_conj' h, add_sub_cancel_pt, mul_conj_mul h]

/-- **C83** The pose given relative to a reference pose is found again as relative pose. -/
theorem global_then_relative (a r : Pose) (h : Unit a.orientation) :
    getRelativePose a (transformRelativePoseToGlobal a r) = r := by
  unfold transformRelativePoseToGlobal getRelativePose
  simp only
  rw [sub_add_cancel_pt, rotate_conj h, conj_mul_mul h]

/-- **C83** The position of the relative pose, moved with the reference pose, is the original position. -/
theorem relative_position (a b : Pose) (h : Unit a.orientation) : transformPoint a (getRelativePose a b).position = b.position := by
  unfold transformPoint getRelativePose
  simp only
  rw [rotate_conj' h, add_sub_cancel_pt]

/-- **C83** Moving a point with a pose given relative to a reference pose is moving it with the one and then with the other. -/
theorem transformPoint_compose (a r : Pose) (p : Pt) :
    transformPoint (transformRelativePoseToGlobal a r) p = transformPoint a (transformPoint r p) := by
  unfold transformPoint transformRelativePoseToGlobal
  simp only
  rw [rotate_mul]
  unfold rotate Pt.add
  ext <;> simp only <;> ring

/-- **C83** Seen from a sensor that is not turned, a point moved with a pose is where it should be: at the moved point, relative to the
sensor. Missing: sensors that are turned (`transformPointSensor_turned_violated`). -/
theorem transformPointSensor_partial (pose sensor : Pose) (p : Pt) (h : sensor.orientation = ⟨0, 0, 0, 1⟩) :
    transformPointSensor pose sensor p = (getRelativePose sensor ⟨transformPoint pose p, ⟨0, 0, 0, 1⟩⟩).position := by
  unfold transformPointSensor getRelativePose transformPoint getRotation
  rw [h]
  unfold rotate Quat.mul Quat.conj Pt.add Pt.sub
  ext <;> simp only <;> ring

example : ∃ pose sensor : Pose, sensor.orientation = ⟨0, 0, 0, 1⟩ ∧ pose.orientation = ⟨0, 0, 3 / 5, 4 / 5⟩ :=
  ⟨⟨⟨1, 2, 3⟩, ⟨0, 0, 3 / 5, 4 / 5⟩⟩, ⟨⟨4, 5, 6⟩, ⟨0, 0, 0, 1⟩⟩, rfl, rfl⟩

/-- **C83** Whatever the sensor, differences of points are seen rightly turned: turned back with the orientation of the sensor, the
difference of two points as seen is the difference of the moved points. So only the offset is wrong in `transformPointSensor_turned_violated`. -/
theorem transformPointSensor_difference (pose sensor : Pose) (p q : Pt) (h : Unit sensor.orientation) :
    rotate sensor.orientation ((transformPointSensor pose sensor p).sub (transformPointSensor pose sensor q)) =
      (transformPoint pose p).sub (transformPoint pose q) := by
  have e : (transformPointSensor pose sensor p).sub (transformPointSensor pose sensor q) =
      rotate sensor.orientation.conj (rotate pose.orientation (p.sub q)) := by
    unfold transformPointSensor getRotation
    rw [rotate_mul, rotate_mul]
    unfold rotate Pt.add Pt.sub
    ext <;> simp only <;> ring
  rw [e, rotate_conj' h]
  unfold transformPoint rotate Pt.add Pt.sub
  ext <;> simp only <;> ring

/-- A sensor that looks to the left. -/
example : Unit ⟨0, 0, 3 / 5, 4 / 5⟩ := by unfold Unit; norm_num

/-- For a turned sensor the offset between the two poses is not turned into the frame of the sensor: an object five metres to the left of
a sensor that looks back is reported five metres to its left as well, although it is on its right. -/
theorem transformPointSensor_turned_violated :
    ∃ (pose sensor : Pose) (p : Pt), Unit sensor.orientation ∧ Unit pose.orientation ∧
      (getRelativePose sensor ⟨transformPoint pose p, ⟨0, 0, 0, 1⟩⟩).position.y = -5 ∧ (transformPointSensor pose sensor p).y = 5 := by
  refine ⟨⟨⟨0, 5, 0⟩, ⟨0, 0, 0, 1⟩⟩, ⟨⟨0, 0, 0⟩, ⟨0, 0, 1, 0⟩⟩, ⟨0, 0, 0⟩, ?_, ?_, ?_, ?_⟩
  · unfold Unit; norm_num
  · unfold Unit; norm_num
  · unfold getRelativePose transformPoint rotate Quat.conj Pt.add Pt.sub; norm_num
  · unfold transformPointSensor getRotation rotate Quat.mul Quat.conj Pt.add Pt.sub; norm_num

theorem smul_norm (v : Pt) {k : ℝ} (hk : 0 ≤ k) : (v.smul k).norm = k * v.norm := by
  unfold Pt.smul Pt.norm
  simp only
  rw [show (v.x * k) ^ 2 + (v.y * k) ^ 2 + (v.z * k) ^ 2 = k ^ 2 * (v.x ^ 2 + v.y ^ 2 + v.z ^ 2) by ring,
    Real.sqrt_mul (sq_nonneg k), Real.sqrt_sq hk]

/-- **C83** A truncated vector keeps its direction, is not longer than allowed, and is not changed unless it is too long. -/
theorem truncate_spec (v : Pt) (max : ℝ) (hm : 0 ≤ max) :
    (truncate v max).norm ≤ max ∧ (∃ k, 0 ≤ k ∧ k ≤ 1 ∧ truncate v max = v.smul k) ∧ (v.norm ≤ max → truncate v max = v) ∧
    (max ≤ v.norm → (truncate v max).norm = max) := by
  unfold truncate
  split
  · rename_i h
    have hv : 0 < v.norm := lt_of_le_of_lt hm h
    have e : (v.smul (max / v.norm)).norm = max := by
      rw [smul_norm _ (div_nonneg hm hv.le)]; field_simp
    exact ⟨e.le, ⟨_, div_nonneg hm hv.le, (div_le_one hv).mpr h.le, rfl⟩, fun h2 => absurd h (not_lt.mpr h2), fun _ => e⟩
  · rename_i h
    rw [not_lt] at h
    refine ⟨h, ⟨1, zero_le_one, le_refl _, ?_⟩, fun _ => rfl, fun h2 => le_antisymm h h2⟩
    unfold Pt.smul; ext <;> simp

example : (0 : ℝ) ≤ 5 ∧ (5 : ℝ) < (⟨6, 8, 0⟩ : Pt).norm := by
  refine ⟨by norm_num, ?_⟩
  unfold Pt.norm
  rw [show (6 : ℝ) ^ 2 + 8 ^ 2 + 0 ^ 2 = 10 ^ 2 by norm_num, Real.sqrt_sq (by norm_num)]; norm_num

/-- **C83** A vector longer than the machine epsilon is normalised to length one in its own direction; shorter ones are refused. -/
theorem normalize_spec (v : Pt) :
    (1 / 2 ^ 52 < v.norm → ∃ u k, normalize v = some u ∧ 0 < k ∧ u = v.smul k ∧ u.norm = 1) ∧
    (v.norm ≤ 1 / 2 ^ 52 → normalize v = none) := by
  have e : eps = 1 / 2 ^ 52 := rfl
  have hn : 0 ≤ v.norm := Real.sqrt_nonneg _
  unfold normalize
  rw [abs_of_nonneg hn, e]
  constructor
  · intro h
    have hv : 0 < v.norm := lt_trans (by positivity) h
    rw [if_neg (not_le.mpr h)]
    refine ⟨_, 1 / v.norm, rfl, by positivity, rfl, ?_⟩
    rw [smul_norm _ (by positivity)]; field_simp
  · intro h; rw [if_pos h]

example : (1 : ℝ) / 2 ^ 52 < (⟨6, 8, 0⟩ : Pt).norm := by
  unfold Pt.norm
  rw [show (6 : ℝ) ^ 2 + 8 ^ 2 + 0 ^ 2 = 10 ^ 2 by norm_num, Real.sqrt_sq (by norm_num)]; norm_num

end Verif.Geometry
