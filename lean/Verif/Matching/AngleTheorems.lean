import Verif.Matching.Spec
import Verif.Geometry.TurnTheorems
import Verif.Geometry.PoseTheorems
/-! C217 (roll, pitch and yaw of an orientation). -/
namespace Verif.Matching
open Verif.Geometry Classical

theorem rotate_linear (q : Quat) (v : Pt) :
    rotate q v = ⟨(rotate q ⟨1, 0, 0⟩).x * v.x + (rotate q ⟨0, 1, 0⟩).x * v.y + (rotate q ⟨0, 0, 1⟩).x * v.z,
      (rotate q ⟨1, 0, 0⟩).y * v.x + (rotate q ⟨0, 1, 0⟩).y * v.y + (rotate q ⟨0, 0, 1⟩).y * v.z,
      (rotate q ⟨1, 0, 0⟩).z * v.x + (rotate q ⟨0, 1, 0⟩).z * v.y + (rotate q ⟨0, 0, 1⟩).z * v.z⟩ := by
  unfold rotate; ext <;> simp only <;> ring

theorem axis_unit {q : Quat} (h : Geometry.Unit q) :
    (rotate q ⟨1, 0, 0⟩).x ^ 2 + (rotate q ⟨1, 0, 0⟩).y ^ 2 + (rotate q ⟨1, 0, 0⟩).z ^ 2 = 1 := by
  unfold Geometry.Unit at h
  have : (q.x ^ 2 + q.y ^ 2 + q.z ^ 2 + q.w ^ 2) ^ 2 = 1 := by rw [h]; norm_num
  unfold rotate; simp only
  linear_combination this

theorem row_unit {q : Quat} (h : Geometry.Unit q) :
    (rotate q ⟨1, 0, 0⟩).z ^ 2 + (rotate q ⟨0, 1, 0⟩).z ^ 2 + (rotate q ⟨0, 0, 1⟩).z ^ 2 = 1 := by
  unfold Geometry.Unit at h
  have : (q.x ^ 2 + q.y ^ 2 + q.z ^ 2 + q.w ^ 2) ^ 2 = 1 := by rw [h]; norm_num
  unfold rotate; simp only
  linear_combination this

/-- The four other parts of a rotation follow from its first column and its last row. -/
theorem rest {q : Quat} (h : Geometry.Unit q) :
    let a := rotate q ⟨1, 0, 0⟩; let b := rotate q ⟨0, 1, 0⟩; let c := rotate q ⟨0, 0, 1⟩
    b.x * (1 - a.z ^ 2) = -a.x * a.z * b.z - a.y * c.z ∧ b.y * (1 - a.z ^ 2) = -a.y * a.z * b.z + a.x * c.z ∧
      c.x * (1 - a.z ^ 2) = -a.x * a.z * c.z + a.y * b.z ∧ c.y * (1 - a.z ^ 2) = -a.y * a.z * c.z - a.x * b.z := by
  unfold Geometry.Unit at h
  have hn : ∀ N : ℝ, N = q.x ^ 2 + q.y ^ 2 + q.z ^ 2 + q.w ^ 2 →
      let a := rotate q ⟨1, 0, 0⟩; let b := rotate q ⟨0, 1, 0⟩; let c := rotate q ⟨0, 0, 1⟩
      b.x * (N ^ 2 - a.z ^ 2) = -a.x * a.z * b.z - N * a.y * c.z ∧ b.y * (N ^ 2 - a.z ^ 2) = -a.y * a.z * b.z + N * a.x * c.z ∧
      c.x * (N ^ 2 - a.z ^ 2) = -a.x * a.z * c.z + N * a.y * b.z ∧ c.y * (N ^ 2 - a.z ^ 2) = -a.y * a.z * c.z - N * a.x * b.z := by
    intro N hN
    subst hN
    unfold rotate
    refine ⟨?_, ?_, ?_, ?_⟩ <;> simp only <;> ring
  have := hn 1 h.symm
  simpa using this

theorem cross_axes {q : Quat} (h : Geometry.Unit q) :
    let a := rotate q ⟨1, 0, 0⟩; let b := rotate q ⟨0, 1, 0⟩; let c := rotate q ⟨0, 0, 1⟩
    c.y * a.z - c.z * a.y = b.x ∧ c.z * a.x - c.x * a.z = b.y := by
  unfold Geometry.Unit at h
  unfold rotate
  simp only
  constructor
  · linear_combination (2 * (q.x * q.y - q.z * q.w)) * h
  · linear_combination (-q.x * q.x + q.y * q.y - q.z * q.z + q.w * q.w) * h

theorem first_row {q : Quat} (h : Geometry.Unit q) :
    (rotate q ⟨1, 0, 0⟩).x ^ 2 + (rotate q ⟨0, 1, 0⟩).x ^ 2 + (rotate q ⟨0, 0, 1⟩).x ^ 2 = 1 := by
  unfold Geometry.Unit at h
  have : (q.x ^ 2 + q.y ^ 2 + q.z ^ 2 + q.w ^ 2) ^ 2 = 1 := by rw [h]; norm_num
  unfold rotate; simp only
  linear_combination this

theorem atan2_of_unit {y x : ℝ} (h : x ^ 2 + y ^ 2 = 1) : Real.cos (atan2 y x) = x ∧ Real.sin (atan2 y x) = y := by
  have c := @atan2_cos y x
  have s := @atan2_sin y x
  rw [h, Real.sqrt_one, one_mul] at c s
  exact ⟨c, s⟩

/-- **C217** Roll, pitch and yaw say all about an orientation: the orientation made of the angles read from an orientation is the same. -/
theorem C217_angles (q : Quat) (h : Geometry.Unit q) : SameTurn (eulerToQuat (quatToEuler q)) q := by
  intro v
  obtain ⟨-, hr⟩ := eulerToQuat_spec (quatToEuler q).x (quatToEuler q).y (quatToEuler q).z
  have hrv := hr v
  have e0 : (⟨(quatToEuler q).x, (quatToEuler q).y, (quatToEuler q).z⟩ : Pt) = quatToEuler q := rfl
  rw [e0] at hrv
  rw [hrv, rotate_linear q v]
  have h1 := axis_unit h
  have h2 := row_unit h
  have h3 := first_row h
  obtain ⟨k1, k2, k3, k4⟩ := rest h
  obtain ⟨m1, m2⟩ := cross_axes h
  unfold quatToEuler
  simp only at k1 k2 k3 k4 m1 m2 ⊢
  generalize (rotate q ⟨1, 0, 0⟩).x = ax at *
  generalize (rotate q ⟨1, 0, 0⟩).y = ay at *
  generalize (rotate q ⟨1, 0, 0⟩).z = az at *
  generalize (rotate q ⟨0, 1, 0⟩).x = bx at *
  generalize (rotate q ⟨0, 1, 0⟩).y = bY at *
  generalize (rotate q ⟨0, 1, 0⟩).z = bz at *
  generalize (rotate q ⟨0, 0, 1⟩).x = cx at *
  generalize (rotate q ⟨0, 0, 1⟩).y = cY at *
  generalize (rotate q ⟨0, 0, 1⟩).z = cz at *
  by_cases hz : 1 ≤ |az|
  · rw [if_pos hz]
    have hz2 : 1 ≤ az ^ 2 := by rw [← sq_abs]; nlinarith
    have z1 : az ^ 2 = 1 := by nlinarith [sq_nonneg ax, sq_nonneg ay]
    have z2 : ax = 0 := by nlinarith [sq_nonneg ax, sq_nonneg ay]
    have z3 : ay = 0 := by nlinarith [sq_nonneg ax, sq_nonneg ay]
    have z4 : bz = 0 := by nlinarith [sq_nonneg bz, sq_nonneg cz]
    have z5 : cz = 0 := by nlinarith [sq_nonneg bz, sq_nonneg cz]
    subst z2 z3 z4 z5
    by_cases hn : az < 0
    · have : az = -1 := by nlinarith
      subst this
      obtain ⟨c1, s1⟩ := atan2_of_unit (y := bx) (x := cx) (by linarith)
      rw [if_pos hn]
      simp only [Real.cos_zero, Real.sin_zero, Real.cos_pi_div_two, Real.sin_pi_div_two, c1, s1]
      ext <;> simp only
      · ring
      · linear_combination v.y * m2 + v.z * m1
      · ring
    · have : az = 1 := by nlinarith
      subst this
      obtain ⟨c1, s1⟩ := atan2_of_unit (y := -bx) (x := -cx) (by linarith)
      rw [if_neg hn]
      simp only [Real.cos_zero, Real.sin_zero, Real.cos_neg, Real.sin_neg, Real.cos_pi_div_two, Real.sin_pi_div_two, c1, s1]
      ext <;> simp only
      · ring
      · linear_combination v.y * m2 - v.z * m1
      · ring
  · rw [if_neg hz]
    have hz' : |az| < 1 := not_le.mp hz
    obtain ⟨l1, l2⟩ := abs_lt.mp hz'
    have hs : Real.sin (-Real.arcsin az) = -az := by rw [Real.sin_neg, Real.sin_arcsin l1.le l2.le]
    have hp : 0 < 1 - az ^ 2 := by nlinarith
    have hc : Real.cos (-Real.arcsin az) = Real.sqrt (1 - az ^ 2) := by rw [Real.cos_neg, Real.cos_arcsin]
    have hcp : 0 < Real.sqrt (1 - az ^ 2) := Real.sqrt_pos.mpr hp
    have hsq : Real.sqrt (1 - az ^ 2) ^ 2 = 1 - az ^ 2 := Real.sq_sqrt hp.le
    simp only [hc, hs]
    generalize Real.sqrt (1 - az ^ 2) = w at *
    obtain ⟨c1, s1⟩ := atan2_of_unit (y := bz / w) (x := cz / w) (by field_simp; linarith)
    obtain ⟨c2, s2⟩ := atan2_of_unit (y := ay / w) (x := ax / w) (by field_simp; linarith)
    simp only [c1, s1, c2, s2]
    rw [← hsq] at k1 k2 k3 k4
    ext <;> simp only
    · field_simp
      linear_combination (-v.y) * k1 - v.z * k3
    · field_simp
      linear_combination (-v.y) * k2 - v.z * k4
    · field_simp
      ring

/-- A car on a hill that looks to the north-west. -/
example : Geometry.Unit (⟨0, 0, Real.sin (3 / 8 * Real.pi), Real.cos (3 / 8 * Real.pi)⟩ : Quat) := by
  unfold Geometry.Unit; simp only; linear_combination Real.sin_sq_add_cos_sq (3 / 8 * Real.pi)

/-- An angle is beyond 45 degrees and below 135 degrees, to either side, exactly if the part across is the larger one. -/
theorem beyond (y x : ℝ) :
    (|atan2 y x| > Real.pi * 45 / 180 ∧ |atan2 y x| < Real.pi - Real.pi * 45 / 180) ↔ |x| < |y| := by
  have hc := @atan2_cos y x
  have hpi : |atan2 y x| ≤ Real.pi := by unfold atan2; exact Complex.abs_arg_le_pi _
  have e1 : Real.pi * 45 / 180 = Real.pi / 4 := by ring
  rw [e1]
  by_cases h0 : x = 0 ∧ y = 0
  · obtain ⟨rfl, rfl⟩ := h0
    have : atan2 0 0 = 0 := by unfold atan2; exact Complex.arg_zero
    rw [this]
    simp only [abs_zero, lt_irrefl, iff_false]
    intro h; have := Real.pi_pos; linarith [h.1]
  · have hr : 0 < x ^ 2 + y ^ 2 := by
      rcases not_and_or.mp h0 with h | h <;> positivity
    have hrs := Real.sqrt_pos.mpr hr
    have hsq := Real.sq_sqrt hr.le
    rw [← Real.cos_abs] at hc
    have hθ := abs_nonneg (atan2 y x)
    generalize |atan2 y x| = θ at *
    have pp := Real.pi_pos
    have m : Real.pi / 4 ∈ Set.Icc 0 Real.pi := ⟨by linarith, by linarith⟩
    have m3 : Real.pi - Real.pi / 4 ∈ Set.Icc 0 Real.pi := ⟨by linarith, by linarith⟩
    have mθ : θ ∈ Set.Icc 0 Real.pi := ⟨hθ, hpi⟩
    have a1 : Real.pi / 4 < θ ↔ Real.cos θ < Real.cos (Real.pi / 4) := (Real.strictAntiOn_cos.lt_iff_gt mθ m).symm
    have a2 : θ < Real.pi - Real.pi / 4 ↔ Real.cos (Real.pi - Real.pi / 4) < Real.cos θ := (Real.strictAntiOn_cos.lt_iff_gt m3 mθ).symm
    rw [gt_iff_lt, a1, a2, Real.cos_pi_sub]
    have hq : Real.cos (Real.pi / 4) ^ 2 = 1 / 2 := by
      rw [Real.cos_pi_div_four, div_pow, Real.sq_sqrt (by norm_num)]; norm_num
    have hq0 : 0 ≤ Real.cos (Real.pi / 4) := by rw [Real.cos_pi_div_four]; positivity
    have b1 : (Real.cos θ < Real.cos (Real.pi / 4) ∧ -Real.cos (Real.pi / 4) < Real.cos θ) ↔ Real.cos θ ^ 2 < Real.cos (Real.pi / 4) ^ 2 := by
      rw [sq_lt_sq, abs_of_nonneg hq0, abs_lt]; exact and_comm
    rw [b1, hq, ← sq_lt_sq]
    have hx : x ^ 2 = (x ^ 2 + y ^ 2) * Real.cos θ ^ 2 := by
      rw [← hsq, ← mul_pow, hc]
    constructor
    · intro h; nlinarith
    · intro h
      by_contra hn
      have : (x ^ 2 + y ^ 2) * (1 / 2) ≤ (x ^ 2 + y ^ 2) * Real.cos θ ^ 2 := mul_le_mul_of_nonneg_left (not_lt.mp hn) hr.le
      linarith

/-- The yaw of an orientation is beyond 45 degrees, from the direction straight on and from the one straight back, exactly if its front points
more to the side than along. -/
theorem yaw_beyond {q : Quat} (h : Geometry.Unit q) :
    (|(quatToEuler q).z| > Real.pi * 45 / 180 ∧ |(quatToEuler q).z| < Real.pi - Real.pi * 45 / 180) ↔
      |(rotate q ⟨1, 0, 0⟩).x| < |(rotate q ⟨1, 0, 0⟩).y| := by
  have h1 := axis_unit h
  unfold quatToEuler
  simp only
  generalize (rotate q ⟨1, 0, 0⟩).x = ax at *
  generalize (rotate q ⟨1, 0, 0⟩).y = ay at *
  generalize (rotate q ⟨1, 0, 0⟩).z = az at *
  by_cases hz : 1 ≤ |az|
  · have hz2 : 1 ≤ az ^ 2 := by rw [← sq_abs]; nlinarith
    have z2 : ax = 0 := by nlinarith [sq_nonneg ax, sq_nonneg ay]
    have z3 : ay = 0 := by nlinarith [sq_nonneg ax, sq_nonneg ay]
    subst z2 z3
    rw [if_pos hz]
    have hp := Real.pi_pos
    constructor
    · intro hh
      exfalso
      have : Real.pi * 45 / 180 < 0 := by
        have := hh.1
        split at this <;> simpa using this
      nlinarith
    · intro hh; exact absurd hh (lt_irrefl _)
  · rw [if_neg hz]
    simp only
    rw [beyond]
    obtain ⟨l1, l2⟩ := abs_lt.mp (not_le.mp hz)
    have hp : 0 < 1 - az ^ 2 := by nlinarith
    have hc : Real.cos (-Real.arcsin az) = Real.sqrt (1 - az ^ 2) := by rw [Real.cos_neg, Real.cos_arcsin]
    have hcp : 0 < Real.sqrt (1 - az ^ 2) := Real.sqrt_pos.mpr hp
    rw [hc, abs_div, abs_div, abs_of_pos hcp]
    exact div_lt_div_iff_of_pos_right hcp

end Verif.Matching
