import Verif.Noise.Spec
import Verif.Geometry.PoseTheorems
import Mathlib.Tactic.Ring
/-!
C212: errors of the velocity report. C213: errors of the odometry. C214: errors of the pose with covariance. C215: the seed.
-/
namespace Verif.Noise
open Verif.Geometry Classical

/-! ### Helper lemmas -/

theorem apply_shifted (tape : ℕ → ℝ) (first : Bool) (e : Err) (n i : ℕ) (v : ℝ) :
    Shifted e (Pair tape first n i) v (e.apply tape first (n + 2 * i) v).1 ∧ (e.apply tape first (n + 2 * i) v).2 = n + 2 * (i + 1) := by
  unfold Shifted Pair Err.apply Dist.draw
  cases first
  · simp only [Bool.false_eq_true, if_false]
    exact ⟨by ring, by ring⟩
  · simp only [if_true]
    exact ⟨by ring, by ring⟩

theorem apply3_shifted (tape : ℕ → ℝ) (first : Bool) (ex ey ez : Err) (n i : ℕ) (v : Pt) :
    Shifted ex (Pair tape first n i) v.x (apply3 tape first ex ey ez (n + 2 * i) v).1.x ∧
    Shifted ey (Pair tape first n (i + 1)) v.y (apply3 tape first ex ey ez (n + 2 * i) v).1.y ∧
    Shifted ez (Pair tape first n (i + 2)) v.z (apply3 tape first ex ey ez (n + 2 * i) v).1.z ∧
    (apply3 tape first ex ey ez (n + 2 * i) v).2 = n + 2 * (i + 3) := by
  obtain ⟨a1, a2⟩ := apply_shifted tape first ex n i v.x
  obtain ⟨b1, b2⟩ := apply_shifted tape first ey n (i + 1) v.y
  obtain ⟨c1, c2⟩ := apply_shifted tape first ez n (i + 2) v.z
  unfold apply3
  simp only [a2, b2, c2]
  exact ⟨a1, b1, c1, trivial⟩

theorem shifted_silent {e : Err} (h : Silent e) {p : ℝ × ℝ} {v r : ℝ} (hs : Shifted e p v r) : r = v := by
  obtain ⟨h1, h2, h3, h4⟩ := h
  unfold Shifted at hs
  rw [hs, h1, h2, h3, h4]
  ring

theorem shifted_constant {e : Err} {c : ℝ} (h : Constant e c) {p : ℝ × ℝ} {v r : ℝ} (hs : Shifted e p v r) : r = v + c := by
  obtain ⟨h1, h2, h3, h4⟩ := h
  unfold Shifted at hs
  rw [hs, h1, h2, h3, h4]
  ring

theorem half_cos (a : ℝ) : Real.cos a = Real.cos (a / 2) ^ 2 - Real.sin (a / 2) ^ 2 := by
  have h := Real.cos_two_mul (a / 2)
  have h' := Real.sin_sq_add_cos_sq (a / 2)
  rw [mul_div_cancel₀ a (two_ne_zero)] at h
  linarith

theorem half_sin (a : ℝ) : Real.sin a = 2 * Real.sin (a / 2) * Real.cos (a / 2) := by
  have h := Real.sin_two_mul (a / 2)
  rw [mul_div_cancel₀ a (two_ne_zero)] at h
  exact h

theorem rotate_aboutX (a : ℝ) (v : Pt) : rotate (aboutX a) v = turnX a v := by
  have h := Real.sin_sq_add_cos_sq (a / 2)
  unfold rotate aboutX turnX
  rw [half_cos a, half_sin a]
  ext <;> simp only
  · linear_combination v.x * h
  · ring
  · ring

theorem rotate_aboutY (a : ℝ) (v : Pt) : rotate (aboutY a) v = turnY a v := by
  have h := Real.sin_sq_add_cos_sq (a / 2)
  unfold rotate aboutY turnY
  rw [half_cos a, half_sin a]
  ext <;> simp only
  · ring
  · linear_combination v.y * h
  · ring

theorem rotate_aboutZ (a : ℝ) (v : Pt) : rotate (aboutZ a) v = turnZ a v := by
  have h := Real.sin_sq_add_cos_sq (a / 2)
  unfold rotate aboutZ turnZ
  rw [half_cos a, half_sin a]
  ext <;> simp only
  · ring
  · ring
  · linear_combination v.z * h

theorem euler_eq (a : Pt) : eulerToQuat a = ((aboutZ a.z).mul (aboutY a.y)).mul (aboutX a.x) := by
  unfold eulerToQuat aboutZ aboutY aboutX Quat.mul
  ext <;> simp only <;> ring

theorem rotate_euler (a : Pt) (v : Pt) : rotate (eulerToQuat a) v = turnZ a.z (turnY a.y (turnX a.x v)) := by
  rw [euler_eq, rotate_mul, rotate_mul, rotate_aboutX, rotate_aboutY, rotate_aboutZ]

theorem unit_mul {p q : Quat} (hp : Unit p) (hq : Unit q) : Unit (p.mul q) := by
  unfold Geometry.Unit at *
  have : (p.mul q).x ^ 2 + (p.mul q).y ^ 2 + (p.mul q).z ^ 2 + (p.mul q).w ^ 2 =
      (p.x ^ 2 + p.y ^ 2 + p.z ^ 2 + p.w ^ 2) * (q.x ^ 2 + q.y ^ 2 + q.z ^ 2 + q.w ^ 2) := by
    unfold Quat.mul; simp only; ring
  rw [this, hp, hq]; ring

theorem unit_about (a : ℝ) : Unit (aboutX a) ∧ Unit (aboutY a) ∧ Unit (aboutZ a) := by
  have h := Real.sin_sq_add_cos_sq (a / 2)
  unfold Geometry.Unit aboutX aboutY aboutZ
  simp only
  exact ⟨by linarith, by linarith, by linarith⟩

theorem unit_euler (a : Pt) : Unit (eulerToQuat a) := by
  rw [euler_eq]
  exact unit_mul (unit_mul (unit_about a.z).2.2 (unit_about a.y).2.1) (unit_about a.x).1

theorem normalize_unit {q : Quat} (h : Unit q) : normalizeQuat q = q := by
  unfold Geometry.Unit at h
  unfold normalizeQuat
  simp only [h, Real.sqrt_one, div_one]

theorem turnX_add (a b : ℝ) (v : Pt) : turnX (a + b) v = turnX b (turnX a v) := by
  unfold turnX
  rw [Real.sin_add, Real.cos_add]
  ext <;> simp only <;> ring

theorem turnZ_add (a b : ℝ) (v : Pt) : turnZ (a + b) v = turnZ a (turnZ b v) := by
  unfold turnZ
  rw [Real.sin_add, Real.cos_add]
  ext <;> simp only <;> ring

theorem shifted_zero {e : Err} {p : ℝ × ℝ} {r : ℝ} (h : Shifted e p 0 r) : r = e.additive.mean + e.additive.deviation * p.2 := by
  unfold Shifted at h
  rw [h]; ring

/-! ### C212 -/

/-- C212: a report of a vehicle slower than the threshold is published as it is, and nothing is drawn; of any other report each of the three
numbers gets its own error, with its own variates. -/
theorem C212_velocity (c : VelocityNoise) (tape : ℕ → ℝ) (first : Bool) (n : ℕ) (m : Velocity) :
    (Real.sqrt (m.longitudinal ^ 2 + m.lateral ^ 2) < c.threshold → c.publish tape first n m = (m, n)) ∧
    (c.threshold ≤ Real.sqrt (m.longitudinal ^ 2 + m.lateral ^ 2) →
      Shifted c.longitudinal (Pair tape first n 0) m.longitudinal (c.publish tape first n m).1.longitudinal ∧
      Shifted c.lateral (Pair tape first n 1) m.lateral (c.publish tape first n m).1.lateral ∧
      Shifted c.heading (Pair tape first n 2) m.heading (c.publish tape first n m).1.heading ∧
      (c.publish tape first n m).2 = n + 6) := by
  constructor
  · intro h
    unfold VelocityNoise.publish
    rw [if_pos h]
  · intro h
    obtain ⟨a1, a2⟩ := apply_shifted tape first c.longitudinal n 0 m.longitudinal
    obtain ⟨b1, b2⟩ := apply_shifted tape first c.lateral n 1 m.lateral
    obtain ⟨d1, d2⟩ := apply_shifted tape first c.heading n 2 m.heading
    unfold VelocityNoise.publish
    rw [if_neg (not_lt.mpr h)]
    simp only [Nat.mul_zero, Nat.add_zero] at a1 a2
    simp only [a2, b2, d2]
    exact ⟨a1, b1, d1, trivial⟩

/-- C212: without errors every report is published as it is. -/
theorem C212_silent (c : VelocityNoise) (tape : ℕ → ℝ) (first : Bool) (n : ℕ) (m : Velocity) (h1 : Silent c.longitudinal) (h2 : Silent c.lateral)
    (h3 : Silent c.heading) : (c.publish tape first n m).1 = m := by
  obtain ⟨l, r⟩ := C212_velocity c tape first n m
  by_cases h : Real.sqrt (m.longitudinal ^ 2 + m.lateral ^ 2) < c.threshold
  · rw [l h]
  · obtain ⟨a, b, d, -⟩ := r (not_lt.mp h)
    exact Velocity.ext (shifted_silent h1 a) (shifted_silent h2 b) (shifted_silent h3 d)

/-- An error that is nothing, and one that is a constant. -/
def none' : Err := ⟨⟨0, 0⟩, ⟨0, 0⟩⟩
/-- See `none'`. -/
def plus (c : ℝ) : Err := ⟨⟨c, 0⟩, ⟨0, 0⟩⟩

theorem silent_none : Silent none' := ⟨rfl, rfl, rfl, rfl⟩
theorem constant_plus (c : ℝ) : Constant (plus c) c := ⟨rfl, rfl, rfl, rfl⟩

/-- The theorems speak about this: a vehicle at 5 m/s, and an error of 1 m/s on what it reports; the lateral velocity is doubled, the heading rate
is moved by half of a variate. -/
example : ((⟨1, plus 1, ⟨⟨0, 0⟩, ⟨1, 0⟩⟩, ⟨⟨0, 1 / 2⟩, ⟨0, 0⟩⟩⟩ : VelocityNoise).publish (fun k => (k : ℝ)) true 10 ⟨3, 4, 1⟩).1 = ⟨4, 8, 17 / 2⟩ := by
  have h : ¬ Real.sqrt ((3 : ℝ) ^ 2 + 4 ^ 2) < 1 := by
    rw [show (3 : ℝ) ^ 2 + 4 ^ 2 = 5 ^ 2 by norm_num, Real.sqrt_sq (by norm_num)]; norm_num
  unfold VelocityNoise.publish
  simp only [if_neg h]
  unfold Err.apply Dist.draw plus
  norm_num

/-! ### C213 -/

/-- The speed of an odometry message. -/
noncomputable def Odometry.speed (m : Odometry) : ℝ := Real.sqrt (m.linear.x ^ 2 + m.linear.y ^ 2 + m.linear.z ^ 2)

/-- C213 (in part: the orientation): the odometry of a vehicle slower than the threshold is published as it is, and nothing is drawn. For any
other one the position is moved by a vector that is given in the axes of the vehicle, and each part of the velocities gets its own error. The
angles, as the program takes them from the orientation, get their errors, and the orientation is made of them again. -/
theorem C213_odometry_partial (c : OdometryNoise) (euler : Quat → Pt) (tape : ℕ → ℝ) (first : Bool) (n : ℕ) (m : Odometry) :
    (m.speed < c.threshold → c.publish euler tape first n m = (m, n)) ∧
    (c.threshold ≤ m.speed →
      (∃ e : Pt, Shifted c.px (Pair tape first n 0) 0 e.x ∧ Shifted c.py (Pair tape first n 1) 0 e.y ∧ Shifted c.pz (Pair tape first n 2) 0 e.z ∧
        (c.publish euler tape first n m).1.position = m.position.add (rotate m.orientation e)) ∧
      (∃ a : Pt, Shifted c.roll (Pair tape first n 3) (euler m.orientation).x a.x ∧
        Shifted c.pitch (Pair tape first n 4) (euler m.orientation).y a.y ∧ Shifted c.yaw (Pair tape first n 5) (euler m.orientation).z a.z ∧
        AnglesOf (c.publish euler tape first n m).1.orientation a) ∧
      Shifted c.lx (Pair tape first n 6) m.linear.x (c.publish euler tape first n m).1.linear.x ∧
      Shifted c.ly (Pair tape first n 7) m.linear.y (c.publish euler tape first n m).1.linear.y ∧
      Shifted c.lz (Pair tape first n 8) m.linear.z (c.publish euler tape first n m).1.linear.z ∧
      Shifted c.ax (Pair tape first n 9) m.angular.x (c.publish euler tape first n m).1.angular.x ∧
      Shifted c.ay (Pair tape first n 10) m.angular.y (c.publish euler tape first n m).1.angular.y ∧
      Shifted c.az (Pair tape first n 11) m.angular.z (c.publish euler tape first n m).1.angular.z ∧
      (c.publish euler tape first n m).2 = n + 24) := by
  constructor
  · intro h
    have h : Real.sqrt (m.linear.x ^ 2 + m.linear.y ^ 2 + m.linear.z ^ 2) < c.threshold := h
    unfold OdometryNoise.publish
    rw [if_pos h]
  · intro h
    have h : ¬ Real.sqrt (m.linear.x ^ 2 + m.linear.y ^ 2 + m.linear.z ^ 2) < c.threshold := not_lt.mpr h
    obtain ⟨a1, a2, a3, a4⟩ := apply3_shifted tape first c.px c.py c.pz n 0 ⟨0, 0, 0⟩
    obtain ⟨b1, b2, b3, b4⟩ := apply3_shifted tape first c.roll c.pitch c.yaw n 3 (euler m.orientation)
    obtain ⟨d1, d2, d3, d4⟩ := apply3_shifted tape first c.lx c.ly c.lz n 6 m.linear
    obtain ⟨e1, e2, e3, e4⟩ := apply3_shifted tape first c.ax c.ay c.az n 9 m.angular
    simp only [Nat.mul_zero, Nat.add_zero, Nat.zero_add] at a1 a2 a3 a4
    unfold OdometryNoise.publish
    simp only [if_neg h]
    rw [a4, b4, d4, e4]
    refine ⟨⟨_, a1, a2, a3, rfl⟩, ⟨_, b1, b2, b3, ?_⟩, d1, d2, d3, e1, e2, e3, rfl⟩
    intro v
    rw [rotate_mul, rotate_mul, rotate_aboutX, rotate_aboutY, rotate_aboutZ]

/-- C213: the multiplicative parts of the errors of the position play no role; the published position is away from the true one by a vector which
in the axes of the vehicle has the three additive errors as its parts, and so as far as that vector is long. -/
theorem C213_position (c : OdometryNoise) (euler : Quat → Pt) (tape : ℕ → ℝ) (first : Bool) (n : ℕ) (m : Odometry) (fast : c.threshold ≤ m.speed)
    (h : Unit m.orientation) :
    let e : Pt := ⟨Added tape first n c.px 0, Added tape first n c.py 1, Added tape first n c.pz 2⟩
    rotate m.orientation.conj ((c.publish euler tape first n m).1.position.sub m.position) = e ∧
      distance (c.publish euler tape first n m).1.position m.position = e.norm := by
  obtain ⟨⟨e, h1, h2, h3, h4⟩, -⟩ := (C213_odometry_partial c euler tape first n m).2 fast
  have he : e = ⟨Added tape first n c.px 0, Added tape first n c.py 1, Added tape first n c.pz 2⟩ :=
    Pt.ext (shifted_zero h1) (shifted_zero h2) (shifted_zero h3)
  intro e'
  rw [show e' = e from he.symm, h4]
  constructor
  · have : (m.position.add (rotate m.orientation e)).sub m.position = rotate m.orientation e := by
      unfold Pt.add Pt.sub; ext <;> simp
    rw [this, rotate_conj h]
  · have hn := rotate_norm h e
    unfold distance Pt.norm
    congr 1
    rw [← hn]
    unfold Pt.add
    simp

/-- C213: without errors the odometry is published as it is, up to the sign of the quaternion, if the angles that the program takes describe the
orientation. -/
theorem C213_silent (c : OdometryNoise) (euler : Quat → Pt) (tape : ℕ → ℝ) (first : Bool) (n : ℕ) (m : Odometry)
    (ha : AnglesOf m.orientation (euler m.orientation)) (h1 : Silent c.px) (h2 : Silent c.py) (h3 : Silent c.pz) (h4 : Silent c.roll)
    (h5 : Silent c.pitch) (h6 : Silent c.yaw) (h7 : Silent c.lx) (h8 : Silent c.ly) (h9 : Silent c.lz) (h10 : Silent c.ax) (h11 : Silent c.ay)
    (h12 : Silent c.az) :
    (c.publish euler tape first n m).1.position = m.position ∧ SameTurn (c.publish euler tape first n m).1.orientation m.orientation ∧
      (c.publish euler tape first n m).1.linear = m.linear ∧ (c.publish euler tape first n m).1.angular = m.angular := by
  obtain ⟨l, r⟩ := C213_odometry_partial c euler tape first n m
  by_cases h : m.speed < c.threshold
  · rw [l h]
    exact ⟨rfl, fun _ => rfl, rfl, rfl⟩
  · obtain ⟨⟨e, e1, e2, e3, e4⟩, ⟨a, a1, a2, a3, a4⟩, b1, b2, b3, d1, d2, d3, -⟩ := r (not_lt.mp h)
    refine ⟨?_, ?_, Pt.ext (shifted_silent h7 b1) (shifted_silent h8 b2) (shifted_silent h9 b3),
      Pt.ext (shifted_silent h10 d1) (shifted_silent h11 d2) (shifted_silent h12 d3)⟩
    · have : e = ⟨0, 0, 0⟩ := Pt.ext (shifted_silent h1 e1) (shifted_silent h2 e2) (shifted_silent h3 e3)
      rw [e4, this]
      unfold rotate Pt.add
      ext <;> simp
    · have : a = euler m.orientation := Pt.ext (shifted_silent h4 a1) (shifted_silent h5 a2) (shifted_silent h6 a3)
      intro v
      rw [← a4 v, this, ha v]

/-- C213: a constant error of the yaw alone turns the vehicle about its own vertical axis by that angle. -/
theorem C213_yaw (c : OdometryNoise) (euler : Quat → Pt) (tape : ℕ → ℝ) (first : Bool) (n : ℕ) (m : Odometry) (fast : c.threshold ≤ m.speed)
    (ha : AnglesOf m.orientation (euler m.orientation)) (h4 : Silent c.roll) (h5 : Silent c.pitch) (angle : ℝ) (h6 : Constant c.yaw angle) (v : Pt) :
    rotate (c.publish euler tape first n m).1.orientation v = rotate m.orientation (turnZ angle v) := by
  obtain ⟨-, ⟨a, a1, a2, a3, a4⟩, -⟩ := (C213_odometry_partial c euler tape first n m).2 fast
  rw [← a4 v, ← ha (turnZ angle v), shifted_silent h4 a1, shifted_silent h5 a2, shifted_constant h6 a3, turnZ_add]

/-- C213: a constant error of the roll alone turns the vehicle about the first axis of the map by that angle. -/
theorem C213_roll (c : OdometryNoise) (euler : Quat → Pt) (tape : ℕ → ℝ) (first : Bool) (n : ℕ) (m : Odometry) (fast : c.threshold ≤ m.speed)
    (ha : AnglesOf m.orientation (euler m.orientation)) (angle : ℝ) (h4 : Constant c.roll angle) (h5 : Silent c.pitch) (h6 : Silent c.yaw) (v : Pt) :
    rotate (c.publish euler tape first n m).1.orientation v = turnX angle (rotate m.orientation v) := by
  obtain ⟨-, ⟨a, a1, a2, a3, a4⟩, -⟩ := (C213_odometry_partial c euler tape first n m).2 fast
  rw [← a4 v, ← ha v, shifted_constant h4 a1, shifted_silent h5 a2, shifted_silent h6 a3, turnX_add]

/-- A vehicle at 5 m/s that heads along the second axis of the map, with the angles of its orientation. -/
noncomputable def heading : Odometry := ⟨⟨1, 2, 3⟩, aboutZ (Real.pi / 2), ⟨3, 4, 0⟩, ⟨0, 0, 0⟩⟩

theorem heading_speed : heading.speed = 5 := by
  unfold Odometry.speed heading
  rw [show (3 : ℝ) ^ 2 + 4 ^ 2 + 0 ^ 2 = 5 ^ 2 by norm_num, Real.sqrt_sq (by norm_num)]

theorem heading_angles : AnglesOf heading.orientation ⟨0, 0, Real.pi / 2⟩ := by
  intro v
  unfold heading
  rw [rotate_aboutZ]
  unfold turnX turnY turnZ
  simp

/-- Odometry errors of one kind each. -/
def odometryNoise (roll yaw : Err) (px : Err) : OdometryNoise :=
  ⟨1, px, none', none', roll, none', yaw, none', none', none', none', none', none'⟩

/-- The theorems speak about this message: its position is moved by 2 m to the front of the vehicle, along the second axis of the map. -/
example : ((odometryNoise none' none' (plus 2)).publish (fun _ => ⟨0, 0, Real.pi / 2⟩) (fun _ => 0) true 0 heading).1.position = ⟨1, 4, 3⟩ := by
  have fast : (odometryNoise none' none' (plus 2)).threshold ≤ heading.speed := by rw [heading_speed]; unfold odometryNoise; norm_num
  obtain ⟨⟨e, h1, h2, h3, h4⟩, -⟩ :=
    (C213_odometry_partial (odometryNoise none' none' (plus 2)) (fun _ => ⟨0, 0, Real.pi / 2⟩) (fun _ => 0) true 0 heading).2 fast
  have he : e = ⟨2, 0, 0⟩ := by
    refine Pt.ext ?_ (shifted_silent silent_none h2) (shifted_silent silent_none h3)
    have := shifted_constant (constant_plus 2) h1
    simpa using this
  rw [h4, he]
  unfold heading
  rw [rotate_aboutZ]
  unfold turnZ Pt.add
  norm_num

/-- C213 does not hold as stated: an error of the roll of a vehicle that heads along the second axis of the map does not turn it about its own
first axis; by `C213_roll` it is an error of its pitch. -/
theorem C213_roll_violated :
    ∃ (c : OdometryNoise) (euler : Quat → Pt) (m : Odometry) (angle : ℝ), Unit m.orientation ∧ AnglesOf m.orientation (euler m.orientation) ∧
      Constant c.roll angle ∧ Silent c.pitch ∧ Silent c.yaw ∧ c.threshold ≤ m.speed ∧
      ∀ (tape : ℕ → ℝ) (first : Bool) (n : ℕ),
        rotate (c.publish euler tape first n m).1.orientation ⟨0, 1, 0⟩ ≠ rotate m.orientation (turnX angle ⟨0, 1, 0⟩) ∧
        rotate (c.publish euler tape first n m).1.orientation ⟨1, 0, 0⟩ = ⟨0, 0, 1⟩ := by
  have fast : (odometryNoise (plus (Real.pi / 2)) none' none').threshold ≤ heading.speed := by rw [heading_speed]; unfold odometryNoise; norm_num
  refine ⟨odometryNoise (plus (Real.pi / 2)) none' none', fun _ => ⟨0, 0, Real.pi / 2⟩, heading, Real.pi / 2, (unit_about _).2.2,
    heading_angles, constant_plus _, silent_none, silent_none, fast, fun tape first n => ?_⟩
  have key := C213_roll (odometryNoise (plus (Real.pi / 2)) none' none') (fun _ => ⟨0, 0, Real.pi / 2⟩) tape first n heading fast heading_angles
    (Real.pi / 2) (constant_plus _) silent_none silent_none
  have hr : ∀ v, rotate heading.orientation v = turnZ (Real.pi / 2) v := fun v => by unfold heading; rw [rotate_aboutZ]
  constructor
  · rw [key, hr, hr]
    intro h
    have := congrArg Pt.x h
    unfold turnX turnZ at this
    simp at this
  · rw [key, hr]
    unfold turnX turnZ
    ext <;> simp

/-! ### C214 -/

/-- C214 (in part: the multiplicative errors): the position is moved by a vector that is given in the axes of the vehicle; the vehicle is turned, in its own axes, by
a yaw, then a pitch, then a roll, which are the additive errors; the six entries of the diagonal of the covariance are the ones configured, and
the others are as they were. -/
theorem C214_pose_partial (c : PoseNoise) (tape : ℕ → ℝ) (first : Bool) (n : ℕ) (m : PoseCov) (h : Unit m.orientation) :
    (c.publish tape first n m).1.position = m.position.add (rotate m.orientation ⟨Added tape first n c.px 0, Added tape first n c.py 1, Added tape first n c.pz 2⟩) ∧
    (∀ v, rotate (c.publish tape first n m).1.orientation v =
      rotate m.orientation (turnZ (Added tape first n c.yaw 5) (turnY (Added tape first n c.pitch 4) (turnX (Added tape first n c.roll 3) v)))) ∧
    (c.publish tape first n m).1.covariance 0 = Added tape first n c.cxx 6 ∧ (c.publish tape first n m).1.covariance 7 = Added tape first n c.cyy 7 ∧
    (c.publish tape first n m).1.covariance 14 = Added tape first n c.czz 8 ∧ (c.publish tape first n m).1.covariance 21 = Added tape first n c.crr 9 ∧
    (c.publish tape first n m).1.covariance 28 = Added tape first n c.cpp 10 ∧ (c.publish tape first n m).1.covariance 35 = Added tape first n c.cww 11 ∧
    (∀ row col, row < 6 → col < 6 → row ≠ col → (c.publish tape first n m).1.covariance (6 * row + col) = m.covariance (6 * row + col)) ∧
    (c.publish tape first n m).2 = n + 24 := by
  obtain ⟨a1, a2, a3, a4⟩ := apply3_shifted tape first c.px c.py c.pz n 0 ⟨0, 0, 0⟩
  obtain ⟨b1, b2, b3, b4⟩ := apply3_shifted tape first c.roll c.pitch c.yaw n 3 ⟨0, 0, 0⟩
  obtain ⟨d1, d2, d3, d4⟩ := apply3_shifted tape first c.cxx c.cyy c.czz n 6 ⟨0, 0, 0⟩
  obtain ⟨e1, e2, e3, e4⟩ := apply3_shifted tape first c.crr c.cpp c.cww n 9 ⟨0, 0, 0⟩
  simp only [Nat.mul_zero, Nat.add_zero, Nat.zero_add] at a1 a2 a3 a4
  have A : (apply3 tape first c.px c.py c.pz n ⟨0, 0, 0⟩).1 = ⟨Added tape first n c.px 0, Added tape first n c.py 1, Added tape first n c.pz 2⟩ :=
    Pt.ext (shifted_zero a1) (shifted_zero a2) (shifted_zero a3)
  have B1 := shifted_zero b1
  have B2 := shifted_zero b2
  have B3 := shifted_zero b3
  unfold PoseNoise.publish
  simp only [a4, b4, d4, e4]
  refine ⟨by rw [A], ?_, ?_, ?_, ?_, ?_, ?_, ?_, ?_, trivial⟩
  · intro v
    rw [normalize_unit (unit_mul h (unit_euler _)), rotate_mul, rotate_euler, B1, B2, B3]
    rfl
  · simpa [setAt, Added] using shifted_zero d1
  · simpa [setAt, Added] using shifted_zero d2
  · simpa [setAt, Added] using shifted_zero d3
  · simpa [setAt, Added] using shifted_zero e1
  · simpa [setAt, Added] using shifted_zero e2
  · simpa [setAt, Added] using shifted_zero e3
  · intro row col hr hc hne
    unfold setAt
    rw [if_neg (by omega), if_neg (by omega), if_neg (by omega), if_neg (by omega), if_neg (by omega), if_neg (by omega)]

/-- Pose errors: of the roll and of an entry of the covariance. -/
def poseNoise (roll cxx : Err) : PoseNoise := ⟨none', none', none', roll, none', none', cxx, none', none', none', none', none'⟩

/-- The theorem speaks about this: the entry is the one configured, and another one on the diagonal becomes zero. -/
example : ((poseNoise none' (plus 225)).publish (fun _ => 0) true 0 ⟨⟨1, 2, 3⟩, aboutZ 1, fun _ => 7⟩).1.covariance 0 = 225 ∧
    ((poseNoise none' (plus 225)).publish (fun _ => 0) true 0 ⟨⟨1, 2, 3⟩, aboutZ 1, fun _ => 7⟩).1.covariance 7 = 0 ∧
    ((poseNoise none' (plus 225)).publish (fun _ => 0) true 0 ⟨⟨1, 2, 3⟩, aboutZ 1, fun _ => 7⟩).1.covariance (6 * 0 + 1) = 7 := by
  obtain ⟨-, -, h1, h2, -, -, -, -, h3, -⟩ := C214_pose_partial (poseNoise none' (plus 225)) (fun _ => 0) true 0 ⟨⟨1, 2, 3⟩, aboutZ 1, fun _ => 7⟩
    (unit_about 1).2.2
  refine ⟨?_, ?_, h3 0 1 (by omega) (by omega) (by omega)⟩
  · rw [h1]; simp [poseNoise, plus, Added]
  · rw [h2]; simp [poseNoise, none', Added]

/-- C214 does not hold as stated: multiplicative errors have no effect, on the angles and on everything else. -/
theorem C214_multiplicative_violated (c c' : PoseNoise) (tape : ℕ → ℝ) (first : Bool) (n : ℕ) (m : PoseCov) (h : Unit m.orientation)
    (h1 : c.px.additive = c'.px.additive) (h2 : c.py.additive = c'.py.additive) (h3 : c.pz.additive = c'.pz.additive)
    (h4 : c.roll.additive = c'.roll.additive) (h5 : c.pitch.additive = c'.pitch.additive) (h6 : c.yaw.additive = c'.yaw.additive) :
    (c.publish tape first n m).1.position = (c'.publish tape first n m).1.position ∧
      SameTurn (c.publish tape first n m).1.orientation (c'.publish tape first n m).1.orientation := by
  obtain ⟨a1, a2, -⟩ := C214_pose_partial c tape first n m h
  obtain ⟨b1, b2, -⟩ := C214_pose_partial c' tape first n m h
  constructor
  · rw [a1, b1]
    unfold Added
    rw [h1, h2, h3]
  · intro v
    rw [a2 v, b2 v]
    unfold Added
    rw [h4, h5, h6]

/-- The theorem speaks about two configurations that differ: the roll shall be doubled, or not. -/
example : (poseNoise ⟨⟨0, 0⟩, ⟨1, 0⟩⟩ none').roll.additive = (poseNoise none' none').roll.additive ∧
    (poseNoise ⟨⟨0, 0⟩, ⟨1, 0⟩⟩ none').roll.multiplicative ≠ (poseNoise none' none').roll.multiplicative := by
  refine ⟨rfl, ?_⟩
  unfold poseNoise none'
  intro h
  have := congrArg Dist.mean h
  norm_num at this

/-! ### C215 -/

theorem unsigned_int (p : ℤ) : toUnsigned (toInt p) = (p % 2 ^ 32).toNat := by
  unfold toUnsigned toInt
  dsimp only
  congr 1
  split
  · exact Int.emod_emod_of_dvd p (dvd_refl _)
  · rw [Int.sub_emod_right]
    exact Int.emod_emod_of_dvd p (dvd_refl _)

/-- C215 (in part: what is out of range): the engine starts from the seed given, if it is positive and fits into 32 bits, and from a random one if it is zero. -/
theorem C215_seed_partial (parameter : ℤ) (device : ℕ) (h0 : 0 ≤ parameter) (h1 : parameter < 2 ^ 32) :
    engineSeed parameter device = some (if parameter = 0 then device else parameter.toNat) := by
  have e : parameter % 2 ^ 32 = parameter := Int.emod_eq_of_lt h0 h1
  unfold engineSeed seed
  dsimp only
  rw [unsigned_int, e, if_pos (by omega), Option.map_some]
  congr 1
  by_cases hp : parameter = 0
  · simp [hp]
  · rw [if_neg hp, if_pos (by omega)]

example : engineSeed 7 1234 = some 7 ∧ engineSeed 0 1234 = some 1234 ∧ engineSeed 4294967295 1234 = some 4294967295 := by decide

/-- C215 does not hold as stated: no seed is refused; one that is out of range is taken modulo 2^32. -/
theorem C215_range_violated (parameter : ℤ) : seed parameter = some (parameter % 2 ^ 32).toNat := by
  unfold seed
  dsimp only
  rw [unsigned_int, if_pos]
  have := Int.emod_lt_of_pos parameter (show (0 : ℤ) < 2 ^ 32 by norm_num)
  omega

/-- Seeds that are out of range: a negative one, and one that makes every run another one. -/
example : engineSeed (-1) 1234 = some 4294967295 ∧ engineSeed 4294967296 1234 = some 1234 := by decide

end Verif.Noise
