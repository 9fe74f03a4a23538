import Verif.Sensing.Moves
import Verif.Sensing.Spec
import Mathlib.Tactic.FieldSimp
import Mathlib.Tactic.Ring
import Mathlib.Tactic.NormNum
import Mathlib.Tactic.Linarith
import Mathlib.Tactic.LinearCombination

/-! C142 and C144: how noise moves detected entities, and the inertial measurement unit. -/

namespace Verif.Sensing

/-! ### C142 -/

theorem apart_sq (a b : ℝ × ℝ) : apart a b ^ 2 = (a.1 - b.1) ^ 2 + (a.2 - b.2) ^ 2 := by
  unfold apart
  rw [Real.sq_sqrt]
  positivity

theorem apart_nonneg (a b : ℝ × ℝ) : 0 ≤ apart a b := Real.sqrt_nonneg _

theorem cos_sin_apart (ego e : Pose) (h : 0 < apart (e.x, e.y) (ego.x, ego.y)) :
    cosOf (e.x - ego.x) (e.y - ego.y) = (e.x - ego.x) / apart (e.x, e.y) (ego.x, ego.y) ∧
    sinOf (e.x - ego.x) (e.y - ego.y) = (e.y - ego.y) / apart (e.x, e.y) (ego.x, ego.y) := by
  have hn : ¬ (e.x - ego.x = 0 ∧ e.y - ego.y = 0) := by
    rintro ⟨h1, h2⟩
    have := apart_sq (e.x, e.y) (ego.x, ego.y)
    simp only [h1, h2] at this
    nlinarith
  unfold cosOf sinOf
  rw [if_neg hn, if_neg hn]
  exact ⟨rfl, rfl⟩

/-- **C142.** Noise of version 2 moves the reference point of an entity along the line of sight from the
ego, and its distance from the ego changes by the noise; the heading turns by the noise, and by half a
turn more if it is flipped. -/
theorem C142_sight (ego e : Pose) (d w : ℝ) (flip : Bool) (h : 0 < apart (e.x, e.y) (ego.x, ego.y)) :
    let r := noised2 ego e d w flip
    (∃ s : ℝ, r.x - ego.x = s * (e.x - ego.x) ∧ r.y - ego.y = s * (e.y - ego.y) ∧
      s * apart (e.x, e.y) (ego.x, ego.y) = apart (e.x, e.y) (ego.x, ego.y) + d) ∧
    apart (r.x, r.y) (ego.x, ego.y) = |apart (e.x, e.y) (ego.x, ego.y) + d| ∧
    r.yaw = e.yaw + w + (if flip then Real.pi else 0) := by
  intro r
  obtain ⟨hc, hs⟩ := cos_sin_apart ego e h
  set l := apart (e.x, e.y) (ego.x, ego.y) with hl
  have hx : r.x - ego.x = (1 + d / l) * (e.x - ego.x) := by
    simp only [r, noised2, hc]; field_simp; ring
  have hy : r.y - ego.y = (1 + d / l) * (e.y - ego.y) := by
    simp only [r, noised2, hs]; field_simp; ring
  refine ⟨⟨1 + d / l, hx, hy, by field_simp⟩, ?_, ?_⟩
  · unfold apart
    simp only [hx, hy]
    rw [← Real.sqrt_sq_eq_abs]
    congr 1
    have hq := apart_sq (e.x, e.y) (ego.x, ego.y)
    simp only at hq
    rw [← hl] at hq
    have : l + d = l * (1 + d / l) := by field_simp
    rw [this]
    linear_combination (-(1 + d / l) ^ 2) * hq
  · simp only [r, noised2]; ring

example : 0 < apart ((10 : ℝ), (0 : ℝ)) (0, 0) := by unfold apart; norm_num

/-- **C142.** Without noise nothing moves. -/
theorem C142_quiet (ego e : Pose) : noised2 ego e 0 0 false = e := by
  simp [noised2]

/-- **C142.** An entity at the place of the ego is moved along the x axis of the map. -/
theorem C142_same_place (ego e : Pose) (d w : ℝ) (flip : Bool) (hx : e.x = ego.x) (hy : e.y = ego.y) :
    (noised2 ego e d w flip).x = e.x + d ∧ (noised2 ego e d w flip).y = e.y := by
  simp [noised2, cosOf, sinOf, hx, hy]

/-- **C142, in part.** With version 2 the bounding box turns on the spot if its centre is the reference
point of the entity: the centre is where the noise of the distance puts it, flipped or not.  Missing: any
other entity, see `C142_spot_violated`. -/
theorem C142_spot_partial (ego e : Pose) (d w : ℝ) (flip : Bool) :
    place (noised2 ego e d w flip) (0, 0) = place (noised2 ego e d 0 false) (0, 0) := by
  simp [place, noised2]

/-- **C142, violated.** With version 2, the box of an entity with its centre one metre ahead of its
reference point is moved by two metres when it is flipped. -/
theorem C142_spot_violated :
    place (noised2 ⟨0, 0, 0⟩ ⟨10, 0, 0⟩ 0 0 false) (1, 0) = (11, 0) ∧
    place (noised2 ⟨0, 0, 0⟩ ⟨10, 0, 0⟩ 0 0 true) (1, 0) = (9, 0) := by
  constructor
  · simp [place, noised2]; norm_num
  · simp [place, noised2]; norm_num

/-- **C142.** The flip of version 4 keeps the bounding box where it is: the centre stays, and each point
of the box takes the place of the opposite one. -/
theorem C142_flip (e : Pose) (centre q : Place) :
    place (flipped e centre) (centre.1 + q.1, centre.2 + q.2) = place e (centre.1 - q.1, centre.2 - q.2) ∧
    (flipped e centre).yaw = e.yaw + Real.pi := by
  refine ⟨?_, rfl⟩
  simp only [place, flipped, Real.cos_add_pi, Real.sin_add_pi, Prod.mk.injEq]
  constructor <;> ring

/-- **C142.** With version 4 the entity turns about the point of its outline that is closest to the ego,
and is then shifted: every point of it does so, by the same amounts, to the right of the line of sight by
the first noise and away from the ego by the second. -/
theorem C142_pivot (ego base centre : Place) (e : Pose) (x y w : ℝ) (h : 1e-6 ≤ apart base ego) (q : Place) :
    let away := ((base.1 - ego.1) / apart base ego, (base.2 - ego.2) / apart base ego)
    let right := (away.2, -away.1)
    place (noised4 ego base centre e x y w false) q =
      ((turned w base (place e q)).1 + (x * right.1 + y * away.1), (turned w base (place e q)).2 + (x * right.2 + y * away.2)) ∧
    (noised4 ego base centre e x y w false).yaw = e.yaw + w := by
  intro away right
  have hn : ¬ Real.sqrt ((base.1 - ego.1) ^ 2 + (base.2 - ego.2) ^ 2) < 1e-6 := not_lt.2 h
  unfold noised4
  simp only
  rw [if_neg hn]
  simp only [Bool.false_eq_true, if_false]
  refine ⟨?_, trivial⟩
  simp only [place, turned, away, right, apart, Real.cos_add, Real.sin_add, Prod.mk.injEq]
  constructor <;> ring

/-- **C142.** So the closest point of the outline keeps its direction from the ego, and its distance
changes by the noise, if there is no noise to the side; the noise of the heading does not matter. -/
theorem C142_closest (ego base centre : Place) (e : Pose) (y w : ℝ) (h : 1e-6 ≤ apart base ego) (q : Place)
    (hq : place e q = base) :
    apart (place (noised4 ego base centre e 0 y w false) q) ego = |apart base ego + y| := by
  rw [(C142_pivot ego base centre e 0 y w h q).1, hq]
  have hpos : 0 < apart base ego := lt_of_lt_of_le (by norm_num) h
  have hs := apart_sq base ego
  set l := apart base ego with hl
  unfold apart
  rw [← Real.sqrt_sq_eq_abs]
  congr 1
  simp only [turned, sub_self, mul_zero, add_zero, zero_mul, zero_add]
  field_simp
  linear_combination (-(l + y) ^ 2) * hs

example : 1e-6 ≤ apart ((8 : ℝ), (0 : ℝ)) (0, 0) ∧ place ⟨10, 0, 0⟩ (-2, 0) = (8, 0) := by
  constructor
  · unfold apart
    rw [show ((8 : ℝ) - 0) ^ 2 + (0 - 0) ^ 2 = 8 ^ 2 by norm_num, Real.sqrt_sq (by norm_num)]
    norm_num
  · simp [place]; norm_num

/-- **C142.** A flipped entity takes up the same box as one that is not flipped, under the same noise of
version 4. -/
theorem C142_flip4 (ego base centre : Place) (e : Pose) (x y w : ℝ) (h : 1e-6 ≤ apart base ego) (q : Place) :
    place (noised4 ego base centre e x y w true) (centre.1 + q.1, centre.2 + q.2) =
      place (noised4 ego base centre e x y w false) (centre.1 - q.1, centre.2 - q.2) := by
  have hn : ¬ Real.sqrt ((base.1 - ego.1) ^ 2 + (base.2 - ego.2) ^ 2) < 1e-6 := not_lt.2 h
  unfold noised4
  simp only
  rw [if_neg hn, if_neg hn]
  simp only [if_true, Bool.false_eq_true, if_false]
  exact (C142_flip _ _ _).1

/-- **C142.** An entity whose outline is less than a micrometre away from the ego gets no noise of
version 4. -/
theorem C142_touching (ego base centre : Place) (e : Pose) (x y w : ℝ) (flip : Bool) (h : apart base ego < 1e-6) :
    noised4 ego base centre e x y w flip = e := by
  have hn : Real.sqrt ((base.1 - ego.1) ^ 2 + (base.2 - ego.2) ^ 2) < 1e-6 := h
  unfold noised4
  simp only
  rw [if_pos hn]

example : apart ((1 : ℝ), (2 : ℝ)) (1, 2) < 1e-6 := by unfold apart; norm_num

/-! ### C144 -/

/-- **C144.** In every frame exactly one message is published if the entity exists, for the first one of
that name, and none otherwise. -/
theorem C144_published (c : ImuConfig) (l : List Motion) (d : ImuDraw) :
    imuUpdate c l d = (l.find? fun m => m.name = c.entity).map fun m => generate c m d := by
  induction l with
  | nil => rfl
  | cons m l ih =>
    simp only [imuUpdate]
    split
    · rename_i h; rw [List.find?_cons_of_pos (by simpa using h)]; rfl
    · rename_i h; rw [List.find?_cons_of_neg (by simpa using h)]; exact ih

/-- **C144.** A standard deviation that is not positive means no noise, and so does the new
configuration: then the orientation and the angular velocity are those of the entity, and, without
gravity, the acceleration is too. -/
theorem C144_quiet (c : ImuConfig) (m : Motion) (d : ImuDraw)
    (h : c.overridden = true ∨ (c.orientation ≤ 0 ∧ c.twist ≤ 0 ∧ c.acceleration ≤ 0)) :
    (generate c m d).rpy = m.rpy ∧ (generate c m d).angular = m.angular ∧
    (c.addGravity = false → (generate c m d).linear = m.linear) := by
  rcases h with h | ⟨h1, h2, h3⟩
  · simp only [generate, h, not_true, false_and, if_false]
    refine ⟨trivial, trivial, ?_⟩
    intro hg; simp [hg]
  · simp only [generate, not_lt.2 h1, not_lt.2 h2, not_lt.2 h3, and_false, if_false]
    refine ⟨trivial, trivial, ?_⟩
    intro hg; simp [hg]

example : (⟨"ego".toList, true, 0, 0, 0, false⟩ : ImuConfig).orientation ≤ 0 := le_refl _

/-- **C144.** Each of the three noises is added to its own quantity, and the covariances published are
the squares of the standard deviations. -/
theorem C144_noise (c : ImuConfig) (m : Motion) (d : ImuDraw) (h : c.overridden = false)
    (h1 : 0 < c.orientation) (h2 : 0 < c.twist) (h3 : 0 < c.acceleration) (hg : c.addGravity = false) :
    generate c m d =
      ⟨⟨m.rpy.x + d.orientation.x, m.rpy.y + d.orientation.y, m.rpy.z + d.orientation.z⟩,
       ⟨m.angular.x + d.twist.x, m.angular.y + d.twist.y, m.angular.z + d.twist.z⟩,
       ⟨m.linear.x + d.acceleration.x, m.linear.y + d.acceleration.y, m.linear.z + d.acceleration.z⟩,
       (c.orientation ^ 2, c.twist ^ 2, c.acceleration ^ 2)⟩ := by
  simp [generate, h, h1, h2, h3, hg, Vec.add]

example : 0 < (⟨"ego".toList, false, 1, 2, 3, false⟩ : ImuConfig).twist := by norm_num

/-- What an accelerometer feels of gravity: the acceleration of the earth as seen from a body that is
rolled and pitched.  It does not depend on the yaw. -/
noncomputable def gravityFelt (roll pitch : ℝ) : ℝ × ℝ × ℝ :=
  (9.81 * Real.sin pitch, -9.81 * (Real.cos pitch * Real.sin roll), -9.81 * (Real.cos pitch * Real.cos roll))

/-- `gravityFelt` is the gravity of the map, (0, 0, -9.81), in the frame of the body: turned back to the
map it points straight down. -/
theorem gravityFelt_down (roll pitch yaw : ℝ) :
    rotate ⟨roll, pitch, yaw⟩ ⟨(gravityFelt roll pitch).1, (gravityFelt roll pitch).2.1, (gravityFelt roll pitch).2.2⟩ =
      ⟨0, 0, -9.81⟩ := by
  have h1 := Real.sin_sq_add_cos_sq roll
  have h2 := Real.sin_sq_add_cos_sq pitch
  simp only [rotate, gravityFelt, Vec.mk.injEq]
  refine ⟨?_, ?_, ?_⟩
  · linear_combination (-9.81 * Real.cos yaw * Real.sin pitch * Real.cos pitch) * h1
  · linear_combination (-9.81 * Real.sin yaw * Real.sin pitch * Real.cos pitch) * h1
  · linear_combination (-9.81 * Real.cos pitch ^ 2) * h1 - 9.81 * h2

/-- **C144, in part.** On level ground gravity is added as it is felt, for every yaw: straight down.
Missing: other attitudes, see `C144_slope_violated`. -/
theorem C144_level_partial (c : ImuConfig) (m : Motion) (d : ImuDraw) (hg : c.addGravity = true)
    (h : c.overridden = true ∨ (c.orientation ≤ 0 ∧ c.twist ≤ 0 ∧ c.acceleration ≤ 0))
    (hr : m.rpy.x = 0) (hp : m.rpy.y = 0) :
    (generate c m d).linear = ⟨m.linear.x + (gravityFelt 0 0).1, m.linear.y + (gravityFelt 0 0).2.1,
      m.linear.z + (gravityFelt 0 0).2.2⟩ ∧ (generate c m d).linear.z = m.linear.z - 9.81 := by
  have key : (generate c m d).linear = m.linear.add (rotate m.rpy ⟨0, 0, -9.81⟩) := by
    rcases h with h | ⟨h1, h2, h3⟩
    · simp [generate, h, hg]
    · simp only [generate, not_lt.2 h1, not_lt.2 h2, not_lt.2 h3, and_false, if_false, hg, if_true]
  rw [key]
  constructor
  · simp [Vec.add, rotate, hr, hp, gravityFelt]
  · simp [Vec.add, rotate, hr, hp]; ring

example : (⟨"ego".toList, true, 0, 0, 0, false⟩ : ImuConfig).addGravity = true := rfl

/-- **C144, violated.** Gravity is turned the wrong way, from the body to the map: on a slope the sensor
feels it as if the slope were the opposite one, for a vehicle that heads along the x axis, whatever the
pitch. -/
theorem C144_slope_violated (c : ImuConfig) (m : Motion) (d : ImuDraw) (hg : c.addGravity = true)
    (h : c.overridden = true) (hr : m.rpy.x = 0) (hy : m.rpy.z = 0) :
    (generate c m d).linear.x = m.linear.x - (gravityFelt 0 m.rpy.y).1 ∧
    (0 < m.rpy.y → m.rpy.y < Real.pi → (generate c m d).linear.x ≠ m.linear.x + (gravityFelt 0 m.rpy.y).1) := by
  have key : (generate c m d).linear.x = m.linear.x - (gravityFelt 0 m.rpy.y).1 := by
    simp [generate, h, hg, Vec.add, rotate, hr, hy, gravityFelt]; ring
  refine ⟨key, ?_⟩
  intro h1 h2
  rw [key]
  have hs := Real.sin_pos_of_pos_of_lt_pi h1 h2
  simp only [gravityFelt]
  intro he
  nlinarith

/-- **C144, violated.** What the sensor feels on a slope depends on the direction on the map: a vehicle
of the same pitch that heads the other way gets the opposite. -/
theorem C144_heading_violated (c : ImuConfig) (m : Motion) (d : ImuDraw) (hg : c.addGravity = true)
    (h : c.overridden = true) (hr : m.rpy.x = 0) (hy : m.rpy.z = 0) (h1 : 0 < m.rpy.y) (h2 : m.rpy.y < Real.pi) :
    (generate c { m with rpy := ⟨m.rpy.x, m.rpy.y, Real.pi⟩ } d).linear.x ≠ (generate c m d).linear.x := by
  rw [(C144_slope_violated c m d hg h hr hy).1]
  have key : (generate c { m with rpy := ⟨m.rpy.x, m.rpy.y, Real.pi⟩ } d).linear.x =
      m.linear.x + (gravityFelt 0 m.rpy.y).1 := by
    simp [generate, h, hg, Vec.add, rotate, hr, gravityFelt]; ring
  rw [key]
  have hs := Real.sin_pos_of_pos_of_lt_pi h1 h2
  simp only [gravityFelt]
  intro he
  nlinarith

example : ∃ (c : ImuConfig) (m : Motion), c.addGravity = true ∧ c.overridden = true ∧ m.rpy.x = 0 ∧ m.rpy.z = 0 ∧
    0 < m.rpy.y ∧ m.rpy.y < Real.pi :=
  ⟨⟨[], true, 0, 0, 0, true⟩, ⟨[], ⟨0, Real.pi / 6, 0⟩, ⟨0, 0, 0⟩, ⟨0, 0, 0⟩⟩, rfl, rfl, rfl, rfl,
    by have := Real.pi_pos; simp only; linarith, by have := Real.pi_pos; simp only; linarith⟩

end Verif.Sensing
