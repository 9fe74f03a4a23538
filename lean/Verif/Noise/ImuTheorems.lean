import Verif.Noise.Theorems
/-!
C216: what the inertial measurement unit reports.
-/
namespace Verif.Noise
open Verif.Geometry Classical

/-! ### Helper lemmas -/

/-- The legacy error of a value: the variate number `i` times the standard deviation, if that is positive. -/
theorem legacy_spec (tape : ℕ → ℝ) (deviation : ℝ) (n : ℕ) (v : Pt) :
    (0 < deviation → legacy tape deviation n v =
      (⟨v.x + deviation * tape n, v.y + deviation * tape (n + 1), v.z + deviation * tape (n + 2)⟩, n + 3)) ∧
    (deviation ≤ 0 → legacy tape deviation n v = (v, n)) := by
  unfold legacy Dist.draw
  constructor
  · intro h
    rw [if_pos h]
    ext <;> simp only <;> ring
  · intro h
    rw [if_neg (not_lt.mpr h)]

theorem inactive (c : ImuNoise) (rpy : Quat → Pt) (tape : ℕ → ℝ) (first : Bool) (n : ℕ) (m : Imu) :
    ({ c with active := false } : ImuNoise).publish rpy tape first n m = (m, n) := by
  unfold ImuNoise.publish
  simp

/-! ### C216 -/

/-- C216: something is published exactly if there is an entity of the name; it is then the one listed first. -/
theorem C216_entity (s : ImuSensor) (c : ImuNoise) (rpy : Quat → Pt) (tape : ℕ → ℝ) (n : ℕ) (tape' : ℕ → ℝ) (first : Bool) (n' : ℕ)
    (statuses : List Status) :
    ((s.update c rpy tape n tape' first n' statuses).isSome = true ↔ ∃ e, e ∈ statuses ∧ e.name = s.entity) ∧
    ∀ (before : List Status) (e : Status) (after : List Status), statuses = before ++ e :: after → (∀ b, b ∈ before → b.name ≠ s.entity) →
      e.name = s.entity → s.update c rpy tape n tape' first n' statuses = s.update c rpy tape n tape' first n' [e] := by
  constructor
  · unfold ImuSensor.update
    rw [Option.isSome_map, List.find?_isSome]
    simp
  · rintro before e after rfl hb he
    unfold ImuSensor.update
    have h1 : (before ++ e :: after).find? (fun e => e.name == s.entity) = some e := by
      rw [List.find?_append]
      have : before.find? (fun e => e.name == s.entity) = none := by
        rw [List.find?_eq_none]
        intro b hb'
        simpa using hb b hb'
      rw [this]
      simp [he]
    rw [h1]
    simp [he]

theorem legacy_eq (tape : ℕ → ℝ) (deviation : ℝ) (n : ℕ) (v : Pt) :
    legacy tape deviation n v = (Disturbed tape deviation n v, n + needs deviation) := by
  obtain ⟨h1, h2⟩ := legacy_spec tape deviation n v
  unfold Disturbed needs
  by_cases h : 0 < deviation
  · rw [h1 h, if_pos h, if_pos h]
    unfold Pt.add Pt.smul
    simp only [mul_comm]
  · rw [h2 (not_lt.mp h), if_neg h, if_neg h, Nat.add_zero]

/-- C216 (in part: gravity): with the legacy configuration the message has the roll, pitch and yaw, the angular velocity and the acceleration of
the entity, each with its own noise; the covariances have the squares of the standard deviations on the diagonal and nothing else; the parameters
of the publisher play no role. -/
theorem C216_legacy_partial (s : ImuSensor) (c : ImuNoise) (rpy : Quat → Pt) (tape : ℕ → ℝ) (n : ℕ) (tape' : ℕ → ℝ) (first : Bool) (n' : ℕ)
    (e : Status) (he : e.name = s.entity) (ho : s.override = false) :
    ∃ m, s.update c rpy tape n tape' first n' [e] = some m ∧
      RollPitchYaw m.orientation (Disturbed tape s.orientationDev n (rpy e.orientation)) ∧
      m.angular = Disturbed tape s.twistDev (n + needs s.orientationDev) e.angular ∧
      (s.gravity = false → m.linear = Disturbed tape s.accelDev (n + needs s.orientationDev + needs s.twistDev) e.linear) ∧
      (s.gravity = true → m.linear = (Disturbed tape s.accelDev (n + needs s.orientationDev + needs s.twistDev) e.linear).add
        (rotate m.orientation ⟨0, 0, -9.81⟩)) ∧
      ∀ row col, row < 3 → col < 3 →
        m.orientationCov (3 * row + col) = (if row = col then s.orientationDev ^ 2 else 0) ∧
        m.angularCov (3 * row + col) = (if row = col then s.twistDev ^ 2 else 0) ∧
        m.linearCov (3 * row + col) = (if row = col then s.accelDev ^ 2 else 0) := by
  have cov : ∀ (d : ℝ) (row col : ℕ), row < 3 → col < 3 → covarianceOf d (3 * row + col) = (if row = col then d ^ 2 else 0) := by
    intro d row col hr hc
    unfold covarianceOf
    by_cases h : row = col
    · rw [if_pos h, if_pos (by omega)]
    · rw [if_neg h, if_neg (by omega)]
  refine ⟨(s.generate rpy tape n e).1, ?_, ?_, ?_, ?_, ?_, ?_⟩
  · unfold ImuSensor.update ImuSensor.randomizer
    rw [ho]
    simp only [List.find?_cons, he, beq_self_eq_true, Option.map_some, Bool.false_eq_true, not_false_eq_true, if_true, inactive]
  · intro v
    unfold ImuSensor.generate
    rw [ho]
    simp only [Bool.false_eq_true, not_false_eq_true, if_true, legacy_eq]
    rw [rotate_euler]
  · unfold ImuSensor.generate
    rw [ho]
    simp only [Bool.false_eq_true, not_false_eq_true, if_true, legacy_eq]
  · intro hg
    unfold ImuSensor.generate
    rw [ho, hg]
    simp only [Bool.false_eq_true, not_false_eq_true, if_true, if_false, legacy_eq]
  · intro hg
    unfold ImuSensor.generate
    rw [ho, hg]
    simp only [Bool.false_eq_true, not_false_eq_true, if_true, legacy_eq]
  · intro row col hr hc
    unfold ImuSensor.generate
    exact ⟨cov _ row col hr hc, cov _ row col hr hc, cov _ row col hr hc⟩

/-- C216 (in part: gravity): with the overriding configuration the standard deviations of the sensor add no noise; what is published is the roll, pitch and
yaw, the angular velocity and the acceleration of the entity, each part with its own error, and the diagonals of the covariances are the ones
configured. -/
theorem C216_override_partial (s : ImuSensor) (c : ImuNoise) (rpy : Quat → Pt) (tape : ℕ → ℝ) (n : ℕ) (tape' : ℕ → ℝ) (first : Bool) (n' : ℕ)
    (e : Status) (he : e.name = s.entity) (ho : s.override = true) (ha : c.active = true) (hg : s.gravity = false)
    (same : rpy (eulerToQuat (rpy e.orientation)) = rpy e.orientation) :
    ∃ m, s.update c rpy tape n tape' first n' [e] = some m ∧
      (∃ a : Pt, Shifted c.roll (Pair tape' first n' 0) (rpy e.orientation).x a.x ∧ Shifted c.pitch (Pair tape' first n' 1) (rpy e.orientation).y a.y ∧
        Shifted c.yaw (Pair tape' first n' 2) (rpy e.orientation).z a.z ∧ RollPitchYaw m.orientation a) ∧
      Shifted c.ax (Pair tape' first n' 3) e.angular.x m.angular.x ∧ Shifted c.ay (Pair tape' first n' 4) e.angular.y m.angular.y ∧
      Shifted c.az (Pair tape' first n' 5) e.angular.z m.angular.z ∧
      Shifted c.lx (Pair tape' first n' 6) e.linear.x m.linear.x ∧ Shifted c.ly (Pair tape' first n' 7) e.linear.y m.linear.y ∧
      Shifted c.lz (Pair tape' first n' 8) e.linear.z m.linear.z ∧
      m.orientationCov 0 = Added tape' first n' c.orientationCov.1 9 ∧ m.orientationCov 4 = Added tape' first n' c.orientationCov.2.1 10 ∧
      m.orientationCov 8 = Added tape' first n' c.orientationCov.2.2 11 ∧
      m.angularCov 0 = Added tape' first n' c.angularCov.1 12 ∧ m.angularCov 4 = Added tape' first n' c.angularCov.2.1 13 ∧
      m.angularCov 8 = Added tape' first n' c.angularCov.2.2 14 ∧
      m.linearCov 0 = Added tape' first n' c.linearCov.1 15 ∧ m.linearCov 4 = Added tape' first n' c.linearCov.2.1 16 ∧
      m.linearCov 8 = Added tape' first n' c.linearCov.2.2 17 ∧
      ∀ row col, row < 3 → col < 3 → row ≠ col →
        m.orientationCov (3 * row + col) = 0 ∧ m.angularCov (3 * row + col) = 0 ∧ m.linearCov (3 * row + col) = 0 := by
  have off : ∀ (d : ℝ) (v : Pt) (row col : ℕ), row < 3 → col < 3 → row ≠ col → setDiagonal (covarianceOf d) v (3 * row + col) = 0 := by
    intro d v row col hr hc hne
    unfold setDiagonal setAt covarianceOf
    rw [if_neg (by omega), if_neg (by omega), if_neg (by omega), if_neg (by omega)]
  have gen : (s.generate rpy tape n e).1 = ⟨eulerToQuat (rpy e.orientation), e.angular, e.linear, covarianceOf s.orientationDev,
      covarianceOf s.twistDev, covarianceOf s.accelDev⟩ := by
    unfold ImuSensor.generate
    rw [ho, hg]
    simp
  obtain ⟨a1, a2, a3, a4⟩ := apply3_shifted tape' first c.roll c.pitch c.yaw n' 0 (rpy e.orientation)
  obtain ⟨b1, b2, b3, b4⟩ := apply3_shifted tape' first c.ax c.ay c.az n' 3 e.angular
  obtain ⟨d1, d2, d3, d4⟩ := apply3_shifted tape' first c.lx c.ly c.lz n' 6 e.linear
  obtain ⟨f1, f2, f3, f4⟩ := apply3_shifted tape' first c.orientationCov.1 c.orientationCov.2.1 c.orientationCov.2.2 n' 9 ⟨0, 0, 0⟩
  obtain ⟨g1, g2, g3, g4⟩ := apply3_shifted tape' first c.angularCov.1 c.angularCov.2.1 c.angularCov.2.2 n' 12 ⟨0, 0, 0⟩
  obtain ⟨k1, k2, k3, k4⟩ := apply3_shifted tape' first c.linearCov.1 c.linearCov.2.1 c.linearCov.2.2 n' 15 ⟨0, 0, 0⟩
  simp only [Nat.mul_zero, Nat.add_zero, Nat.zero_add] at a1 a2 a3 a4
  refine ⟨(c.publish rpy tape' first n' (s.generate rpy tape n e).1).1, ?_, ?_⟩
  · unfold ImuSensor.update ImuSensor.randomizer
    rw [ho]
    simp [he]
  · rw [gen]
    unfold ImuNoise.publish
    simp only [ha, not_true_eq_false, if_false, same, a4, b4, d4, f4, g4]
    refine ⟨⟨_, a1, a2, a3, fun v => by rw [rotate_euler]⟩, b1, b2, b3, d1, d2, d3, ?_, ?_, ?_, ?_, ?_, ?_, ?_, ?_, ?_,
      fun row col hr hc hne => ⟨off _ _ row col hr hc hne, off _ _ row col hr hc hne, off _ _ row col hr hc hne⟩⟩
    · simpa [setDiagonal, setAt, Added] using shifted_zero f1
    · simpa [setDiagonal, setAt, Added] using shifted_zero f2
    · simpa [setDiagonal, setAt, Added] using shifted_zero f3
    · simpa [setDiagonal, setAt, Added] using shifted_zero g1
    · simpa [setDiagonal, setAt, Added] using shifted_zero g2
    · simpa [setDiagonal, setAt, Added] using shifted_zero g3
    · simpa [setDiagonal, setAt, Added] using shifted_zero k1
    · simpa [setDiagonal, setAt, Added] using shifted_zero k2
    · simpa [setDiagonal, setAt, Added] using shifted_zero k3

/-- A sensor of the Ego entity, without noise of its own. -/
noncomputable def sensor (gravity override : Bool) : ImuSensor := ⟨"ego", gravity, 0, 2, 0, override⟩

/-- The Ego entity, with the given orientation. -/
noncomputable def ego (q : Quat) : Status := ⟨"ego", q, ⟨0, 0, 1⟩, ⟨4, 0, 0⟩⟩

/-- `C216_legacy_partial` speaks about this: noise of standard deviation 2 on the angular velocity, nothing else. -/
example : ∃ (c : ImuNoise) (m : Imu), (sensor false false).update c (fun _ => ⟨0, 0, 0⟩) (fun k => (k : ℝ)) 5 (fun _ => 0) true 0
    [⟨"other", ⟨0, 0, 0, 1⟩, ⟨0, 0, 0⟩, ⟨0, 0, 0⟩⟩, ego ⟨0, 0, 0, 1⟩] = some m ∧ m.angular = ⟨10, 12, 15⟩ ∧ m.linear = ⟨4, 0, 0⟩ ∧ m.angularCov 4 = 4 := by
  let c : ImuNoise := ⟨true, none', none', none', none', none', none', none', none', none', (none', none', none'), (none', none', none'),
    (none', none', none')⟩
  obtain ⟨m, h1, -, h2, h3, -, h4⟩ := C216_legacy_partial (sensor false false) c (fun _ => ⟨0, 0, 0⟩) (fun k => (k : ℝ)) 5 (fun _ => 0) true 0
    (ego ⟨0, 0, 0, 1⟩) rfl rfl
  refine ⟨c, m, ?_, ?_, ?_, ?_⟩
  · exact ((C216_entity (sensor false false) c _ _ _ _ _ _ _).2 [⟨"other", ⟨0, 0, 0, 1⟩, ⟨0, 0, 0⟩, ⟨0, 0, 0⟩⟩] (ego ⟨0, 0, 0, 1⟩) [] rfl
      (by simp [sensor]) rfl).trans h1
  · rw [h2]
    simp [Disturbed, needs, sensor, ego, Pt.add, Pt.smul]
    norm_num
  · rw [h3 rfl]
    simp [Disturbed, sensor, ego]
  · have := (h4 1 1 (by omega) (by omega)).2.1
    simp only [Nat.mul_one, if_true] at this
    rw [this]
    simp [sensor]
    norm_num

/-- `C216_override_partial` speaks about this: the standard deviation of the sensor plays no role; the roll is moved by a constant. -/
example : ∃ (c : ImuNoise) (m : Imu), (sensor false true).update c (fun _ => ⟨0, 0, 0⟩) (fun k => (k : ℝ)) 5 (fun _ => 0) true 0
    [ego ⟨0, 0, 0, 1⟩] = some m ∧ m.angular = ⟨0, 0, 1⟩ ∧ RollPitchYaw m.orientation ⟨1, 0, 0⟩ ∧ m.angularCov 4 = 9 := by
  let c : ImuNoise := ⟨true, plus 1, none', none', none', none', none', none', none', none', (none', none', none'), (none', plus 9, none'),
    (none', none', none')⟩
  obtain ⟨m, h1, ⟨a, a1, a2, a3, a4⟩, h2, h3, h4, -, -, -, -, -, -, -, h5, -⟩ := C216_override_partial (sensor false true) c (fun _ => ⟨0, 0, 0⟩)
    (fun k => (k : ℝ)) 5 (fun _ => 0) true 0 (ego ⟨0, 0, 0, 1⟩) rfl rfl rfl rfl rfl
  refine ⟨c, m, h1, Pt.ext ?_ ?_ ?_, ?_, ?_⟩
  · exact shifted_silent silent_none h2
  · exact shifted_silent silent_none h3
  · exact shifted_silent silent_none h4
  · have : a = ⟨1, 0, 0⟩ := by
      refine Pt.ext ?_ (shifted_silent silent_none a2) (shifted_silent silent_none a3)
      have := shifted_constant (constant_plus 1) a1
      simpa using this
    rw [← this]
    exact a4
  · rw [h5]
    simp [c, Added, plus]

/-- C216 does not hold as stated: gravity, in the axes of the vehicle, is the vertical vector turned back by the orientation, and that turned
by the orientation is what is added. For a vehicle at rest whose front points straight down the acceleration has the wrong sign, -9.81 m/s² instead of +9.81 m/s² along its
first axis. -/
theorem C216_gravity_violated :
    ∃ (s : ImuSensor) (c : ImuNoise) (rpy : Quat → Pt) (e : Status), e.name = s.entity ∧ s.override = false ∧ s.gravity = true ∧
      RollPitchYaw e.orientation (rpy e.orientation) ∧ Geometry.Unit e.orientation ∧ s.accelDev = 0 ∧ s.orientationDev = 0 ∧ e.linear = ⟨0, 0, 0⟩ ∧
      rotate e.orientation ⟨1, 0, 0⟩ = ⟨0, 0, -1⟩ ∧ rotate e.orientation.conj ⟨0, 0, -9.81⟩ = ⟨9.81, 0, 0⟩ ∧
      ∀ (tape : ℕ → ℝ) (n : ℕ) (tape' : ℕ → ℝ) (first : Bool) (n' : ℕ) (m : Imu), s.update c rpy tape n tape' first n' [e] = some m →
        m.linear = ⟨-9.81, 0, 0⟩ := by
  have hs := Real.sin_pi_div_two
  have hc := Real.cos_pi_div_two
  have down : ∀ v, rotate (aboutY (Real.pi / 2)) v = ⟨v.z, v.y, -v.x⟩ := by
    intro v
    rw [rotate_aboutY]
    unfold turnY
    ext <;> simp
  have up : ∀ v, rotate (aboutY (Real.pi / 2)).conj v = ⟨-v.z, v.y, v.x⟩ := by
    intro v
    have : (aboutY (Real.pi / 2)).conj = aboutY (-(Real.pi / 2)) := by
      unfold aboutY Quat.conj
      rw [neg_div, Real.sin_neg, Real.cos_neg]
      simp
    rw [this, rotate_aboutY]
    unfold turnY
    ext <;> simp
  have turn : RollPitchYaw (aboutY (Real.pi / 2)) ⟨0, Real.pi / 2, 0⟩ := by
    intro v
    rw [down]
    unfold turnZ turnY turnX
    ext <;> simp
  let c : ImuNoise := ⟨true, none', none', none', none', none', none', none', none', none', (none', none', none'), (none', none', none'),
    (none', none', none')⟩
  refine ⟨⟨"ego", true, 0, 0, 0, false⟩, c, fun _ => ⟨0, Real.pi / 2, 0⟩, ⟨"ego", aboutY (Real.pi / 2), ⟨0, 0, 0⟩, ⟨0, 0, 0⟩⟩, rfl, rfl, rfl, turn,
    (unit_about _).2.1, rfl, rfl, rfl, ?_, ?_, ?_⟩
  · rw [down]
  · rw [up]; ext <;> simp
  · intro tape n tape' first n' m hm
    obtain ⟨m', h1, h2, -, -, h3, -⟩ := C216_legacy_partial ⟨"ego", true, 0, 0, 0, false⟩ c (fun _ => ⟨0, Real.pi / 2, 0⟩) tape n tape' first n'
      ⟨"ego", aboutY (Real.pi / 2), ⟨0, 0, 0⟩, ⟨0, 0, 0⟩⟩ rfl rfl
    rw [hm] at h1
    injection h1 with h1
    subst h1
    rw [h3 rfl, ← h2]
    unfold Disturbed turnZ turnY turnX Pt.add
    simp

/-- C216: what is reported of gravity depends on the heading: for a vehicle that is pitched, it moves with the yaw of the vehicle, which an
acceleration in the axes of the vehicle would not. -/
theorem C216_heading_violated (s : ImuSensor) (c : ImuNoise) (rpy : Quat → Pt) (tape : ℕ → ℝ) (n : ℕ) (tape' : ℕ → ℝ) (first : Bool) (n' : ℕ)
    (e : Status) (he : e.name = s.entity) (ho : s.override = false) (hg : s.gravity = true) (h1 : s.orientationDev = 0) (h2 : s.accelDev = 0)
    (pitch yaw : ℝ) (ha : rpy e.orientation = ⟨0, pitch, yaw⟩) :
    ∃ m, s.update c rpy tape n tape' first n' [e] = some m ∧
      m.linear = e.linear.add ⟨-9.81 * Real.cos yaw * Real.sin pitch, -9.81 * Real.sin yaw * Real.sin pitch, -9.81 * Real.cos pitch⟩ := by
  obtain ⟨m, m1, m2, -, -, m3, -⟩ := C216_legacy_partial s c rpy tape n tape' first n' e he ho
  refine ⟨m, m1, ?_⟩
  have d : ∀ k v, Disturbed tape 0 k v = v := fun k v => by unfold Disturbed; simp
  rw [h1, ha, d] at m2
  rw [m3 hg, h2, d, ← m2]
  congr 1
  unfold turnZ turnY turnX
  ext <;> simp <;> ring

/-- The theorem speaks about this: the same slope, pitched by 30 degrees, driven along two headings. -/
example : (-9.81 * Real.cos 0 * Real.sin (Real.pi / 6) : ℝ) ≠ -9.81 * Real.cos Real.pi * Real.sin (Real.pi / 6) := by
  rw [Real.sin_pi_div_six, Real.cos_zero, Real.cos_pi]
  norm_num

end Verif.Noise
