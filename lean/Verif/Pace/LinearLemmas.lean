import Verif.Pace.Lemmas
/- Lemmas about linear changes of speed. -/
namespace Verif.Pace
open Verif.Job

set_option linter.unusedSectionVars false
variable {K : Type} [Field K] [LinearOrder K]

theorem asking_ok {α : Type} {v : K} {e : Ent K} {f : Bool → Res α} (hp : e.planner = true) :
    asking v e f = f (Speed.isTargetSpeedReached v e.motion.speed) := by
  unfold asking
  rw [if_pos hp]

theorem plain_ok {v : K} {c : Bool} {s : S (Ent K) K} (hp : s.st.planner = true)
    (hacc : (Speed.isTargetSpeedReached v s.st.motion.speed && !c) = false) :
    plain v c s = .ok (append (plainBody v c) (plainCleanup c) .linearVelocity true .post { s with st := { s.st with target := some v } }) := by
  unfold plain
  rw [asking_ok hp, hacc]
  simp

/-- The two jobs of a request, appended to inactive jobs. -/
theorem two_jobs (done : K → Bool) (v : K) (c : Bool) (s : S (Ent K) K) (hi : Idle s) (hp : s.st.planner = true)
    (hacc : (Speed.isTargetSpeedReached v s.st.motion.speed && !c) = false) :
    ∃ s', plain v c (watch done s) = .ok s' ∧ s'.st = { s.st with target := some v } ∧ Shape done v c true true s' := by
  have e : watch done s = { s with jobs := s.jobs ++ [accJob done true 0] } := by
    unfold watch
    rw [append_free _ _ _ _ (fun j hj => .inr (hi j hj))]
    rfl
  rw [e, plain_ok (s := { s with jobs := s.jobs ++ [accJob done true 0] }) hp hacc, append_free]
  · refine ⟨_, rfl, rfl, s.jobs, 0, 0, hi, ?_⟩
    simp [velJob]
  · intro j hj
    simp only [List.mem_append, List.mem_cons, List.not_mem_nil, or_false] at hj
    rcases hj with hj | rfl
    · exact .inr (hi j hj)
    · exact .inl rfl

variable [IsStrictOrderedRing K]

theorem near_iff (v w : K) : Speed.isTargetSpeedReached v w = true ↔ Near v w := by
  unfold Speed.isTargetSpeedReached Near
  rw [decide_eq_true_iff, abs_le]

theorem near_false (v w : K) : Speed.isTargetSpeedReached v w = false ↔ ¬ Near v w := by
  rw [← near_iff]
  simp

theorem near_self (v : K) : Speed.isTargetSpeedReached v v = true := by
  rw [near_iff]
  unfold Near
  constructor
  · rw [sub_self, neg_nonpos]
    positivity
  · rw [sub_self]
    positivity

theorem auto_up (v a : K) (c : Bool) (s : S (Ent K) K) (hi : Idle s) (hp : s.st.planner = true)
    (hacc : (Speed.isTargetSpeedReached v s.st.motion.speed && !c) = false) (h : s.st.motion.speed ≤ v) :
    ∃ s', autoAcceleration v a c s = .ok s' ∧
      s'.st = { s.st with constraints := { s.st.constraints with maxAcceleration := |a| }, target := some v } ∧
      Shape (fun w => decide (v ≤ w)) v c true true s' := by
  unfold autoAcceleration
  rw [asking_ok hp, hacc]
  simp only [Bool.false_eq_true, if_false, if_pos h]
  unfold setAccelerationLimit
  rw [if_neg (not_lt.mpr (abs_nonneg a))]
  exact two_jobs (fun w => decide (v ≤ w)) v c (setConstraints { s.st.constraints with maxAcceleration := |a| } s) hi hp hacc

theorem auto_down (v a : K) (c : Bool) (s : S (Ent K) K) (hi : Idle s) (hp : s.st.planner = true)
    (hacc : (Speed.isTargetSpeedReached v s.st.motion.speed && !c) = false) (h : v < s.st.motion.speed) :
    ∃ s', autoAcceleration v a c s = .ok s' ∧
      s'.st = { s.st with constraints := { s.st.constraints with maxDeceleration := |a| }, target := some v } ∧
      Shape (fun w => decide (w ≤ v)) v c true true s' := by
  unfold autoAcceleration
  rw [asking_ok hp, hacc]
  simp only [Bool.false_eq_true, if_false, if_neg (not_le.mpr h)]
  unfold setDecelerationLimit
  rw [if_neg (not_lt.mpr (abs_nonneg a))]
  exact two_jobs (fun w => decide (w ≤ v)) v c (setConstraints { s.st.constraints with maxDeceleration := |a| } s) hi hp hacc

theorem linear_eq (v a : K) (c : Bool) (s : S (Ent K) K) (hp : s.st.planner = true)
    (hacc : (Speed.isTargetSpeedReached v s.st.motion.speed && !c) = false) :
    withAcceleration v .linear a c s = autoAcceleration v a c (setAcceleration a s) := by
  unfold withAcceleration
  rw [asking_ok hp, hacc]
  simp

/-! ### Motion -/

theorem step_up {dt : K} (hdt : 0 < dt) {c : Speed.Constraints K} (hc : Speed.Valid c) {v a : K} (hv : -c.maxSpeed ≤ v)
    (hv' : v ≤ c.maxSpeed) (ha : c.maxAcceleration = a) (s : Speed.State K) (hs : s.acceleration = a) (h : s.speed ≤ v)
    (h0 : -c.maxSpeed ≤ s.speed) :
    ∃ m, Speed.step dt c v s = some m ∧ m.speed = min v (s.speed + a * dt) ∧ (s.speed + a * dt ≤ v → m.acceleration = a) := by
  refine ⟨_, Speed.step_eq hdt hc v s, ?_⟩
  have hmin : min v c.maxSpeed = v := min_eq_left hv'
  have e := Speed.after_inside hdt hc (t := v) (s := s) hv' hv h0 (h.trans hv')
  have hw : Speed.wanted dt c v s = min a ((v - s.speed) / dt) := by
    unfold Speed.wanted
    rw [if_pos h, hs, ha]
    have h1 : (0 : K) ≤ (v - s.speed) / dt := div_nonneg (by linarith) hdt.le
    have h2 : 0 ≤ a := ha ▸ hc.acc
    have h3 : 0 ≤ dt * c.maxAccelerationRate := mul_nonneg hdt.le hc.accRate
    rw [min_eq_right ((min_le_left _ _).trans (by linarith)), max_eq_right (le_min h2 h1)]
  simp only [hmin, e, hw]
  rcases le_total (s.speed + a * dt) v with hle | hle
  · have h4 : a ≤ (v - s.speed) / dt := by rw [le_div_iff₀ hdt]; linarith
    rw [min_eq_left h4, min_eq_right hle]
    refine ⟨rfl, fun _ => ?_⟩
    field_simp
    ring
  · have h4 : (v - s.speed) / dt ≤ a := by rw [div_le_iff₀ hdt]; linarith
    rw [min_eq_right h4, min_eq_left hle, div_mul_cancel₀ _ hdt.ne']
    refine ⟨by ring, fun hle' => ?_⟩
    have : v = s.speed + a * dt := le_antisymm hle hle'
    rw [this]
    field_simp
    ring

theorem step_down {dt : K} (hdt : 0 < dt) {c : Speed.Constraints K} (hc : Speed.Valid c) {v a : K} (hv : -c.maxSpeed ≤ v)
    (hv' : v ≤ c.maxSpeed) (ha : c.maxDeceleration = -a) (s : Speed.State K) (hs : s.acceleration = a) (h : v < s.speed)
    (h0 : s.speed ≤ c.maxSpeed) :
    ∃ m, Speed.step dt c v s = some m ∧ m.speed = max v (s.speed + a * dt) ∧ (v ≤ s.speed + a * dt → m.acceleration = a) := by
  refine ⟨_, Speed.step_eq hdt hc v s, ?_⟩
  have hmin : min v c.maxSpeed = v := min_eq_left hv'
  have e := Speed.after_inside hdt hc (t := v) (s := s) hv' hv (hv.trans h.le) h0
  have hw : Speed.wanted dt c v s = max a ((v - s.speed) / dt) := by
    unfold Speed.wanted
    rw [if_neg (not_le.mpr h), hs, ha]
    have h1 : (v - s.speed) / dt ≤ 0 := div_nonpos_of_nonpos_of_nonneg (by linarith) hdt.le
    have h2 : 0 ≤ -a := ha ▸ hc.dec
    have h3 : 0 ≤ dt * c.maxDecelerationRate := mul_nonneg hdt.le hc.decRate
    have h4 : -a * -1 = a := by ring
    rw [h4, min_eq_left (by linarith), max_eq_left (le_max_of_le_left (by linarith))]
  simp only [hmin, e, hw]
  rcases le_total v (s.speed + a * dt) with hle | hle
  · have h4 : (v - s.speed) / dt ≤ a := by rw [div_le_iff₀ hdt]; linarith
    rw [max_eq_left h4, max_eq_right hle]
    refine ⟨rfl, fun _ => ?_⟩
    field_simp
    ring
  · have h4 : a ≤ (v - s.speed) / dt := by rw [le_div_iff₀ hdt]; linarith
    rw [max_eq_right h4, max_eq_left hle, div_mul_cancel₀ _ hdt.ne']
    refine ⟨by ring, fun hle' => ?_⟩
    have : v = s.speed + a * dt := le_antisymm hle' hle
    rw [this]
    field_simp
    ring

theorem step_hold {dt : K} (hdt : 0 < dt) {c : Speed.Constraints K} (hc : Speed.Valid c) {v : K} (hv : -c.maxSpeed ≤ v)
    (hv' : v ≤ c.maxSpeed) (s : Speed.State K) (h : s.speed = v) :
    ∃ m, Speed.step dt c v s = some m ∧ m.speed = v := by
  refine ⟨_, Speed.step_eq hdt hc v s, ?_⟩
  have hmin : min v c.maxSpeed = v := min_eq_left hv'
  obtain ⟨_, h1, h2⟩ := Speed.after_up hdt (c := c) (t := v) (s := s) h.le hv' hv
  simp only [hmin]
  exact le_antisymm h2 (h ▸ h1)

theorem frames_cons {dt : K} {w : World K} {ws : List (World K)} {s s' : S (Ent K) K} (h : frame dt w s = .ok s') :
    frames dt (w :: ws) s = frames dt ws s' := by
  show (frame dt w s).bind _ = _
  rw [h]
  rfl

/-- The speed has been reached and is kept. -/
theorem hold_frames {dt : K} (hdt : 0 < dt) (done : K → Bool) {v : K} (std : Speed.Constraints K) (hstd : Speed.Valid std)
    (hv : -std.maxSpeed ≤ v) (hv' : v ≤ std.maxSpeed) :
    ∀ (ws : List (World K)) (s : S (Ent K) K), s.st.motion.speed = v → s.st.constraints = std → s.st.standard = std →
      s.st.target = some v → s.st.planner = true → Shape done v true false true s →
      ∃ s', frames dt ws s = .ok s' ∧ s'.st.motion.speed = v ∧ s'.st.constraints = std ∧ s'.st.standard = std ∧ s'.st.target = some v ∧
        s'.st.planner = true
  | [], s, h1, h2, h3, h4, hp, _ => ⟨s, rfl, h1, h2, h3, h4, hp⟩
  | w :: ws, s, h1, h2, h3, h4, _, h5 => by
    obtain ⟨m, hm, hms⟩ := step_hold hdt hstd hv hv' s.st.motion h1
    obtain ⟨s1, hf, hst, hsh⟩ := frame_shape dt w done v true false true s h5 m (by rw [h2, h4]; exact hm)
    rw [frames_cons hf]
    obtain ⟨e1, e2, e5⟩ := afterJobs_motion done v true false true { s.st with others := w.others, motion := m, planner := true }
    have e3 := afterJobs_constraints done v true false true { s.st with others := w.others, motion := m, planner := true }
    have e4 := afterJobs_target done v true false { s.st with others := w.others, motion := m, planner := true }
    rw [← hst] at e1 e2 e3 e4 e5
    refine hold_frames hdt done std hstd hv hv' ws s1 (by rw [e1]; exact hms) ?_ (e2.trans h3) (by simpa using e4) e5 ?_
    · rw [e3]
      simpa using h2
    · simpa using hsh

/-- The results of `n` frames with a constant acceleration up to a speed. -/
structure Up (cur v a dt : K) (cont : Bool) (c std : Speed.Constraints K) (n : ℕ) (s : S (Ent K) K) : Prop where
  speed : s.st.motion.speed = min v (cur + a * dt * n)
  kept : s.st.standard = std
  planner : s.st.planner = true
  before : cur + a * dt * n < v → s.st.constraints = c
  after : v ≤ cur + a * dt * n → s.st.constraints = std ∧ s.st.target = (if cont then some v else none) ∧ (cont = false → Idle s)

/-- The results of `n` frames with a constant acceleration down to a speed. -/
structure Down (cur v a dt : K) (cont : Bool) (c std : Speed.Constraints K) (n : ℕ) (s : S (Ent K) K) : Prop where
  speed : s.st.motion.speed = max v (cur + a * dt * n)
  kept : s.st.standard = std
  planner : s.st.planner = true
  before : v < cur + a * dt * n → s.st.constraints = c
  after : cur + a * dt * n ≤ v → s.st.constraints = std ∧ s.st.target = (if cont then some v else none) ∧ (cont = false → Idle s)

theorem shape_idle {done : K → Bool} {v : K} {c : Bool} {s : S (Ent K) K} (h : Shape done v c false false s) : Idle s := by
  obtain ⟨pre, d1, d2, hpre, hj⟩ := h
  intro j hjm
  rw [hj] at hjm
  simp only [List.mem_append, List.mem_cons, List.not_mem_nil, or_false] at hjm
  rcases hjm with h | rfl | rfl
  · exact hpre j h
  · rfl
  · rfl

theorem up_frames {dt : K} (hdt : 0 < dt) {cur v a : K} (ha : 0 < a) (cont : Bool) (c std : Speed.Constraints K) (hc : Speed.Valid c)
    (hca : c.maxAcceleration = a) (hstd : Speed.Valid std) (hv : -c.maxSpeed ≤ v) (hv' : v ≤ c.maxSpeed) (hw : -std.maxSpeed ≤ v)
    (hw' : v ≤ std.maxSpeed) (hcur : -c.maxSpeed ≤ cur) :
    ∀ (ws : List (World K)) (k : ℕ) (s : S (Ent K) K), s.st.motion.speed = cur + a * dt * k → cur + a * dt * k < v →
      s.st.motion.acceleration = a → s.st.constraints = c → s.st.standard = std → s.st.target = some v → s.st.planner = true →
      Shape (fun w => decide (v ≤ w)) v cont true true s →
      (cont = true ∨ ∀ j, k < j → j < k + ws.length → ¬ Near v (min v (cur + a * dt * j))) →
      ∃ s', frames dt ws s = .ok s' ∧ Up cur v a dt cont c std (k + ws.length) s'
  | [], k, s, h1, h2, _, h4, h5, _, h7, _, _ =>
    ⟨s, rfl, ⟨by rw [h1, List.length_nil, Nat.add_zero, min_eq_right h2.le], h5, h7, fun _ => h4, fun h => absurd h (not_le.mpr h2)⟩⟩
  | w :: ws, k, s, h1, h2, h3, h4, h5, h6, h7, h8, h9 => by
    have hpos : 0 ≤ a * dt * k := mul_nonneg (mul_nonneg ha.le hdt.le) (Nat.cast_nonneg k)
    have e0 : cur + a * dt * k + a * dt = cur + a * dt * (k + 1 : ℕ) := by push_cast; ring
    obtain ⟨m, hm, hms, hma⟩ := step_up hdt hc hv hv' hca s.st.motion h3 (by rw [h1]; exact h2.le) (by rw [h1]; linarith)
    rw [h1, e0] at hms hma
    obtain ⟨s1, hf, hst, hsh⟩ := frame_shape dt w _ v cont true true s h8 m (by rw [h4, h6]; exact hm)
    rw [frames_cons hf]
    obtain ⟨e1, e2, e5⟩ := afterJobs_motion (fun w => decide (v ≤ w)) v cont true true { s.st with others := w.others, motion := m, planner := true }
    have e3 := afterJobs_constraints (fun w => decide (v ≤ w)) v cont true true { s.st with others := w.others, motion := m, planner := true }
    have e4 := afterJobs_target (fun w => decide (v ≤ w)) v cont true { s.st with others := w.others, motion := m, planner := true }
    rw [← hst] at e1 e2 e3 e4 e5
    dsimp only at e1 e2 e3 e4 e5
    have hlen : k + (w :: ws).length = k + 1 + ws.length := by rw [List.length_cons]; omega
    rcases lt_or_ge (cur + a * dt * (k + 1 : ℕ)) v with hlt | hge
    · rw [min_eq_right hlt.le] at hms
      have hd : decide (v ≤ m.speed) = false := by rw [hms]; simpa using hlt
      rw [hd] at e3 hsh
      simp only [Bool.and_false, Bool.false_eq_true, if_false, Bool.not_false, Bool.and_true, Bool.true_and] at e3 hsh
      by_cases hgo : cont = true ∨ Speed.isTargetSpeedReached v m.speed = false
      · have hg : (!cont && Speed.isTargetSpeedReached v m.speed) = false := by rcases hgo with h | h <;> simp [h]
        have hg' : (cont || !Speed.isTargetSpeedReached v m.speed) = true := by rcases hgo with h | h <;> simp [h]
        rw [hg] at e4
        rw [hg'] at hsh
        obtain ⟨s', hs', hup⟩ := up_frames hdt ha cont c std hc hca hstd hv hv' hw hw' hcur ws (k + 1) s1 (by rw [e1, hms]) hlt
          (by rw [e1]; exact hma hlt.le) (e3.trans h4) (e2.trans h5) (by simpa using e4) e5 hsh
          (by
            rcases h9 with h9 | h9
            · exact .inl h9
            · exact .inr (fun j hj1 hj2 => h9 j (by omega) (by rw [hlen]; omega)))
        exact ⟨s', hs', hlen ▸ hup⟩
      · push Not at hgo
        obtain ⟨hc1, hc2⟩ := hgo
        have hc2' : Speed.isTargetSpeedReached v m.speed = true := by simpa using hc2
        have hc1' : cont = false := by simpa using hc1
        cases ws with
        | nil =>
          refine ⟨s1, rfl, ⟨?_, e2.trans h5, e5, fun _ => e3.trans h4, fun h => absurd h (not_le.mpr hlt)⟩⟩
          show s1.st.motion.speed = min v (cur + a * dt * (k + 1 : ℕ))
          rw [e1, hms, min_eq_right hlt.le]
        | cons w' ws =>
          rcases h9 with h9 | h9
          · exact absurd h9 hc1
          · refine absurd ((near_iff _ _).mp hc2') ?_
            have := h9 (k + 1) (by omega) (by simp only [List.length_cons]; omega)
            rwa [min_eq_right hlt.le, ← hms] at this
    · rw [min_eq_left hge] at hms
      have hd : decide (v ≤ m.speed) = true := by rw [hms]; simp
      rw [hd] at e3 hsh
      simp only [Bool.and_self, if_true, Bool.not_true, Bool.and_false, Bool.true_and] at e3 hsh
      have hmono : ∀ n : ℕ, v ≤ cur + a * dt * (k + 1 + n : ℕ) := by
        intro n
        have : 0 ≤ a * dt * n := mul_nonneg (mul_nonneg ha.le hdt.le) (Nat.cast_nonneg n)
        have e : cur + a * dt * (k + 1 + n : ℕ) = cur + a * dt * (k + 1 : ℕ) + a * dt * n := by push_cast; ring
        rw [e]
        linarith
      cases cont with
      | true =>
        simp only [Bool.not_true, Bool.false_and, Bool.false_eq_true, if_false, Bool.true_or] at e4 hsh
        obtain ⟨s', hs', g1, g2, g3, g4, g5⟩ := hold_frames hdt _ std hstd hw hw' ws s1 (by rw [e1, hms]) (e3.trans h5) (e2.trans h5) e4 e5 hsh
        refine ⟨s', hs', ⟨?_, g3, g5, fun h => ?_, fun _ => ⟨g2, by simpa using g4, nofun⟩⟩⟩
        · rw [hlen, min_eq_left (hmono _), g1]
        · rw [hlen] at h
          exact absurd h (not_lt.mpr (hmono _))
      | false =>
        rw [hms, near_self] at e4 hsh
        simp only [Bool.not_false, Bool.and_self, if_true, Bool.not_true, Bool.or_self] at e4 hsh
        cases ws with
        | nil =>
          refine ⟨s1, rfl, ⟨?_, e2.trans h5, e5, fun h => absurd h (not_lt.mpr (hmono 0)), fun _ => ⟨e3.trans h5, by simpa using e4, fun _ => shape_idle hsh⟩⟩⟩
          show s1.st.motion.speed = min v (cur + a * dt * (k + 1 : ℕ))
          rw [e1, hms, min_eq_left (hmono 0)]
        | cons w' ws =>
          rcases h9 with h9 | h9
          · exact absurd h9 (by simp)
          · refine absurd ((near_iff _ _).mp (near_self v)) ?_
            have := h9 (k + 1) (by omega) (by simp only [List.length_cons]; omega)
            rwa [min_eq_left (hmono 0)] at this

theorem down_frames {dt : K} (hdt : 0 < dt) {cur v a : K} (ha : a < 0) (cont : Bool) (c std : Speed.Constraints K) (hc : Speed.Valid c)
    (hca : c.maxDeceleration = -a) (hstd : Speed.Valid std) (hv : -c.maxSpeed ≤ v) (hv' : v ≤ c.maxSpeed) (hw : -std.maxSpeed ≤ v)
    (hw' : v ≤ std.maxSpeed) (hcur : cur ≤ c.maxSpeed) :
    ∀ (ws : List (World K)) (k : ℕ) (s : S (Ent K) K), s.st.motion.speed = cur + a * dt * k → v < cur + a * dt * k →
      s.st.motion.acceleration = a → s.st.constraints = c → s.st.standard = std → s.st.target = some v → s.st.planner = true →
      Shape (fun w => decide (w ≤ v)) v cont true true s →
      (cont = true ∨ ∀ j, k < j → j < k + ws.length → ¬ Near v (max v (cur + a * dt * j))) →
      ∃ s', frames dt ws s = .ok s' ∧ Down cur v a dt cont c std (k + ws.length) s'
  | [], k, s, h1, h2, _, h4, h5, _, h7, _, _ =>
    ⟨s, rfl, ⟨by rw [h1, List.length_nil, Nat.add_zero, max_eq_right h2.le], h5, h7, fun _ => h4, fun h => absurd h (not_le.mpr h2)⟩⟩
  | w :: ws, k, s, h1, h2, h3, h4, h5, h6, h7, h8, h9 => by
    have hneg : a * dt * k ≤ 0 := mul_nonpos_of_nonpos_of_nonneg (mul_nonpos_of_nonpos_of_nonneg ha.le hdt.le) (Nat.cast_nonneg k)
    have e0 : cur + a * dt * k + a * dt = cur + a * dt * (k + 1 : ℕ) := by push_cast; ring
    obtain ⟨m, hm, hms, hma⟩ := step_down hdt hc hv hv' hca s.st.motion h3 (by rw [h1]; exact h2) (by rw [h1]; linarith)
    rw [h1, e0] at hms hma
    obtain ⟨s1, hf, hst, hsh⟩ := frame_shape dt w _ v cont true true s h8 m (by rw [h4, h6]; exact hm)
    rw [frames_cons hf]
    obtain ⟨e1, e2, e5⟩ := afterJobs_motion (fun w => decide (w ≤ v)) v cont true true { s.st with others := w.others, motion := m, planner := true }
    have e3 := afterJobs_constraints (fun w => decide (w ≤ v)) v cont true true { s.st with others := w.others, motion := m, planner := true }
    have e4 := afterJobs_target (fun w => decide (w ≤ v)) v cont true { s.st with others := w.others, motion := m, planner := true }
    rw [← hst] at e1 e2 e3 e4 e5
    dsimp only at e1 e2 e3 e4 e5
    have hlen : k + (w :: ws).length = k + 1 + ws.length := by rw [List.length_cons]; omega
    rcases lt_or_ge v (cur + a * dt * (k + 1 : ℕ)) with hlt | hge
    · rw [max_eq_right hlt.le] at hms
      have hd : decide (m.speed ≤ v) = false := by rw [hms]; simpa using hlt
      rw [hd] at e3 hsh
      simp only [Bool.and_false, Bool.false_eq_true, if_false, Bool.not_false, Bool.and_true, Bool.true_and] at e3 hsh
      by_cases hgo : cont = true ∨ Speed.isTargetSpeedReached v m.speed = false
      · have hg : (!cont && Speed.isTargetSpeedReached v m.speed) = false := by rcases hgo with h | h <;> simp [h]
        have hg' : (cont || !Speed.isTargetSpeedReached v m.speed) = true := by rcases hgo with h | h <;> simp [h]
        rw [hg] at e4
        rw [hg'] at hsh
        obtain ⟨s', hs', hdown⟩ := down_frames hdt ha cont c std hc hca hstd hv hv' hw hw' hcur ws (k + 1) s1 (by rw [e1, hms]) hlt
          (by rw [e1]; exact hma hlt.le) (e3.trans h4) (e2.trans h5) (by simpa using e4) e5 hsh
          (by
            rcases h9 with h9 | h9
            · exact .inl h9
            · exact .inr (fun j hj1 hj2 => h9 j (by omega) (by rw [hlen]; omega)))
        exact ⟨s', hs', hlen ▸ hdown⟩
      · push Not at hgo
        obtain ⟨hc1, hc2⟩ := hgo
        have hc2' : Speed.isTargetSpeedReached v m.speed = true := by simpa using hc2
        have hc1' : cont = false := by simpa using hc1
        cases ws with
        | nil =>
          refine ⟨s1, rfl, ⟨?_, e2.trans h5, e5, fun _ => e3.trans h4, fun h => absurd h (not_le.mpr hlt)⟩⟩
          show s1.st.motion.speed = max v (cur + a * dt * (k + 1 : ℕ))
          rw [e1, hms, max_eq_right hlt.le]
        | cons w' ws =>
          rcases h9 with h9 | h9
          · exact absurd h9 hc1
          · refine absurd ((near_iff _ _).mp hc2') ?_
            have := h9 (k + 1) (by omega) (by simp only [List.length_cons]; omega)
            rwa [max_eq_right hlt.le, ← hms] at this
    · rw [max_eq_left hge] at hms
      have hd : decide (m.speed ≤ v) = true := by rw [hms]; simp
      rw [hd] at e3 hsh
      simp only [Bool.and_self, if_true, Bool.not_true, Bool.and_false, Bool.true_and] at e3 hsh
      have hmono : ∀ n : ℕ, cur + a * dt * (k + 1 + n : ℕ) ≤ v := by
        intro n
        have : a * dt * n ≤ 0 := mul_nonpos_of_nonpos_of_nonneg (mul_nonpos_of_nonpos_of_nonneg ha.le hdt.le) (Nat.cast_nonneg n)
        have e : cur + a * dt * (k + 1 + n : ℕ) = cur + a * dt * (k + 1 : ℕ) + a * dt * n := by push_cast; ring
        rw [e]
        linarith
      cases cont with
      | true =>
        simp only [Bool.not_true, Bool.false_and, Bool.false_eq_true, if_false, Bool.true_or] at e4 hsh
        obtain ⟨s', hs', g1, g2, g3, g4, g5⟩ := hold_frames hdt _ std hstd hw hw' ws s1 (by rw [e1, hms]) (e3.trans h5) (e2.trans h5) e4 e5 hsh
        refine ⟨s', hs', ⟨?_, g3, g5, fun h => ?_, fun _ => ⟨g2, by simpa using g4, nofun⟩⟩⟩
        · rw [hlen, max_eq_left (hmono _), g1]
        · rw [hlen] at h
          exact absurd h (not_lt.mpr (hmono _))
      | false =>
        rw [hms, near_self] at e4 hsh
        simp only [Bool.not_false, Bool.and_self, if_true, Bool.not_true, Bool.or_self] at e4 hsh
        cases ws with
        | nil =>
          refine ⟨s1, rfl, ⟨?_, e2.trans h5, e5, fun h => absurd h (not_lt.mpr (hmono 0)), fun _ => ⟨e3.trans h5, by simpa using e4, fun _ => shape_idle hsh⟩⟩⟩
          show s1.st.motion.speed = max v (cur + a * dt * (k + 1 : ℕ))
          rw [e1, hms, max_eq_left (hmono 0)]
        | cons w' ws =>
          rcases h9 with h9 | h9
          · exact absurd h9 (by simp)
          · refine absurd ((near_iff _ _).mp (near_self v)) ?_
            have := h9 (k + 1) (by omega) (by simp only [List.length_cons]; omega)
            rwa [max_eq_left (hmono 0)] at this

end Verif.Pace
