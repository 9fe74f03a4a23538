import Verif.Follow.Controller
import Verif.Follow.Spec
import Mathlib.Tactic.Linarith
import Mathlib.Tactic.Ring
import Mathlib.Tactic.FieldSimp
import Mathlib.Tactic.NormNum
import Mathlib.Tactic.Positivity
import Mathlib.Algebra.BigOperators.Intervals
/-
C109-C111: the limits of the controller.
-/
namespace Verif.Follow
open Classical Spec

/-! ### The number of steps -/

/-- The number of steps as a natural number, with its bounds: `q = j * dt ^ 2`. -/
theorem steps_spec (dt d j : ℝ) (hdt : 0 < dt) (hj : 0 < j) :
    ∃ n : ℕ, steps dt d j = n ∧ 1 ≤ n ∧ (n = 1 ∨ (2 * (n : ℝ) - 1) ^ 2 * (j * dt ^ 2) ≤ 8 * |d|) ∧ 8 * |d| < (2 * (n : ℝ) + 1) ^ 2 * (j * dt ^ 2) := by
  set x := Real.sqrt (2 * |d| / j) / dt with hx
  have hx0 : 0 ≤ x := by rw [hx]; positivity
  have hsq : x ^ 2 * (j * dt ^ 2) = 2 * |d| := by
    rw [hx, div_pow, Real.sq_sqrt (by positivity)]
    field_simp
  have hf0 : 0 ≤ ⌊x + 1 / 2⌋ := Int.floor_nonneg.2 (by linarith)
  have hle := Int.floor_le (x + 1 / 2)
  have hlt := Int.lt_floor_add_one (x + 1 / 2)
  have hq : 0 < j * dt ^ 2 := by positivity
  obtain ⟨k, hk⟩ := Int.eq_ofNat_of_zero_le hf0
  have hkr : ((⌊x + 1 / 2⌋ : ℤ) : ℝ) = k := by rw [hk]; simp
  rw [hkr] at hle hlt
  have hsteps : steps dt d j = max 1 (k : ℝ) := by rw [steps, ← hx, hkr]
  have upper : ∀ y : ℝ, x < y + 1 / 2 → 8 * |d| < (2 * y + 1) ^ 2 * (j * dt ^ 2) := by
    intro y hy
    have : x ^ 2 < (y + 1 / 2) ^ 2 := by nlinarith
    nlinarith
  rcases Nat.lt_or_ge k 1 with h | h
  · have : k = 0 := by omega
    subst this
    refine ⟨1, by rw [hsteps]; simp, le_refl _, Or.inl rfl, ?_⟩
    apply upper
    push_cast at hlt ⊢
    linarith
  · have h1 : (1 : ℝ) ≤ k := by exact_mod_cast h
    refine ⟨k, by rw [hsteps, max_eq_right h1], h, ?_, upper _ (by linarith)⟩
    right
    have : ((k : ℝ) - 1 / 2) ^ 2 ≤ x ^ 2 := by nlinarith
    nlinarith

/-- `jerkAcc` in steps, for an increase. -/
theorem jerkAcc_up (dt v t r : ℝ) (hdt : 0 < dt) (hr : r ≠ 0) (h : v ≤ t) :
    ∃ n : ℕ, 1 ≤ n ∧ (n = 1 ∨ (2 * (n : ℝ) - 1) ^ 2 * (|r| * dt ^ 2) ≤ 8 * (t - v)) ∧ 8 * (t - v) < (2 * (n : ℝ) + 1) ^ 2 * (|r| * dt ^ 2) ∧
      jerkAcc dt v t r = (t - v) / (n * dt) + |r| * dt * (n - 1) / 2 := by
  obtain ⟨n, hn, h1, h2, h3⟩ := steps_spec dt (t - v) |r| hdt (abs_pos.2 hr)
  rw [abs_of_nonneg (by linarith : 0 ≤ t - v)] at h2 h3
  refine ⟨n, h1, h2, h3, ?_⟩
  simp only [jerkAcc, hn]
  rw [if_pos (by linarith : t - v ≥ 0), one_mul]

/-- `jerkAcc` in steps, for a decrease. -/
theorem jerkAcc_down (dt v t r : ℝ) (hdt : 0 < dt) (hr : r ≠ 0) (h : t < v) :
    ∃ n : ℕ, 1 ≤ n ∧ (n = 1 ∨ (2 * (n : ℝ) - 1) ^ 2 * (|r| * dt ^ 2) ≤ 8 * (v - t)) ∧ 8 * (v - t) < (2 * (n : ℝ) + 1) ^ 2 * (|r| * dt ^ 2) ∧
      jerkAcc dt v t r = -((v - t) / (n * dt) + |r| * dt * (n - 1) / 2) := by
  obtain ⟨n, hn, h1, h2, h3⟩ := steps_spec dt (t - v) |r| hdt (abs_pos.2 hr)
  rw [abs_of_neg (by linarith : t - v < 0), neg_sub] at h2 h3
  refine ⟨n, h1, h2, h3, ?_⟩
  simp only [jerkAcc, hn]
  rw [if_neg (by linarith : ¬ t - v ≥ 0)]
  have h0 : (n : ℝ) ≠ 0 := by
    have : (1 : ℝ) ≤ n := by exact_mod_cast h1
    linarith
  field_simp
  ring

theorem speedAfter_eq (dt v a jerk : ℝ) (k : ℕ) : speedAfter dt v a jerk k = v + k * a * dt - jerk * dt ^ 2 * (k * (k - 1)) / 2 := by
  induction k with
  | zero => simp [speedAfter]
  | succ k ih =>
    rw [speedAfter, Finset.sum_range_succ, ← add_assoc]
    change speedAfter dt v a jerk k + _ = _
    rw [ih]
    push_cast
    ring

theorem speedAfter_succ (dt v a jerk : ℝ) (k : ℕ) : speedAfter dt v a jerk (k + 1) = speedAfter dt v a jerk k + (a - jerk * dt * k) * dt := by
  rw [speedAfter, Finset.sum_range_succ, ← add_assoc]
  rfl

/-! ### C109: the acceleration towards a speed -/

/-- C109. Following the acceleration for a speed `t`, and reducing it by the rate in every further step, gives the speed `t` exactly after some steps,
without ever moving away from `t` and without passing it; what is left of the acceleration then is at most 9/8 of one step of the rate. -/
theorem C109_partial (dt v t r : ℝ) (hdt : 0 < dt) (hr : r ≠ 0) :
    ∃ n : ℕ, 1 ≤ n ∧
      (v ≤ t →
        speedAfter dt v (jerkAcc dt v t r) |r| n = t ∧
        (∀ k < n, speedAfter dt v (jerkAcc dt v t r) |r| k ≤ speedAfter dt v (jerkAcc dt v t r) |r| (k + 1)) ∧
        0 ≤ jerkAcc dt v t r - |r| * dt * (n - 1) ∧ jerkAcc dt v t r - |r| * dt * (n - 1) ≤ |r| * dt * (9 / 8)) ∧
      (t < v →
        speedAfter dt v (jerkAcc dt v t r) (-|r|) n = t ∧
        (∀ k < n, speedAfter dt v (jerkAcc dt v t r) (-|r|) (k + 1) ≤ speedAfter dt v (jerkAcc dt v t r) (-|r|) k) ∧
        jerkAcc dt v t r + |r| * dt * (n - 1) ≤ 0 ∧ -(|r| * dt * (9 / 8)) ≤ jerkAcc dt v t r + |r| * dt * (n - 1)) := by
  have hj : 0 < |r| := abs_pos.2 hr
  have key : ∀ (d : ℝ) (n : ℕ), 0 ≤ d → 1 ≤ n → (n = 1 ∨ (2 * (n : ℝ) - 1) ^ 2 * (|r| * dt ^ 2) ≤ 8 * d) → 8 * d < (2 * (n : ℝ) + 1) ^ 2 * (|r| * dt ^ 2) →
      0 ≤ d / (n * dt) + |r| * dt * (n - 1) / 2 - |r| * dt * (n - 1) ∧
      d / (n * dt) + |r| * dt * (n - 1) / 2 - |r| * dt * (n - 1) ≤ |r| * dt * (9 / 8) := by
    intro d n hd h1 h2 h3
    have hn : (1 : ℝ) ≤ n := by exact_mod_cast h1
    have hnd : 0 < (n : ℝ) * dt := by positivity
    have hq : 0 < |r| * dt ^ 2 := by positivity
    constructor
    · have : |r| * dt * (n - 1) / 2 ≤ d / (n * dt) := by
        rw [le_div_iff₀ hnd]
        rcases h2 with h2 | h2
        · subst h2; norm_num; exact hd
        · nlinarith
      linarith
    · have : d / (n * dt) ≤ |r| * dt * (9 / 8) + |r| * dt * (n - 1) / 2 := by
        rw [div_le_iff₀ hnd]
        nlinarith
      linarith
  rcases le_or_gt v t with h | h
  · obtain ⟨n, h1, h2, h3, h4⟩ := jerkAcc_up dt v t r hdt hr h
    have hn : (1 : ℝ) ≤ n := by exact_mod_cast h1
    obtain ⟨k1, k2⟩ := key (t - v) n (by linarith) h1 h2 h3
    rw [← h4] at k1 k2
    refine ⟨n, h1, fun _ => ⟨?_, ?_, k1, k2⟩, fun h' => absurd h' (by linarith)⟩
    · rw [speedAfter_eq, h4]
      field_simp
      ring
    · intro k hk
      rw [speedAfter_succ]
      have hk' : (k : ℝ) ≤ n - 1 := by
        have : (k : ℝ) + 1 ≤ n := by exact_mod_cast hk
        linarith
      have : |r| * dt * k ≤ |r| * dt * (n - 1) := by gcongr
      have := mul_nonneg (by linarith : 0 ≤ jerkAcc dt v t r - |r| * dt * k) hdt.le
      linarith
  · obtain ⟨n, h1, h2, h3, h4⟩ := jerkAcc_down dt v t r hdt hr h
    have hn : (1 : ℝ) ≤ n := by exact_mod_cast h1
    obtain ⟨k1, k2⟩ := key (v - t) n (by linarith) h1 h2 h3
    refine ⟨n, h1, fun h' => absurd h' (by linarith), fun _ => ⟨?_, ?_, by rw [h4]; linarith, by rw [h4]; linarith⟩⟩
    · rw [speedAfter_eq, h4]
      field_simp
      ring
    · intro k hk
      rw [speedAfter_succ]
      have hk' : (k : ℝ) ≤ n - 1 := by
        have : (k : ℝ) + 1 ≤ n := by exact_mod_cast hk
        linarith
      have : |r| * dt * k ≤ |r| * dt * (n - 1) := by gcongr
      have h5 : jerkAcc dt v t r + |r| * dt * k ≤ 0 := by rw [h4]; linarith
      have := mul_nonneg (by linarith : 0 ≤ -(jerkAcc dt v t r + |r| * dt * k)) hdt.le
      linarith

/-- The acceleration for a change of speed of at most one step of the rate, `q = j * dt ^ 2`. -/
theorem jerkAcc_small (dt v t r : ℝ) (hdt : 0 < dt) (hr : r ≠ 0) (h : v ≤ t) (hs : 8 * (t - v) < 9 * (|r| * dt ^ 2)) : jerkAcc dt v t r = (t - v) / dt := by
  obtain ⟨n, h1, h2, h3, h4⟩ := jerkAcc_up dt v t r hdt hr h
  have hj : 0 < |r| := abs_pos.2 hr
  have hq : 0 < |r| * dt ^ 2 := by positivity
  have : n = 1 := by
    rcases h2 with h2 | h2
    · exact h2
    · by_contra hne
      have : (2 : ℝ) ≤ n := by exact_mod_cast (by omega : 2 ≤ n)
      nlinarith [mul_nonneg (by linarith : 0 ≤ (n : ℝ) - 2) (by linarith : 0 ≤ (n : ℝ) + 1)]
  subst this
  rw [h4]; simp

theorem jerkAcc_small_down (dt v t r : ℝ) (hdt : 0 < dt) (hr : r ≠ 0) (h : t < v) (hs : 8 * (v - t) < 9 * (|r| * dt ^ 2)) : jerkAcc dt v t r = -((v - t) / dt) := by
  obtain ⟨n, h1, h2, h3, h4⟩ := jerkAcc_down dt v t r hdt hr h
  have hj : 0 < |r| := abs_pos.2 hr
  have hq : 0 < |r| * dt ^ 2 := by positivity
  have : n = 1 := by
    rcases h2 with h2 | h2
    · exact h2
    · by_contra hne
      have : (2 : ℝ) ≤ n := by exact_mod_cast (by omega : 2 ≤ n)
      nlinarith [mul_nonneg (by linarith : 0 ≤ (n : ℝ) - 2) (by linarith : 0 ≤ (n : ℝ) + 1)]
  subst this
  rw [h4]; simp

/-- C109 is violated as documented ("while respecting a maximum jerk constraint"): with rate 1 and step 1, a speed lower by 1.1 than the wanted speed is left
with the acceleration 1.1, at the wanted speed, which the rate does not allow to be zero in the next step. -/
theorem C109_violated : jerkAcc 1 0 (11 / 10) 1 = 11 / 10 ∧ speedAfter 1 0 (jerkAcc 1 0 (11 / 10) 1) 1 1 = 11 / 10 ∧ (1 : ℝ) * 1 < jerkAcc 1 0 (11 / 10) 1 := by
  have h : jerkAcc 1 0 (11 / 10) 1 = 11 / 10 := by
    rw [jerkAcc_small 1 0 (11 / 10) 1 (by norm_num) (by norm_num) (by norm_num) (by norm_num)]
    norm_num
  rw [h]
  refine ⟨rfl, ?_, by norm_num⟩
  rw [speedAfter_eq]
  norm_num

end Verif.Follow
