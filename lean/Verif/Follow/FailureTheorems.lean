import Verif.Follow.ControlTheorems
import Mathlib.Algebra.Order.Floor.Semiring
/-
C110 and C111: where the accelerations of the controller leave the limits, and where its limits contradict each other.
-/
namespace Verif.Follow
open Classical Spec

/-- What the controller decides, whatever the remaining time and distance. -/
abbrev Decides (c : Ctrl) (acc speed next : ℝ) : Prop := ∃ time dist, acceleration c time dist acc speed = some next

/-- The hypotheses of `C111_partial` hold for a vehicle with the default parameters that has left its initial state. -/
example : ∃ v a, Run (1 / 20) (Decides ⟨1 / 20, true, 10, 3, 10, 3, 30⟩) 10 v a ∧ v < 10 ∧ a < 0 := by
  have hi := inv_zero ((3 : ℝ) * (1 / 20) ^ 2) 30 10 (by norm_num) (by norm_num) (by norm_num)
  obtain ⟨p1, p2, p3, -⟩ := inv_normal ⟨1 / 20, true, 10, 3, 10, 3, 30⟩ 3 (by norm_num) rfl rfl (by norm_num) (by norm_num) (by norm_num) (by norm_num) 10 0
    (by simpa using hi) (by norm_num) (by norm_num) (by norm_num) (by norm_num)
  have hl := limits_ok _ 0 10 (by norm_num) p1 p2 p3
  obtain ⟨n, g1, g2, -, g4⟩ := jerkAcc_down (1 / 20) 10 0 3 (by norm_num) (by norm_num) (by norm_num)
  have hn : (1 : ℝ) ≤ n := by exact_mod_cast g1
  have hn' : (n : ℝ) ≤ 60 := by
    rcases g2 with g2 | g2
    · subst g2; norm_num
    · rw [abs_of_pos (by norm_num : (0 : ℝ) < 3)] at g2
      nlinarith
  have hj : jerkAcc (1 / 20) 10 0 3 ≤ -(3 / 20) := by
    rw [g4, abs_of_pos (by norm_num : (0 : ℝ) < 3)]
    have h1 : (3 : ℝ) / 20 ≤ (10 - 0) / (n * (1 / 20)) := by
      rw [le_div_iff₀ (by linarith)]
      linarith
    have h2 : (0 : ℝ) ≤ 3 * (1 / 20) * (n - 1) / 2 := by linarith
    linarith
  have hlo : lowest ⟨1 / 20, true, 10, 3, 10, 3, 30⟩ 0 10 = -(3 / 20) := by
    simp only [lowest]
    rw [max_eq_right (max_le (hj.trans (by norm_num)) (by norm_num))]
    norm_num
  refine ⟨10 + -(3 / 20) * (1 / 20), -(3 / 20), Run.step Run.start ⟨none, 0, ?_⟩, by norm_num, by norm_num⟩
  simp only [acceleration]
  rw [if_neg (by norm_num), if_neg (by norm_num), hl]
  simp only [Option.bind_eq_bind, Option.bind_some, hlo]
  rw [if_pos (by norm_num)]
  rfl

/-- A vehicle that is too fast brakes more by the rate with every step. -/
theorem run_brake (c : Ctrl) (hdt : 0 < c.dt) (hA : 0 ≤ c.maxAccRate) (hD : 0 < c.maxDecRate) (hT : 0 ≤ c.target) (v₀ : ℝ) :
    ∀ k : ℕ, (k = 0 ∨ c.target < v₀ - c.maxDecRate * c.dt ^ 2 * (k * (k + 1)) / 2) →
      Run c.dt (Decides c) v₀ (v₀ - c.maxDecRate * c.dt ^ 2 * (k * (k + 1)) / 2) (-k * c.maxDecRate * c.dt) := by
  intro k
  induction k with
  | zero =>
    intro _
    have : v₀ - c.maxDecRate * c.dt ^ 2 * (((0 : ℕ) : ℝ) * (((0 : ℕ) : ℝ) + 1)) / 2 = v₀ := by simp
    rw [this]
    have : -((0 : ℕ) : ℝ) * c.maxDecRate * c.dt = 0 := by simp
    rw [this]
    exact Run.start
  | succ k ih =>
    intro h
    have h : c.target < v₀ - c.maxDecRate * c.dt ^ 2 * (((k : ℝ) + 1) * ((k : ℝ) + 1 + 1)) / 2 := by
      rcases h with h | h
      · omega
      · push_cast at h; exact h
    have hk : (0 : ℝ) ≤ k := Nat.cast_nonneg _
    have hq : 0 < c.maxDecRate * c.dt ^ 2 := by positivity
    have hpre : c.target < v₀ - c.maxDecRate * c.dt ^ 2 * (k * (k + 1)) / 2 := by nlinarith
    have hr := ih (Or.inr hpre)
    have hs := Run.step (decide := Decides c) (next := -((k : ℝ) + 1) * c.maxDecRate * c.dt) hr ⟨none, 0, ?_⟩
    · have e : v₀ - c.maxDecRate * c.dt ^ 2 * (k * (k + 1)) / 2 + -((k : ℝ) + 1) * c.maxDecRate * c.dt * c.dt =
          v₀ - c.maxDecRate * c.dt ^ 2 * (((k : ℝ) + 1) * ((k : ℝ) + 1 + 1)) / 2 := by ring
      rw [e] at hs
      push_cast
      exact hs
    · simp only [acceleration]
      have hA' : 0 ≤ c.maxAccRate * c.dt * c.dt := by positivity
      rw [if_neg, if_pos]
      · congr 1; ring
      · change c.target < _
        have : v₀ - c.maxDecRate * c.dt ^ 2 * (k * (k + 1)) / 2 + (-k * c.maxDecRate * c.dt - c.maxDecRate * c.dt) * c.dt =
          v₀ - c.maxDecRate * c.dt ^ 2 * (((k : ℝ) + 1) * ((k : ℝ) + 1 + 1)) / 2 := by ring
        rw [this]; exact h
      · push Not
        nlinarith

/-- C110 is violated for a vehicle that is faster than its target speed: whatever its maximum deceleration, from a high enough speed the controller brakes
harder than that. -/
theorem C110_deceleration_violated (c : Ctrl) (hdt : 0 < c.dt) (hA : 0 ≤ c.maxAccRate) (hD : 0 < c.maxDecRate) (hT : 0 ≤ c.target) :
    ∃ v₀ v a, Run c.dt (fun acc speed next => ∃ time dist, acceleration c time dist acc speed = some next) v₀ v a ∧ a < -c.maxDec := by
  obtain ⟨k, hk⟩ := exists_nat_gt (c.maxDec / (c.maxDecRate * c.dt))
  have h := run_brake c hdt hA hD hT (c.target + 1 + c.maxDecRate * c.dt ^ 2 * (k * (k + 1)) / 2) k (Or.inr (by linarith))
  refine ⟨_, _, _, h, ?_⟩
  rw [div_lt_iff₀ (by positivity)] at hk
  linarith

/-- C110 is violated for a vehicle whose rate for braking is lower than the one for accelerating: in reach of its target speed 15 it accelerates to 18. -/
theorem C110_target_violated : ∃ (c : Ctrl) (acc speed a : ℝ), c.maxDecRate < c.maxAccRate ∧ speed ≤ c.target ∧ acc ≤ c.maxAcc ∧
    acceleration c none 100 acc speed = some a ∧ c.target + 3 ≤ speed + a * c.dt := by
  refine ⟨⟨1, true, 10, 4, 10, 1, 15⟩, 15 / 2, 23 / 2, 13 / 2, by norm_num, by norm_num, by norm_num, ?_, by norm_num⟩
  simp only [acceleration]
  rw [if_neg (by norm_num), if_pos (by norm_num)]
  congr 1
  norm_num

/-- C110 is violated for the maximum speed: with a target speed of 50, a vehicle with the maximum speed 30 may accelerate at the speed 40. -/
theorem C110_max_speed_violated : ∃ lo hi : ℝ, limits (Ctrl.make (1 / 20) true 30 10 3 10 3 (some 50)) 0 40 = some (lo, hi) ∧ 0 < hi := by
  have hi := inv_zero ((3 : ℝ) * (1 / 20) ^ 2) 50 40 (by norm_num) (by norm_num) (by norm_num)
  obtain ⟨p1, p2, p3, -⟩ := inv_normal (Ctrl.make (1 / 20) true 30 10 3 10 3 (some 50)) 3 (by norm_num) rfl rfl (by norm_num [Ctrl.make]) (by norm_num [Ctrl.make])
    (by norm_num [Ctrl.make]) (by norm_num [Ctrl.make]) 40 0 (by simpa [Ctrl.make] using hi) (by norm_num [Ctrl.make]) (by norm_num [Ctrl.make]) (by norm_num [Ctrl.make])
    (by norm_num [Ctrl.make])
  refine ⟨_, _, limits_ok _ 0 40 (by norm_num [Ctrl.make]) p1 p2 p3, ?_⟩
  obtain ⟨n, g1, -, -, g4⟩ := jerkAcc_up (1 / 20) 40 50 3 (by norm_num) (by norm_num) (by norm_num)
  have hn : (1 : ℝ) ≤ n := by exact_mod_cast g1
  have hj : 0 < jerkAcc (1 / 20) 40 50 3 := by
    rw [g4]
    have h1 : (0 : ℝ) < (50 - 40) / (n * (1 / 20)) := by apply div_pos <;> linarith
    have h2 : (0 : ℝ) ≤ |3| * (1 / 20) * (n - 1) / 2 := by
      have : (0 : ℝ) ≤ n - 1 := by linarith
      positivity
    linarith
  simp only [highest, Ctrl.make, Option.getD_some]
  exact lt_min (lt_min hj (by norm_num)) (by norm_num)

/-- C111 is violated for a vehicle that is faster than its target speed: with the default parameters, slowing down from 10 to 1 ends with an error after 48
steps, whatever the remaining times and distances. -/
theorem C111_slow_down_violated : ∃ v a : ℝ, Run (1 / 20) (fun acc speed next => ∃ time dist, acceleration ⟨1 / 20, true, 10, 3, 10, 3, 1⟩ time dist acc speed = some next) 10 v a ∧
    ∀ time dist, acceleration ⟨1 / 20, true, 10, 3, 10, 3, 1⟩ time dist a v = none := by
  have h := run_brake ⟨1 / 20, true, 10, 3, 10, 3, 1⟩ (by norm_num) (by norm_num) (by norm_num) (by norm_num) 10 48 (Or.inr (by norm_num))
  refine ⟨_, _, h, ?_⟩
  have ev : (10 : ℝ) - 3 * (1 / 20) ^ 2 * (((48 : ℕ) : ℝ) * (((48 : ℕ) : ℝ) + 1)) / 2 = 59 / 50 := by norm_num
  have ea : -((48 : ℕ) : ℝ) * 3 * (1 / 20) = -(36 / 5) := by norm_num
  simp only [ev, ea]
  have hl : limits ⟨1 / 20, true, 10, 3, 10, 3, 1⟩ (-(36 / 5)) (59 / 50) = none := by
    obtain ⟨n, g1, g2, g3, g4⟩ := jerkAcc_down (1 / 20) (59 / 50) 0 3 (by norm_num) (by norm_num) (by norm_num)
    rw [abs_of_pos (by norm_num : (0 : ℝ) < 3)] at g2 g3 g4
    have hn : (n : ℝ) ≤ 18 := by
      rcases g2 with g2 | g2
      · subst g2; norm_num
      · by_contra hc
        have : (19 : ℝ) ≤ n := by
          have : 18 < n := by exact_mod_cast not_le.1 hc
          exact_mod_cast this
        nlinarith
    have hn' : (17 : ℝ) ≤ n := by
      by_contra hc
      have h0 : (1 : ℝ) ≤ n := by exact_mod_cast g1
      have : (n : ℝ) ≤ 16 := by
        have : n < 17 := by exact_mod_cast not_le.1 hc
        exact_mod_cast (by omega : n ≤ 16)
      nlinarith
    have hj : -3 ≤ jerkAcc (1 / 20) (59 / 50) 0 3 := by
      rw [g4]
      have : ((59 : ℝ) / 50 - 0) / (n * (1 / 20)) ≤ 7 / 5 := by
        rw [div_le_iff₀ (by linarith)]
        linarith
      linarith
    have hlo : -3 ≤ lowest ⟨1 / 20, true, 10, 3, 10, 3, 1⟩ (-(36 / 5)) (59 / 50) := hj.trans ((le_max_left _ _).trans (le_max_left _ _))
    have hhi : highest ⟨1 / 20, true, 10, 3, 10, 3, 1⟩ (-(36 / 5)) (59 / 50) ≤ -7 := (min_le_right _ _).trans (by norm_num)
    simp only [limits]
    rw [if_pos]
    have hε : ε ≤ 1 := by rw [ε]; norm_num
    linarith
  intro time dist
  simp only [acceleration]
  rw [if_neg (by norm_num), if_neg (by norm_num), hl]
  rfl

theorem roundTime_middle : roundTime 1 (5 / 2) timeTol = some (2 + 1 / 10 ^ 6) := by
  have hfl : ⌊(5 : ℝ) / 2 / 1⌋ = 2 := by rw [Int.floor_eq_iff]; norm_num
  simp only [roundTime, toSize, hfl]
  rw [if_neg (by norm_num), if_neg (by norm_num), if_neg (by norm_num)]
  simp only [Option.map_some]
  rw [if_neg (by rw [timeTol]; norm_num), timeTol]
  norm_num

/-- C111 is violated for different rates: a vehicle that starts at rest, with the rates 4 and 1, comes by the decisions of the controller into a state in which
every decision is an error. -/
theorem C111_rates_violated : ∃ v a : ℝ, Run 1 (fun acc speed next => ∃ time dist, acceleration ⟨1, false, 10, 4, 10, 1, 15⟩ time dist acc speed = some next) 0 v a ∧
    ∀ time dist, acceleration ⟨1, false, 10, 4, 10, 1, 15⟩ time dist a v = none := by
  have hε : 0 < ε := by rw [ε]; positivity
  have hε' : ε ≤ 1 / 10 := by rw [ε]; norm_num
  have three : ∀ (v t : ℝ) (d : ℝ), t - v = d → 25 * 4 ≤ 8 * d → 8 * d < 49 * 4 → jerkAcc 1 v t 4 = d / 3 + 4 := by
    intro v t d hd h1 h2
    obtain ⟨n, g1, g2, g3, g4⟩ := jerkAcc_up 1 v t 4 (by norm_num) (by norm_num) (by linarith)
    rw [abs_of_pos (by norm_num : (0 : ℝ) < 4), hd] at g2 g3 g4
    have h0 : (1 : ℝ) ≤ n := by exact_mod_cast g1
    have hn : n = 3 := by
      rcases g2 with g2 | g2
      · subst g2; norm_num at g3; linarith
      · have u : (n : ℝ) < 4 := by nlinarith
        have l : (2 : ℝ) < n := by nlinarith
        have u' : n < 4 := by exact_mod_cast u
        have l' : 2 < n := by exact_mod_cast l
        omega
    subst hn
    rw [g4]; push_cast; ring
  have two : jerkAcc 1 9 15 4 = 5 := by
    obtain ⟨n, g1, g2, g3, g4⟩ := jerkAcc_up 1 9 15 4 (by norm_num) (by norm_num) (by norm_num)
    rw [abs_of_pos (by norm_num : (0 : ℝ) < 4)] at g2 g3 g4
    have h0 : (1 : ℝ) ≤ n := by exact_mod_cast g1
    have hn : n = 2 := by
      rcases g2 with g2 | g2
      · subst g2; norm_num at g3
      · have u : (n : ℝ) < 3 := by nlinarith
        have l : (1 : ℝ) < n := by nlinarith
        have u' : n < 3 := by exact_mod_cast u
        have l' : 1 < n := by exact_mod_cast l
        omega
    subst hn
    rw [g4]; norm_num
  have zero : jerkAcc 1 0 0 1 = 0 := by
    rw [jerkAcc_small 1 0 0 1 (by norm_num) (by norm_num) (le_refl _) (by norm_num)]; norm_num
  have down : jerkAcc 1 (5 / 2) 0 1 ≤ 0 ∧ -(5 / 2) ≤ jerkAcc 1 (5 / 2) 0 1 := by
    obtain ⟨n, hn, he⟩ := down_first 1 (5 / 2) 0 1 (by norm_num) (by norm_num) (by norm_num)
    have f1 := first_nonneg _ _ n (by norm_num) (by norm_num) hn
    have f2 := first_le _ _ n (by norm_num) hn
    rw [mul_one] at he
    rw [he]
    constructor <;> linarith
  -- the first step
  have l1 : lowest ⟨1, false, 10, 4, 10, 1, 15⟩ 0 0 = 0 := by simp only [lowest, zero]; norm_num
  have u1 : highest ⟨1, false, 10, 4, 10, 1, 15⟩ 0 0 = 4 := by
    simp only [highest]
    rw [three 0 15 15 (by norm_num) (by norm_num) (by norm_num)]; norm_num
  have lim1 : limits ⟨1, false, 10, 4, 10, 1, 15⟩ 0 0 = some (0, 4) := by
    rw [limits_ok _ 0 0 (by norm_num) (by rw [l1, u1]; norm_num) (by rw [l1]; norm_num) (by rw [u1]; norm_num), l1, u1]
  have s1 : acceleration ⟨1, false, 10, 4, 10, 1, 15⟩ (some (5 / 2)) (15 / 4) 0 0 = some (5 / 2) := by
    simp only [acceleration]
    rw [if_neg (by norm_num), if_neg (by norm_num), lim1]
    simp only [Option.bind_eq_bind, Option.bind_some]
    rw [if_neg (by norm_num), if_neg (by rw [abs_of_neg (by norm_num)]; linarith), roundTime_middle]
    simp only [Option.bind_some]
    rw [if_neg (by norm_num), if_pos (by norm_num)]
    simp only [lastSteps]
    rw [if_neg (by norm_num), if_pos (by norm_num), if_neg (by simp)]
    simp only [clampAcc]
    rw [if_neg (by norm_num), if_neg (by norm_num), lim1]
    simp only [Option.map_some]
    norm_num
  -- the second step
  have l2 : 3 / 2 ≤ lowest ⟨1, false, 10, 4, 10, 1, 15⟩ (5 / 2) (5 / 2) ∧ lowest ⟨1, false, 10, 4, 10, 1, 15⟩ (5 / 2) (5 / 2) ≤ 3 / 2 := by
    simp only [lowest]
    exact ⟨le_max_of_le_right (by norm_num), max_le (max_le (by linarith [down.1]) (by norm_num)) (by norm_num)⟩
  have u2 : highest ⟨1, false, 10, 4, 10, 1, 15⟩ (5 / 2) (5 / 2) = 13 / 2 := by
    simp only [highest]
    rw [three (5 / 2) 15 (25 / 2) (by norm_num) (by norm_num) (by norm_num)]; norm_num
  have l2' : lowest ⟨1, false, 10, 4, 10, 1, 15⟩ (5 / 2) (5 / 2) = 3 / 2 := le_antisymm l2.2 l2.1
  have lim2 : limits ⟨1, false, 10, 4, 10, 1, 15⟩ (5 / 2) (5 / 2) = some (3 / 2, 13 / 2) := by
    rw [limits_ok _ (5 / 2) (5 / 2) (by norm_num) (by rw [l2', u2]; norm_num) (by rw [l2']; norm_num) (by rw [u2]; norm_num), l2', u2]
  have s2 : acceleration ⟨1, false, 10, 4, 10, 1, 15⟩ (some (5 / 2)) 100 (5 / 2) (5 / 2) = some (13 / 2) := by
    simp only [acceleration]
    rw [if_neg (by norm_num), if_neg (by norm_num), lim2]
    simp only [Option.bind_eq_bind, Option.bind_some]
    rw [if_neg (by norm_num), if_neg (by rw [abs_of_neg (by norm_num)]; linarith), roundTime_middle]
    simp only [Option.bind_some]
    rw [if_neg (by norm_num), if_pos (by norm_num)]
    simp only [lastSteps]
    rw [if_neg (by norm_num), if_pos (by norm_num), if_neg (by simp)]
    simp only [clampAcc]
    rw [if_neg (by norm_num), if_neg (by norm_num), lim2]
    simp only [Option.map_some]
    norm_num
  refine ⟨0 + 5 / 2 * 1 + 13 / 2 * 1, 13 / 2, Run.step (Run.step Run.start ⟨_, _, s1⟩) ⟨some (5 / 2), 100, ?_⟩, ?_⟩
  · have : (0 : ℝ) + 5 / 2 * 1 = 5 / 2 := by norm_num
    rw [this]; exact s2
  · have : (0 : ℝ) + 5 / 2 * 1 + 13 / 2 * 1 = 9 := by norm_num
    rw [this]
    have lo : 11 / 2 ≤ lowest ⟨1, false, 10, 4, 10, 1, 15⟩ (13 / 2) 9 := by
      simp only [lowest]
      exact le_max_of_le_right (by norm_num)
    have hi : highest ⟨1, false, 10, 4, 10, 1, 15⟩ (13 / 2) 9 ≤ 5 := by
      simp only [highest, two]
      exact (min_le_left _ _).trans (min_le_left _ _)
    have lim : limits ⟨1, false, 10, 4, 10, 1, 15⟩ (13 / 2) 9 = none := by
      simp only [limits]
      rw [if_pos (by linarith)]
    intro time dist
    simp only [acceleration]
    rw [if_neg (by norm_num), if_neg (by norm_num), lim]
    rfl

end Verif.Follow
