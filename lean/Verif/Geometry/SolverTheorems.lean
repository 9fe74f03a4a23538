import Verif.Geometry.Solver
import Mathlib.Tactic.Linarith
import Mathlib.Tactic.FieldSimp
import Mathlib.Tactic.LinearCombination
import Mathlib.Tactic.NormNum
import Mathlib.Tactic.Positivity
/-
Properties of the solver for polynomial equations.
-/
namespace Verif.Geometry
open Classical

/-- What the solver is asked for: `x` is a root of the polynomial in the range, or the end of the range next to a root that is outside by at
most the tolerance of 1e-7. -/
def Wanted (f : ℝ → ℝ) (lo hi x : ℝ) : Prop :=
  (lo ≤ x ∧ x ≤ hi ∧ f x = 0) ∨ (x = hi ∧ ∃ y, f y = 0 ∧ hi < y ∧ y ≤ hi + 1 / 10 ^ 7) ∨
  (x = lo ∧ ∃ y, f y = 0 ∧ y < lo ∧ lo - 1 / 10 ^ 7 ≤ y)

theorem inRange_iff {lo hi v x : ℝ} (h : lo + 1 / 10 ^ 7 < hi) :
    inRange lo hi (some v) = some x ↔ (lo ≤ x ∧ x ≤ hi ∧ x = v) ∨ (x = hi ∧ hi < v ∧ v ≤ hi + 1 / 10 ^ 7) ∨ (x = lo ∧ v < lo ∧ lo - 1 / 10 ^ 7 ≤ v) := by
  have ht : tol = 1 / 10 ^ 7 := rfl
  have htp : (0 : ℝ) < 1 / 10 ^ 7 := by norm_num
  unfold inRange
  simp only [ht]
  generalize (1 : ℝ) / 10 ^ 7 = e at *
  split
  · rename_i h1
    rw [Option.some.injEq]
    constructor
    · rintro rfl; left; exact ⟨h1.1, h1.2, rfl⟩
    · rintro (⟨_, _, h2⟩ | ⟨_, h2, _⟩ | ⟨_, h2, _⟩)
      · exact h2.symm
      · linarith [h1.2]
      · linarith [h1.1]
  · rename_i h1
    split
    · rename_i h2
      rw [abs_le] at h2
      have h3 : hi < v := by
        by_contra hc
        exact h1 ⟨by linarith [h2.1], not_lt.mp hc⟩
      rw [Option.some.injEq]
      constructor
      · rintro rfl; right; left; exact ⟨rfl, h3, by linarith⟩
      · rintro (⟨k1, k2, k3⟩ | ⟨k1, _⟩ | ⟨_, k2, _⟩)
        · rw [k3] at k2; linarith
        · exact k1.symm
        · linarith
    · rename_i h2
      split
      · rename_i h3
        rw [abs_le] at h2 h3
        have h4 : v < lo := by
          by_contra hc
          exact h1 ⟨not_lt.mp hc, by linarith⟩
        rw [Option.some.injEq]
        constructor
        · rintro rfl; right; right; exact ⟨rfl, h4, by linarith⟩
        · rintro (⟨k1, k2, k3⟩ | ⟨_, k2, _⟩ | ⟨k1, _⟩)
          · rw [k3] at k1; linarith
          · linarith
          · exact k1.symm
      · rename_i h3
        rw [abs_le] at h2 h3
        constructor
        · intro hc; exact absurd hc (by simp)
        · rintro (⟨k1, k2, k3⟩ | ⟨_, k2, k3⟩ | ⟨_, k2, k3⟩)
          · rw [k3] at k1 k2; exact absurd ⟨k1, k2⟩ h1
          · exact absurd ⟨by linarith, by linarith⟩ h2
          · exact absurd ⟨by linarith, by linarith⟩ h3

theorem mem_filterByRange {values : List (Option ℝ)} {lo hi x : ℝ} (f : ℝ → ℝ) (h : lo + 1 / 10 ^ 7 < hi)
    (hf : ∀ v, some v ∈ values ↔ f v = 0) : x ∈ filterByRange values lo hi ↔ Wanted f lo hi x := by
  unfold filterByRange Wanted
  rw [List.mem_filterMap]
  constructor
  · rintro ⟨o, ho, hx⟩
    cases o with
    | none => simp [inRange] at hx
    | some v =>
      have hv := (hf v).mp ho
      rcases (inRange_iff h).mp hx with ⟨a, b, c⟩ | ⟨a, b, c⟩ | ⟨a, b, c⟩
      · left; rw [c] at a b ⊢; exact ⟨a, b, hv⟩
      · right; left; exact ⟨a, v, hv, b, c⟩
      · right; right; exact ⟨a, v, hv, b, c⟩
  · rintro (⟨a, b, c⟩ | ⟨a, y, c, d, e⟩ | ⟨a, y, c, d, e⟩)
    · exact ⟨some x, (hf x).mpr c, (inRange_iff h).mpr (Or.inl ⟨a, b, rfl⟩)⟩
    · exact ⟨some y, (hf y).mpr c, (inRange_iff h).mpr (Or.inr (Or.inl ⟨a, d, e⟩))⟩
    · exact ⟨some y, (hf y).mpr c, (inRange_iff h).mpr (Or.inr (Or.inr ⟨a, d, e⟩))⟩

theorem not_approx {a : ℝ} (h : 1 / 10 ^ 7 < |a|) : ¬ approx a 0 := by
  unfold approx tol; rw [sub_zero]; exact not_le.mpr h

theorem ne_of_tol {a : ℝ} (h : 1 / 10 ^ 7 < |a|) : a ≠ 0 := by
  intro h0; rw [h0, abs_zero] at h; norm_num at h

/-- **C86** The linear equation `a x + b = 0`, with `a` above the tolerance, is solved exactly. -/
theorem solveLinear_exact (a b lo hi : ℝ) (ha : 1 / 10 ^ 7 < |a|) (h : lo + 1 / 10 ^ 7 < hi) :
    ∃ l, solveLinear a b lo hi = some l ∧ ∀ x, x ∈ l ↔ Wanted (fun x => a * x + b) lo hi x := by
  have ha0 := ne_of_tol ha
  unfold solveLinear
  rw [if_neg (not_approx ha)]
  refine ⟨_, rfl, fun x => mem_filterByRange _ h fun v => ?_⟩
  rw [List.mem_singleton, Option.some.injEq, eq_div_iff ha0]
  constructor <;> intro k <;> linarith

theorem quadratic_roots {a b c x : ℝ} (ha : a ≠ 0) (hd : 0 ≤ b * b - 4 * a * c) :
    a * x * x + b * x + c = 0 ↔ x = (-b - Real.sqrt (b * b - 4 * a * c)) / (2 * a) ∨ x = (-b + Real.sqrt (b * b - 4 * a * c)) / (2 * a) := by
  have hs := Real.mul_self_sqrt hd
  generalize Real.sqrt (b * b - 4 * a * c) = s at *
  have h2 : (2 * a) ≠ 0 := mul_ne_zero two_ne_zero ha
  rw [eq_div_iff h2, eq_div_iff h2]
  have key : 4 * a * (a * x * x + b * x + c) = (x * (2 * a) - (-b - s)) * (x * (2 * a) - (-b + s)) := by
    linear_combination hs
  constructor
  · intro h
    rw [h, mul_zero] at key
    rcases mul_eq_zero.mp key.symm with k | k
    · left; linarith
    · right; linarith
  · intro h
    have : 4 * a * (a * x * x + b * x + c) = 0 := by
      rw [key]; rcases h with h | h
      · rw [h]; ring
      · rw [h]; ring
    rcases mul_eq_zero.mp this with k | k
    · exact absurd k (mul_ne_zero (by norm_num) ha)
    · exact k

/-- **C86** The quadratic equation, with leading coefficient above the tolerance and a discriminant that is 0 or above the tolerance, is
solved exactly. Missing: discriminants between (`solveQuadratic_touching_violated`) and smaller leading coefficients
(`solveQuadratic_small_violated`). -/
theorem solveQuadratic_partial (a b c lo hi : ℝ) (ha : 1 / 10 ^ 7 < |a|) (h : lo + 1 / 10 ^ 7 < hi)
    (hd : b ^ 2 - 4 * a * c = 0 ∨ 1 / 10 ^ 7 < |b ^ 2 - 4 * a * c|) :
    ∃ l, solveQuadratic a b c lo hi = some l ∧ ∀ x, x ∈ l ↔ Wanted (fun x => a * x ^ 2 + b * x + c) lo hi x := by
  have ha0 := ne_of_tol ha
  have h2 : (2 * a) ≠ 0 := mul_ne_zero two_ne_zero ha0
  have e : ∀ x, a * x ^ 2 + b * x + c = a * x * x + b * x + c := fun x => by ring
  unfold solveQuadratic
  rw [if_neg (not_approx ha)]
  refine ⟨_, rfl, fun x => mem_filterByRange _ h fun v => ?_⟩
  simp only [e]
  rw [pow_two] at hd
  rcases hd with hd | hd
  · rw [hd, if_pos (by unfold approx tol; norm_num), quadratic_roots ha0 hd.ge, hd, Real.sqrt_zero, sub_zero, add_zero, or_self,
      List.mem_singleton, Option.some.injEq]
  · rw [if_neg (not_approx hd)]
    split
    · rename_i hn
      simp only [List.not_mem_nil, false_iff]
      intro hz
      have : (2 * a * v + b) ^ 2 = b * b - 4 * a * c := by linear_combination 4 * a * hz
      have := sq_nonneg (2 * a * v + b)
      linarith
    · rename_i hn
      rw [quadratic_roots ha0 (not_lt.mp hn)]
      simp

/-- Two roots, 1/4 and 1/2. -/
example : (1 : ℝ) / 10 ^ 7 < |(8 : ℝ)| ∧ (1 : ℝ) / 10 ^ 7 < |(-6 : ℝ) ^ 2 - 4 * 8 * 1| ∧ Wanted (fun x => 8 * x ^ 2 + -6 * x + 1) 0 1 (1 / 4) := by
  refine ⟨by norm_num, by norm_num, Or.inl ⟨by norm_num, by norm_num, by norm_num⟩⟩

/-- The tolerances are not scaled: an equation with small coefficients that has two roots in the range is refused with the message that any
number is a solution. -/
theorem solveQuadratic_small_violated :
    ∃ a b c : ℝ, a ≠ 0 ∧ a * (1 / 4) ^ 2 + b * (1 / 4) + c = 0 ∧ a * 1 ^ 2 + b * 1 + c ≠ 0 ∧ solveQuadratic a b c 0 1 = none := by
  refine ⟨8 / 10 ^ 9, -6 / 10 ^ 9, 1 / 10 ^ 9, by norm_num, by norm_num, by norm_num, ?_⟩
  unfold solveQuadratic
  rw [if_pos (by unfold approx tol; rw [abs_le]; norm_num)]
  unfold solveLinear
  rw [if_pos (by unfold approx tol; rw [abs_le]; norm_num), if_pos (by unfold approx tol; rw [abs_le]; norm_num)]

/-- Two roots that are close together are reported as one that is neither. -/
theorem solveQuadratic_touching_violated :
    ∃ (a b c : ℝ), 1 / 10 ^ 7 < |a| ∧ a * (1 / 2 - 1 / 10 ^ 4) ^ 2 + b * (1 / 2 - 1 / 10 ^ 4) + c = 0 ∧
      solveQuadratic a b c 0 1 = some [1 / 2] ∧ a * (1 / 2) ^ 2 + b * (1 / 2) + c ≠ 0 := by
  refine ⟨1, -1, 1 / 4 - 1 / 10 ^ 8, by norm_num, by norm_num, ?_, by norm_num⟩
  unfold solveQuadratic
  rw [if_neg (not_approx (by norm_num))]
  simp only
  rw [if_pos (by unfold approx tol; rw [abs_le]; norm_num)]
  unfold filterByRange
  simp only [List.filterMap_cons, List.filterMap_nil, inRange]
  norm_num

/-- The three values of the trigonometric branch are the roots of the depressed cubic. -/
theorem trig_roots {q r y : ℝ} (hq : 0 < q) (hr : r * r ≤ q * q * q) :
    let t := Real.arccos (max (-1) (min (r / Real.sqrt (q * q * q)) 1))
    y ^ 3 - 3 * q * y + 2 * r =
      (y - (-2 * Real.sqrt q * Real.cos (t / 3))) * (y - (-2 * Real.sqrt q * Real.cos ((t + 2 * Real.pi) / 3))) *
        (y - (-2 * Real.sqrt q * Real.cos ((t - 2 * Real.pi) / 3))) := by
  intro t
  have hs : 0 < Real.sqrt q := Real.sqrt_pos.mpr hq
  have hsq : Real.sqrt q * Real.sqrt q = q := Real.mul_self_sqrt hq.le
  have h3 : Real.sqrt (q * q * q) = q * Real.sqrt q := by
    rw [Real.sqrt_mul (by positivity), Real.sqrt_mul_self hq.le]
  have hpos : 0 < q * Real.sqrt q := mul_pos hq hs
  have hle : |r| ≤ q * Real.sqrt q := by
    apply abs_le_of_sq_le_sq _ hpos.le
    have : (q * Real.sqrt q) ^ 2 = q * q * q := by rw [mul_pow, pow_two (Real.sqrt q), hsq]; ring
    rw [this]; linarith
  have hcos : Real.cos t = r / (q * Real.sqrt q) := by
    rw [abs_le] at hle
    have h1 : -1 ≤ r / (q * Real.sqrt q) := by rw [le_div_iff₀ hpos]; linarith
    have h2 : r / (q * Real.sqrt q) ≤ 1 := by rw [div_le_one hpos]; exact hle.2
    simp only [t, h3]
    rw [min_eq_left h2, max_eq_right h1, Real.cos_arccos h1 h2]
  have hr' : r = q * Real.sqrt q * Real.cos t := by rw [hcos]; field_simp
  have ht : Real.cos t = 4 * Real.cos (t / 3) ^ 3 - 3 * Real.cos (t / 3) := by
    rw [← Real.cos_three_mul]; congr 1; ring
  have c23 : Real.cos (2 * Real.pi / 3) = -1 / 2 := by
    rw [show 2 * Real.pi / 3 = Real.pi - Real.pi / 3 by ring, Real.cos_pi_sub, Real.cos_pi_div_three]; norm_num
  have s23 : Real.sin (2 * Real.pi / 3) = Real.sqrt 3 / 2 := by
    rw [show 2 * Real.pi / 3 = Real.pi - Real.pi / 3 by ring, Real.sin_pi_sub, Real.sin_pi_div_three]
  have e2 : Real.cos ((t + 2 * Real.pi) / 3) = -1 / 2 * Real.cos (t / 3) - Real.sqrt 3 / 2 * Real.sin (t / 3) := by
    rw [show (t + 2 * Real.pi) / 3 = t / 3 + 2 * Real.pi / 3 by ring, Real.cos_add, c23, s23]; ring
  have e3 : Real.cos ((t - 2 * Real.pi) / 3) = -1 / 2 * Real.cos (t / 3) + Real.sqrt 3 / 2 * Real.sin (t / 3) := by
    rw [show (t - 2 * Real.pi) / 3 = t / 3 - 2 * Real.pi / 3 by ring, Real.cos_sub, c23, s23]; ring
  rw [e2, e3, hr', ht]
  have h33 : Real.sqrt 3 * Real.sqrt 3 = 3 := Real.mul_self_sqrt (by norm_num)
  have hsc := Real.sin_sq_add_cos_sq (t / 3)
  generalize Real.sqrt q = s at *
  generalize Real.cos (t / 3) = C at *
  generalize Real.sin (t / 3) = S at *
  generalize Real.sqrt 3 = w at *
  rw [← hsq]
  linear_combination (s * s * S ^ 2 * (y + 2 * s * C)) * h33 + 3 * (s * s * (y + 2 * s * C)) * hsc

theorem cbrt_cube {x : ℝ} (h : 0 ≤ x) : cbrt x ^ 3 = x := by
  unfold cbrt
  rw [← Real.rpow_natCast, ← Real.rpow_mul h]; norm_num

theorem cbrt_pos {x : ℝ} (h : 0 < x) : 0 < cbrt x := Real.rpow_pos_of_pos h _

/-- The two numbers of Cardano's formula. -/
theorem cardano {q r : ℝ} (hD : 0 < r * r - q * q * q) :
    let real := -cbrt (|r| + Real.sqrt (r * r - q * q * q))
    let A := if r < 0 then -1 * real else real
    A ≠ 0 ∧ A ^ 3 + (q / A) ^ 3 = -2 * r ∧ (A ^ 3 - (q / A) ^ 3) ^ 2 = 4 * (r * r - q * q * q) ∧ Real.sqrt (r * r - q * q * q) ≤ |A| ^ 3 := by
  intro real A
  set w := Real.sqrt (r * r - q * q * q) with hw
  have hwp : 0 < w := Real.sqrt_pos.mpr hD
  have hww : w * w = r * r - q * q * q := Real.mul_self_sqrt hD.le
  have hx : 0 < |r| + w := by have := abs_nonneg r; linarith
  have hu := cbrt_cube hx.le
  have hup := cbrt_pos hx
  have hrr : |r| * |r| = r * r := abs_mul_abs_self r
  have hq3 : q * q * q = (|r| + w) * (|r| - w) := by linear_combination hww - hrr
  by_cases hr : r < 0
  · have hA : A = cbrt (|r| + w) := by simp only [A, real, if_pos hr]; ring
    have hA0 : A ≠ 0 := by rw [hA]; exact hup.ne'
    have hA3 : A ^ 3 = |r| + w := by rw [hA]; exact hu
    have hB3 : (q / A) ^ 3 = |r| - w := by
      rw [div_pow, hA3, show q ^ 3 = q * q * q by ring, hq3]; field_simp
    refine ⟨hA0, ?_, ?_, ?_⟩
    · rw [hA3, hB3, abs_of_neg hr]; ring
    · rw [hA3, hB3]; linear_combination 4 * hww
    · rw [← abs_pow, hA3, abs_of_pos hx]; have := abs_nonneg r; linarith
  · have hA : A = -cbrt (|r| + w) := by simp only [A, real, if_neg hr]; rfl
    have hA0 : A ≠ 0 := by rw [hA]; exact neg_ne_zero.mpr hup.ne'
    have hA3 : A ^ 3 = -(|r| + w) := by rw [hA]; linear_combination -hu
    have hB3 : (q / A) ^ 3 = -(|r| - w) := by
      rw [div_pow, hA3, show q ^ 3 = q * q * q by ring, hq3]; field_simp
    refine ⟨hA0, ?_, ?_, ?_⟩
    · rw [hA3, hB3, abs_of_nonneg (not_lt.mp hr)]; ring
    · rw [hA3, hB3]; linear_combination 4 * hww
    · rw [← abs_pow, hA3, abs_neg, abs_of_pos hx]; have := abs_nonneg r; linarith

theorem depressed (a b c x : ℝ) :
    x ^ 3 + a * x ^ 2 + b * x + c =
      (x + a / 3) ^ 3 - 3 * ((a * a - 3 * b) / 9) * (x + a / 3) + 2 * ((a * (2 * a * a - 9 * b) + 27 * c) / 54) := by ring

/-- Three real roots, not all the same. -/
theorem solveMonic_three (a b c x : ℝ) (hq : 0 < (a * a - 3 * b) / 9)
    (hr : ((a * (2 * a * a - 9 * b) + 27 * c) / 54) * ((a * (2 * a * a - 9 * b) + 27 * c) / 54) ≤
      ((a * a - 3 * b) / 9) * ((a * a - 3 * b) / 9) * ((a * a - 3 * b) / 9)) :
    some x ∈ (solveMonic a b c).filterMap (fun v => if |v.2| ≤ eps then some v.1 else none) ↔ x ^ 3 + a * x ^ 2 + b * x + c = 0 := by
  rw [depressed]
  unfold solveMonic
  simp only
  set q := (a * a - 3 * b) / 9
  set r := (a * (2 * a * a - 9 * b) + 27 * c) / 54
  have hq3 : 0 < q * q * q := by positivity
  have ht : 0 < tol := by unfold tol; norm_num
  have he : (0 : ℝ) ≤ eps := by unfold eps; positivity
  rw [if_pos (by linarith), trig_roots hq hr]
  unfold ratio
  rw [if_neg (not_lt.mpr hq3.le), if_neg hq3.ne']
  simp only [List.filterMap_cons, abs_zero, he, if_true, List.filterMap_nil, List.mem_cons, List.not_mem_nil, or_false, Option.some.injEq,
    mul_eq_zero, sub_eq_zero]
  constructor
  · rintro (h | h | h)
    · left; left; linarith
    · left; right; linarith
    · right; linarith
  · rintro ((h | h) | h)
    · left; linarith
    · right; left; linarith
    · right; right; linarith

/-- One real root. -/
theorem solveMonic_one (a b c x : ℝ) (hq : (a * a - 3 * b) / 9 ≤ 1000)
    (hr : 1 / 10 ^ 7 < ((a * (2 * a * a - 9 * b) + 27 * c) / 54) * ((a * (2 * a * a - 9 * b) + 27 * c) / 54) -
      ((a * a - 3 * b) / 9) * ((a * a - 3 * b) / 9) * ((a * a - 3 * b) / 9)) :
    some x ∈ (solveMonic a b c).filterMap (fun v => if |v.2| ≤ eps then some v.1 else none) ↔ x ^ 3 + a * x ^ 2 + b * x + c = 0 := by
  rw [depressed]
  unfold solveMonic
  simp only
  set q := (a * a - 3 * b) / 9
  set r := (a * (2 * a * a - 9 * b) + 27 * c) / 54
  have ht : tol = 1 / 10 ^ 7 := rfl
  have he : (0 : ℝ) ≤ eps := by unfold eps; positivity
  have hD : 0 < r * r - q * q * q := by linarith [show (0 : ℝ) < 1 / 10 ^ 7 by norm_num]
  obtain ⟨hA0, hsum, hdiff, hbig⟩ := cardano hD
  rw [if_neg (by rw [ht]; linarith)]
  set A := if r < 0 then -1 * -cbrt (|r| + Real.sqrt (r * r - q * q * q)) else -cbrt (|r| + Real.sqrt (r * r - q * q * q))
  have hAbig : ¬ approx A 0 := by
    apply not_approx
    by_contra hc
    have hc := not_lt.mp hc
    have h1 : |A| ^ 3 ≤ (1 / 10 ^ 7) ^ 3 := pow_le_pow_left₀ (abs_nonneg _) hc 3
    have h2 : Real.sqrt (r * r - q * q * q) ≤ (1 / 10 ^ 7) ^ 3 := le_trans hbig h1
    have h3 := Real.sqrt_le_left (by norm_num) |>.mp h2
    norm_num at h3 hr
    linarith
  rw [if_neg hAbig]
  have hAB : A * (q / A) = q := by field_simp
  set B := q / A
  have hcube : A ^ 3 - B ^ 3 = (A - B) * ((A - B) ^ 2 + 3 * q) := by rw [← hAB]; ring
  have him : 1 / 10 ^ 7 < |0.5 * Real.sqrt 3 * (A - B)| := by
    by_contra hc
    have hc := not_lt.mp hc
    have h3 : Real.sqrt 3 * Real.sqrt 3 = 3 := Real.mul_self_sqrt (by norm_num)
    have hsq : (0.5 * Real.sqrt 3 * (A - B)) ^ 2 ≤ (1 / 10 ^ 7) ^ 2 := sq_le_sq' (by linarith [(abs_le.mp hc).1]) (abs_le.mp hc).2
    have hd2 : (A - B) ^ 2 ≤ 4 / 3 / 10 ^ 14 := by
      have : (0.5 * Real.sqrt 3 * (A - B)) ^ 2 = 3 / 4 * (A - B) ^ 2 := by
        linear_combination (A - B) ^ 2 / 4 * h3
      rw [this] at hsq; norm_num at hsq ⊢; linarith
    have hpos : 0 ≤ (A - B) ^ 2 + 3 * q := by
      rw [← hAB]; nlinarith [sq_nonneg (A + B), sq_nonneg (A - B)]
    have hup : (A - B) ^ 2 + 3 * q ≤ 3001 := by norm_num at hd2; linarith
    have hm : ((A - B) ^ 2 + 3 * q) ^ 2 ≤ 3001 ^ 2 := pow_le_pow_left₀ hpos hup 2
    have : (A ^ 3 - B ^ 3) ^ 2 ≤ (4 / 3 / 10 ^ 14) * 3001 ^ 2 := by
      rw [hcube, mul_pow]
      exact mul_le_mul hd2 hm (sq_nonneg _) (by norm_num)
    rw [hdiff] at this
    norm_num at this hr
    linarith
  have hne : ¬ |0.5 * Real.sqrt 3 * (A - B)| ≤ eps := by
    have : eps < 1 / 10 ^ 7 := by unfold eps; norm_num
    exact not_le.mpr (lt_trans this him)
  have hABne : A - B ≠ 0 := by intro h0; rw [h0, mul_zero, abs_zero] at him; norm_num at him
  rw [if_neg (not_approx him)]
  simp only [List.filterMap_cons, abs_zero, abs_neg, he, if_true, hne, if_false, List.filterMap_nil, List.mem_singleton, Option.some.injEq]
  have key : (x + a / 3) ^ 3 - 3 * q * (x + a / 3) + 2 * r =
      (x + a / 3 - (A + B)) * ((x + a / 3 + (A + B) / 2) ^ 2 + 3 / 4 * (A - B) ^ 2) := by
    linear_combination hsum + 3 * (x + a / 3) * hAB
  rw [key, mul_eq_zero]
  have hp : 0 < (x + a / 3 + (A + B) / 2) ^ 2 + 3 / 4 * (A - B) ^ 2 := by
    have := sq_nonneg (x + a / 3 + (A + B) / 2)
    have := pow_pos (abs_pos.mpr hABne) 2
    rw [sq_abs] at this
    linarith
  constructor
  · intro h; left; linarith
  · rintro (h | h)
    · linarith
    · exact absurd h hp.ne'

/-- Discriminant of the cubic, as the code computes it: below 0 there are three roots, above 0 one. -/
noncomputable def cubicGap (a b c d : ℝ) : ℝ :=
  ((b / a * (2 * (b / a) * (b / a) - 9 * (c / a)) + 27 * (d / a)) / 54) ^ 2 - (((b / a) ^ 2 - 3 * (c / a)) / 9) ^ 3

/-- The gap is the discriminant of the cubic polynomial as textbooks give it, divided by a negative number. -/
theorem cubicGap_discriminant (a b c d : ℝ) (ha : a ≠ 0) :
    cubicGap a b c d = -(18 * a * b * c * d - 4 * b ^ 3 * d + b ^ 2 * c ^ 2 - 4 * a * c ^ 3 - 27 * a ^ 2 * d ^ 2) / (108 * a ^ 4) := by
  unfold cubicGap; field_simp; ring

/-- **C86** The cubic equation, with leading coefficient above the tolerance, is solved exactly if it has three real roots that are not all the
same, or if it has one and its discriminant is clear of zero. Missing: a triple root (`solveCubic_triple_violated`), discriminants within the
tolerance (`solveCubic_lost_violated`, `solveCubic_moved_violated`), and (b / a)² - 3 c / a above 9000. -/
theorem solveCubic_partial (a b c d lo hi : ℝ) (ha : 1 / 10 ^ 7 < |a|) (h : lo + 1 / 10 ^ 7 < hi)
    (hd : (cubicGap a b c d ≤ 0 ∧ b ^ 2 ≠ 3 * a * c) ∨ (1 / 10 ^ 7 < cubicGap a b c d ∧ (b / a) ^ 2 - 3 * (c / a) ≤ 9000)) :
    ∃ l, solveCubic a b c d lo hi = some l ∧ ∀ x, x ∈ l ↔ Wanted (fun x => a * x ^ 3 + b * x ^ 2 + c * x + d) lo hi x := by
  have ha0 := ne_of_tol ha
  have e : ∀ v, a * v ^ 3 + b * v ^ 2 + c * v + d = 0 ↔ v ^ 3 + b / a * v ^ 2 + c / a * v + d / a = 0 := by
    intro v
    have : v ^ 3 + b / a * v ^ 2 + c / a * v + d / a = (a * v ^ 3 + b * v ^ 2 + c * v + d) / a := by field_simp
    rw [this, div_eq_zero_iff, or_iff_left ha0]
  unfold solveCubic
  rw [if_neg (not_approx ha)]
  refine ⟨_, rfl, fun x => mem_filterByRange _ h fun v => ?_⟩
  simp only [e]
  unfold cubicGap at hd
  rcases hd with ⟨hd, hne⟩ | ⟨hd, hq⟩
  · have hr : ((b / a * (2 * (b / a) * (b / a) - 9 * (c / a)) + 27 * (d / a)) / 54) *
        ((b / a * (2 * (b / a) * (b / a) - 9 * (c / a)) + 27 * (d / a)) / 54) ≤
        ((b / a * (b / a) - 3 * (c / a)) / 9) * ((b / a * (b / a) - 3 * (c / a)) / 9) * ((b / a * (b / a) - 3 * (c / a)) / 9) := by
      linarith
    apply solveMonic_three _ _ _ _ _ hr
    have hq0 : (b / a * (b / a) - 3 * (c / a)) / 9 ≠ 0 := by
      intro h0
      apply hne
      field_simp at h0
      linarith
    by_contra hc
    have hneg : (b / a * (b / a) - 3 * (c / a)) / 9 < 0 := lt_of_le_of_ne (not_lt.mp hc) hq0
    have : ((b / a * (b / a) - 3 * (c / a)) / 9) * ((b / a * (b / a) - 3 * (c / a)) / 9) * ((b / a * (b / a) - 3 * (c / a)) / 9) < 0 :=
      mul_neg_of_pos_of_neg (mul_pos_of_neg_of_neg hneg hneg) hneg
    have := mul_self_nonneg ((b / a * (2 * (b / a) * (b / a) - 9 * (c / a)) + 27 * (d / a)) / 54)
    linarith
  · apply solveMonic_one
    · rw [pow_two] at hq; linarith
    · linarith

/-- Three roots 1/4, 1/2 and 3/4, and one root 1/2 of x³ + x - 5/8. -/
example : cubicGap 32 (-48) 22 (-3) ≤ 0 ∧ (1 : ℝ) / 10 ^ 7 < cubicGap 1 0 1 (-5 / 8) ∧
    Wanted (fun x => 32 * x ^ 3 + -48 * x ^ 2 + 22 * x + -3) 0 1 (1 / 4) ∧ Wanted (fun x => 1 * x ^ 3 + 0 * x ^ 2 + 1 * x + -5 / 8) 0 1 (1 / 2) := by
  refine ⟨by unfold cubicGap; norm_num, by unfold cubicGap; norm_num, Or.inl ⟨by norm_num, by norm_num, by norm_num⟩,
    Or.inl ⟨by norm_num, by norm_num, by norm_num⟩⟩

/-- A triple root is lost: the code divides zero by zero and the resulting NaN is dropped. -/
theorem solveCubic_triple_violated (x : ℝ) (h0 : 0 ≤ x) (h1 : x ≤ 1) :
    ∃ a b c d : ℝ, (∀ y, a * y ^ 3 + b * y ^ 2 + c * y + d = (y - x) ^ 3) ∧ Wanted (fun y => a * y ^ 3 + b * y ^ 2 + c * y + d) 0 1 x ∧
      solveCubic a b c d 0 1 = some [] := by
  refine ⟨1, -3 * x, 3 * x ^ 2, -x ^ 3, fun y => by ring, Or.inl ⟨h0, h1, by ring⟩, ?_⟩
  unfold solveCubic solveMonic
  rw [if_neg (not_approx (by norm_num))]
  have hq : (-3 * x / 1 * (-3 * x / 1) - 3 * (3 * x ^ 2 / 1)) / 9 = 0 := by ring
  have hr : (-3 * x / 1 * (2 * (-3 * x / 1) * (-3 * x / 1) - 9 * (3 * x ^ 2 / 1)) + 27 * (-x ^ 3 / 1)) / 54 = 0 := by ring
  simp only [hq, hr]
  rw [if_pos (by unfold tol; norm_num)]
  unfold ratio filterByRange
  have he : (0 : ℝ) ≤ eps := by unfold eps; positivity
  simp [inRange, he]

/-- The only root of an increasing cubic is lost: (x - 1/2)³ + 0.003 (x - 1/2) is zero at 1/2 and nowhere else, and no root is reported. -/
theorem solveCubic_lost_violated :
    ∃ a b c d : ℝ, a = 1 ∧ (∀ y, a * y ^ 3 + b * y ^ 2 + c * y + d = 0 ↔ y = 1 / 2) ∧ solveCubic a b c d 0 1 = some [] := by
  refine ⟨1, -3 / 2, 3 / 4 + 3 / 1000, -1 / 8 - 3 / 2000, rfl, ?_, ?_⟩
  · intro y
    have : 1 * y ^ 3 + -3 / 2 * y ^ 2 + (3 / 4 + 3 / 1000) * y + (-1 / 8 - 3 / 2000) = (y - 1 / 2) * ((y - 1 / 2) ^ 2 + 3 / 1000) := by ring
    rw [this, mul_eq_zero]
    constructor
    · rintro (h | h)
      · linarith
      · have := sq_nonneg (y - 1 / 2); linarith
    · intro h; left; rw [h]; ring
  · unfold solveCubic solveMonic
    rw [if_neg (not_approx (by norm_num))]
    simp only
    have he : (0 : ℝ) ≤ eps := by unfold eps; positivity
    rw [if_pos (by unfold tol; norm_num)]
    unfold ratio
    rw [if_pos (by norm_num)]
    simp [filterByRange, inRange, he]

/-- A root is moved by far more than the tolerance: the only root of x³ - 0.000512 is 0.08, and 0 is reported. -/
theorem solveCubic_moved_violated :
    ∃ a b c d : ℝ, a = 1 ∧ a * (8 / 100) ^ 3 + b * (8 / 100) ^ 2 + c * (8 / 100) + d = 0 ∧ solveCubic a b c d 0 1 = some [0, 0, 0] := by
  refine ⟨1, 0, 0, -512 / 10 ^ 6, rfl, by norm_num, ?_⟩
  unfold solveCubic solveMonic
  rw [if_neg (not_approx (by norm_num))]
  simp only
  have he : (0 : ℝ) ≤ eps := by unfold eps; positivity
  rw [if_pos (by unfold tol; norm_num)]
  unfold ratio
  rw [if_neg (by norm_num), if_pos (by norm_num), if_neg (by norm_num), if_pos (by norm_num)]
  simp [filterByRange, inRange, he]

end Verif.Geometry
