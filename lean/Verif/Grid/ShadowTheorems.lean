import Verif.Grid.Shadow
import Verif.Grid.ShadowSpec
import Verif.Grid.OutlineTheorems
import Verif.Geometry.TurnTheorems
import Mathlib.Analysis.Convex.Segment
import Mathlib.Analysis.SpecialFunctions.Complex.Arg
/-
C120: what is behind an object is invisible.
-/
namespace Verif.Grid
open Classical Spec

/-- The cross product of two points, seen from the origin. -/
def cross (p q : Point) : ℝ := p.1 * q.2 - p.2 * q.1

/-! ### Angles -/

/-- The point is at a distance from the origin and at an angle. -/
def Polar (p : Point) (t : ℝ) : Prop := ∃ r : ℝ, 0 < r ∧ p = (r * Real.cos t, r * Real.sin t)

theorem polar_angle {p : Point} (h : p ≠ 0) : Polar p (angle p) := by
  have hc := Geometry.atan2_cos (y := p.2) (x := p.1)
  have hs := Geometry.atan2_sin (y := p.2) (x := p.1)
  refine ⟨Real.sqrt (p.1 ^ 2 + p.2 ^ 2), Real.sqrt_pos.2 ?_, Prod.ext hc.symm hs.symm⟩
  by_contra hcon
  have h1 : p.1 = 0 := by nlinarith [sq_nonneg p.1, sq_nonneg p.2]
  have h2 : p.2 = 0 := by nlinarith [sq_nonneg p.1, sq_nonneg p.2]
  exact h (Prod.ext h1 h2)

theorem angle_gt (p : Point) : -Real.pi < angle p := Complex.neg_pi_lt_arg _
theorem angle_le (p : Point) : angle p ≤ Real.pi := Complex.arg_le_pi _

theorem polar_add {p : Point} {t : ℝ} (h : Polar p t) (k : ℕ) : Polar p (t + 2 * Real.pi * k) := by
  obtain ⟨r, hr, rfl⟩ := h
  refine ⟨r, hr, ?_⟩
  rw [show t + 2 * Real.pi * k = t + k * (2 * Real.pi) by ring, Real.cos_add_nat_mul_two_pi, Real.sin_add_nat_mul_two_pi]

theorem cross_polar {p q : Point} {s t : ℝ} (hp : Polar p s) (hq : Polar q t) : ∃ r : ℝ, 0 < r ∧ cross p q = r * Real.sin (t - s) := by
  obtain ⟨a, ha, rfl⟩ := hp
  obtain ⟨b, hb, rfl⟩ := hq
  refine ⟨a * b, mul_pos ha hb, ?_⟩
  simp only [cross, Real.sin_sub]
  ring

theorem cross_nonneg {p q : Point} {s t : ℝ} (hp : Polar p s) (hq : Polar q t) (h1 : s ≤ t) (h2 : t ≤ s + Real.pi) : 0 ≤ cross p q := by
  obtain ⟨r, hr, e⟩ := cross_polar hp hq
  rw [e]
  exact mul_nonneg hr.le (Real.sin_nonneg_of_nonneg_of_le_pi (by linarith) (by linarith))

/-- The angle of the corner at the top right. -/
theorem corner_angles {w h : ℝ} (hw : 0 < w) (hh : 0 < h) : ∃ a : ℝ, 0 < a ∧ a < Real.pi / 2 ∧ angle (-w, -h) = a - Real.pi ∧ angle (w, -h) = -a ∧ angle (w, h) = a ∧
    angle (-w, h) = Real.pi - a := by
  have a0 : 0 < angle (w, h) := by
    have : 0 ≤ Complex.arg ⟨w, h⟩ := Complex.arg_nonneg_iff.2 hh.le
    refine lt_of_le_of_ne this fun h0 => ?_
    have := (Complex.arg_eq_zero_iff.1 h0.symm).2
    simp at this
    linarith
  have a1 : angle (w, h) < Real.pi / 2 := by
    have := (Complex.abs_arg_lt_pi_div_two_iff (z := ⟨w, h⟩)).2 (Or.inl hw)
    exact (abs_lt.1 this).2
  have hne : Complex.arg ⟨w, h⟩ ≠ Real.pi := by
    have : Complex.arg ⟨w, h⟩ = angle (w, h) := rfl
    rw [this]; intro h'; linarith [Real.pi_pos]
  have e1 : angle (w, -h) = -angle (w, h) := by
    have := Complex.arg_conj (⟨w, h⟩ : ℂ)
    rw [if_neg hne] at this
    exact this
  refine ⟨angle (w, h), a0, a1, ?_, e1, rfl, ?_⟩
  · have := Complex.arg_neg_eq_arg_sub_pi_of_im_pos (x := ⟨w, h⟩) hh
    exact this
  · have := Complex.arg_neg_eq_arg_add_pi_of_im_neg (x := ⟨w, -h⟩) (by simpa using hh)
    have e2 : -(⟨w, -h⟩ : ℂ) = ⟨-w, h⟩ := by apply Complex.ext <;> simp
    rw [e2] at this
    have e3 : angle (-w, h) = angle (w, -h) + Real.pi := this
    rw [e3, e1]; ring

theorem corner_ne {w h : ℝ} (hw : 0 < w) (i : Nat) : corner w h i ≠ 0 := by
  intro hc
  have := congrArg Prod.fst hc
  revert this
  unfold corner
  split <;> simp <;> intro h' <;> linarith

theorem corner_polar {w h : ℝ} (hw : 0 < w) (i : Nat) : Polar (corner w h i) (cornerAngle w h i) := polar_add (polar_angle (corner_ne hw i)) _

/-- The point is on one side of the grid. -/
def Side (w h : ℝ) (i : Nat) (p : Point) : Prop :=
  match i % 4 with
  | 1 => p.2 = -h ∧ |p.1| ≤ w
  | 2 => p.1 = w ∧ |p.2| ≤ h
  | 3 => p.2 = h ∧ |p.1| ≤ w
  | _ => p.1 = -w ∧ |p.2| ≤ h

theorem mod4 (i : Nat) : i % 4 = 0 ∨ i % 4 = 1 ∨ i % 4 = 2 ∨ i % 4 = 3 := by omega

theorem side_corner {w h : ℝ} (hw : 0 < w) (hh : 0 < h) (i : Nat) : Side w h i (corner w h i) ∧ Side w h (i + 1) (corner w h i) := by
  unfold Side corner
  rcases mod4 i with e | e | e | e
  · rw [e, show (i + 1) % 4 = 1 by omega]; simp [abs_of_pos hw, abs_of_pos hh]
  · rw [e, show (i + 1) % 4 = 2 by omega]; simp [abs_of_pos hw, abs_of_pos hh]
  · rw [e, show (i + 1) % 4 = 3 by omega]; simp [abs_of_pos hw, abs_of_pos hh]
  · rw [e, show (i + 1) % 4 = 0 by omega]; simp [abs_of_pos hw, abs_of_pos hh]

theorem side_onGrid {w h : ℝ} (hw : 0 < w) (hh : 0 < h) {i : Nat} {p : Point} (hs : Side w h i p) : OnGrid w h p := by
  unfold Side at hs
  rcases mod4 i with e | e | e | e <;> rw [e] at hs <;> simp only at hs <;> refine ⟨?_, ?_⟩ <;>
    first | exact hs.2 | (rw [hs.1]; simp [abs_of_pos hw, abs_of_pos hh])

/-- Along one side of the grid, in the direction of increasing angles, the grid is on the left. -/
theorem side_area {w h : ℝ} (hw : 0 < w) (hh : 0 < h) {i : Nat} {p q r : Point} (hp : Side w h i p) (hq : Side w h i q) (hpq : 0 ≤ cross p q) (hr : OnGrid w h r) : 0 ≤ area p q r := by
  obtain ⟨r1, r2⟩ := hr
  rw [abs_le] at r1 r2
  unfold Side at hp hq
  rcases mod4 i with e | e | e | e <;> rw [e] at hp hq <;> simp only at hp hq <;> simp only [cross, hp.1, hq.1, area] at hpq ⊢
  · have : 0 ≤ p.2 - q.2 := by nlinarith
    nlinarith [mul_nonneg this (show 0 ≤ r.1 + w by linarith)]
  · have : 0 ≤ q.1 - p.1 := by nlinarith
    nlinarith [mul_nonneg this (show 0 ≤ r.2 + h by linarith)]
  · have : 0 ≤ q.2 - p.2 := by nlinarith
    nlinarith [mul_nonneg this (show 0 ≤ w - r.1 by linarith)]
  · have : 0 ≤ p.1 - q.1 := by nlinarith
    nlinarith [mul_nonneg this (show 0 ≤ h - r.2 by linarith)]

/-- The angle of the corner before the given one. -/
noncomputable def before (w h : ℝ) (i : Nat) : ℝ := if i = 0 then angle (corner w h 3) - 2 * Real.pi else cornerAngle w h (i - 1)

theorem before_polar {w h : ℝ} (hw : 0 < w) (i : Nat) : Polar (corner w h (i + 3)) (before w h i) := by
  unfold before
  split
  · rename_i h0
    subst h0
    obtain ⟨r, hr, e⟩ := polar_angle (corner_ne (h := h) hw 3)
    refine ⟨r, hr, ?_⟩
    rw [Real.cos_sub_two_pi, Real.sin_sub_two_pi]
    exact e
  · have : corner w h (i + 3) = corner w h (i - 1) := by
      unfold corner
      rw [show (i + 3) % 4 = (i - 1) % 4 by omega]
    rw [this]
    exact corner_polar hw _

/-- From one corner to the next it is less than half a turn. -/
theorem before_bounds {w h : ℝ} (hw : 0 < w) (hh : 0 < h) (i : Nat) : cornerAngle w h i < before w h i + Real.pi ∧ before w h i < cornerAngle w h i := by
  obtain ⟨a, a0, a1, e0, e1, e2, e3⟩ := corner_angles hw hh
  have pi := Real.pi_pos
  have c0 : ∀ k : Nat, cornerAngle w h (4 * k) = a - Real.pi + 2 * Real.pi * k := by
    intro k
    rw [cornerAngle, corner, show 4 * k % 4 = 0 by omega, show 4 * k / 4 = k by omega]
    simp only [e0]
  have c1 : ∀ k : Nat, cornerAngle w h (4 * k + 1) = -a + 2 * Real.pi * k := by
    intro k
    rw [cornerAngle, corner, show (4 * k + 1) % 4 = 1 by omega, show (4 * k + 1) / 4 = k by omega]
    simp only [e1]
  have c2 : ∀ k : Nat, cornerAngle w h (4 * k + 2) = a + 2 * Real.pi * k := by
    intro k
    rw [cornerAngle, corner, show (4 * k + 2) % 4 = 2 by omega, show (4 * k + 2) / 4 = k by omega]
    simp only [e2]
  have c3 : ∀ k : Nat, cornerAngle w h (4 * k + 3) = Real.pi - a + 2 * Real.pi * k := by
    intro k
    rw [cornerAngle, corner, show (4 * k + 3) % 4 = 3 by omega, show (4 * k + 3) / 4 = k by omega]
    simp only [e3]
  have hb : ∀ k, k ≠ 0 → before w h k = cornerAngle w h (k - 1) := fun k hk => if_neg hk
  obtain ⟨k, rfl | rfl | rfl | rfl⟩ : ∃ k, i = 4 * k ∨ i = 4 * k + 1 ∨ i = 4 * k + 2 ∨ i = 4 * k + 3 := ⟨i / 4, by omega⟩
  · rcases Nat.eq_zero_or_pos k with rfl | hk
    · have : before w h (4 * 0) = Real.pi - a - 2 * Real.pi := by
        rw [before, if_pos rfl]
        simp only [corner, e3]
      rw [this, c0]
      push_cast
      constructor <;> linarith
    · obtain ⟨j, rfl⟩ : ∃ j, k = j + 1 := ⟨k - 1, by omega⟩
      rw [hb _ (by omega), c0, show 4 * (j + 1) - 1 = 4 * j + 3 by omega, c3]
      push_cast
      constructor <;> linarith
  · rw [hb _ (by omega), c1, show 4 * k + 1 - 1 = 4 * k by omega, c0]
    constructor <;> linarith
  · rw [hb _ (by omega), c2, show 4 * k + 2 - 1 = 4 * k + 1 by omega, c1]
    constructor <;> linarith
  · rw [hb _ (by omega), c3, show 4 * k + 3 - 1 = 4 * k + 2 by omega, c2]
    constructor <;> linarith

theorem before_succ (w h : ℝ) (i : Nat) : before w h (i + 1) = cornerAngle w h i := by rw [before, if_neg (by omega)]; rfl

theorem cornerAngle_mono {w h : ℝ} (hw : 0 < w) (hh : 0 < h) (i : Nat) : cornerAngle w h i < cornerAngle w h (i + 1) := by
  have := (before_bounds hw hh (i + 1)).2
  rwa [before_succ] at this

theorem before_zero {w h : ℝ} (hw : 0 < w) (hh : 0 < h) : before w h 0 < -Real.pi := by
  obtain ⟨a, a0, a1, e0, e1, e2, e3⟩ := corner_angles hw hh
  rw [before, if_pos rfl]
  simp only [corner, e3]
  linarith

/-- The angles of the corners grow without bound: the twelfth is more than two turns on. -/
theorem cornerAngle_far {w h : ℝ} (hw : 0 < w) (hh : 0 < h) {t : ℝ} (ht : t ≤ 3 * Real.pi) : t < cornerAngle w h 12 := by
  obtain ⟨a, a0, a1, e0, e1, e2, e3⟩ := corner_angles hw hh
  have : cornerAngle w h 12 = a - Real.pi + 2 * Real.pi * 3 := by
    rw [cornerAngle, corner]
    simp only [Nat.reduceMod, e0, Nat.reduceDiv]
    norm_num
  rw [this]
  linarith [Real.pi_pos]

/-- The projection of a point between two corners is farther away in the same direction, on the side between the corners. -/
theorem projection_spec {w h : ℝ} (hw : 0 < w) (hh : 0 < h) {p : Point} {t : ℝ} (hp : Polar p t) (hg : OnGrid w h p) {i : Nat} (h1 : before w h i ≤ t) (h2 : t ≤ cornerAngle w h i) :
    (∃ s, 1 ≤ s ∧ projection w h p i = (s * p.1, s * p.2)) ∧ Side w h i (projection w h p i) := by
  have hb := before_bounds hw hh i
  have k1 := cross_nonneg (before_polar hw i) hp h1 (by linarith)
  have k2 := cross_nonneg hp (corner_polar (h := h) hw i) h2 (by linarith)
  have hne : p.1 ≠ 0 ∨ p.2 ≠ 0 := by
    obtain ⟨r, hr, rfl⟩ := hp
    by_contra hcon
    push Not at hcon
    obtain ⟨c1, c2⟩ := hcon
    have := Real.cos_sq_add_sin_sq t
    rcases mul_eq_zero.1 c1 with h | h
    · linarith
    rcases mul_eq_zero.1 c2 with h' | h'
    · linarith
    rw [h, h'] at this
    norm_num at this
  obtain ⟨g1, g2⟩ := hg
  obtain ⟨x, y⟩ := p
  rw [abs_le] at g1 g2
  simp only at g1 g2 hne
  unfold corner cross at k1 k2
  unfold projection Side
  rcases mod4 i with e | e | e | e
  · rw [show (i + 3) % 4 = 3 by omega] at k1
    rw [e] at k2 ⊢
    simp only at k1 k2 ⊢
    have hx : x < 0 := by
      by_contra hx
      rw [not_lt] at hx
      have : h * x = 0 := by nlinarith
      have hx0 : x = 0 := (mul_eq_zero.1 this).resolve_left hh.ne'
      rw [hx0] at k1 k2
      have : y = 0 := by nlinarith
      simp [hx0, this] at hne
    refine ⟨⟨-w / x, ?_, ?_⟩, trivial, ?_⟩
    · rw [le_div_iff_of_neg hx]; linarith
    · rw [div_mul_cancel₀ _ hx.ne]; congr 1; ring
    · rw [abs_le, le_div_iff_of_neg hx, div_le_iff_of_neg hx]; constructor <;> nlinarith
  · rw [show (i + 3) % 4 = 0 by omega] at k1
    rw [e] at k2 ⊢
    simp only at k1 k2 ⊢
    have hy : y < 0 := by
      by_contra hy
      rw [not_lt] at hy
      have : w * y = 0 := by nlinarith
      have hy0 : y = 0 := (mul_eq_zero.1 this).resolve_left hw.ne'
      rw [hy0] at k1 k2
      have : x = 0 := by nlinarith
      simp [hy0, this] at hne
    refine ⟨⟨-h / y, ?_, ?_⟩, trivial, ?_⟩
    · rw [le_div_iff_of_neg hy]; linarith
    · rw [div_mul_cancel₀ _ hy.ne]; congr 1; ring
    · rw [abs_le, le_div_iff_of_neg hy, div_le_iff_of_neg hy]; constructor <;> nlinarith
  · rw [show (i + 3) % 4 = 1 by omega] at k1
    rw [e] at k2 ⊢
    simp only at k1 k2 ⊢
    have hx : 0 < x := by
      by_contra hx
      rw [not_lt] at hx
      have : h * x = 0 := by nlinarith
      have hx0 : x = 0 := (mul_eq_zero.1 this).resolve_left hh.ne'
      rw [hx0] at k1 k2
      have : y = 0 := by nlinarith
      simp [hx0, this] at hne
    refine ⟨⟨w / x, ?_, ?_⟩, trivial, ?_⟩
    · rw [le_div_iff₀ hx]; linarith
    · rw [div_mul_cancel₀ _ hx.ne']; congr 1; ring
    · rw [abs_le, le_div_iff₀ hx, div_le_iff₀ hx]; constructor <;> nlinarith
  · rw [show (i + 3) % 4 = 2 by omega] at k1
    rw [e] at k2 ⊢
    simp only at k1 k2 ⊢
    have hy : 0 < y := by
      by_contra hy
      rw [not_lt] at hy
      have : w * y = 0 := by nlinarith
      have hy0 : y = 0 := (mul_eq_zero.1 this).resolve_left hw.ne'
      rw [hy0] at k1 k2
      have : x = 0 := by nlinarith
      simp [hy0, this] at hne
    refine ⟨⟨h / y, ?_, ?_⟩, trivial, ?_⟩
    · rw [le_div_iff₀ hy]; linarith
    · rw [div_mul_cancel₀ _ hy.ne']; congr 1; ring
    · rw [abs_le, le_div_iff₀ hy, div_le_iff₀ hy]; constructor <;> nlinarith

/-! ### The loops -/

theorem seek_ends {w h t : ℝ} (hw : 0 < w) (hh : 0 < h) (ht : t ≤ 3 * Real.pi) : ∀ n i : Nat, i + n = 12 → before w h i ≤ t →
    ∃ j, seek w h t i = some j ∧ before w h j ≤ t ∧ t < cornerAngle w h j ∧ j ≤ 12 := by
  intro n
  induction n with
  | zero =>
    intro i hi hb
    obtain rfl : i = 12 := by omega
    have := cornerAngle_far hw hh ht
    exact ⟨12, by rw [seek.eq_1, if_neg (not_le.2 this)], hb, this, le_rfl⟩
  | succ n ih =>
    intro i hi hb
    rw [seek.eq_1]
    by_cases hc : cornerAngle w h i ≤ t
    · rw [if_pos hc]
      exact ih (i + 1) (by omega) (by rw [before_succ]; exact hc)
    · rw [if_neg hc]
      exact ⟨i, rfl, hb, not_le.1 hc, by omega⟩

/-- Consecutive points of a list. -/
def Steps (P : Point → Point → Prop) : List Point → Prop
  | [] => True
  | [_] => True
  | p :: q :: l => P p q ∧ Steps P (q :: l)

theorem between_ends {w h t : ℝ} (hw : 0 < w) (hh : 0 < h) (ht : t ≤ 3 * Real.pi) : ∀ n i : Nat, i + n = 12 → before w h i ≤ t →
    ∃ cs j, between w h t i = some (cs, j) ∧ before w h j ≤ t ∧ t ≤ cornerAngle w h j ∧
      (∀ c ∈ cs, ∃ k, c = corner w h k ∧ cornerAngle w h i ≤ cornerAngle w h k ∧ cornerAngle w h k < t) ∧
      ∀ (x y : Point) (s : ℝ), Polar x s → Polar y t → s ≤ cornerAngle w h i → s ≤ t → t ≤ s + Real.pi → Side w h i x → Side w h j y →
        Steps (fun p q => 0 ≤ cross p q ∧ ∃ k, Side w h k p ∧ Side w h k q) (x :: cs ++ [y]) := by
  intro n
  induction n with
  | zero =>
    intro i hi hb
    obtain rfl : i = 12 := by omega
    have := cornerAngle_far hw hh ht
    refine ⟨[], 12, by rw [between.eq_1, if_neg (not_lt.2 this.le)], hb, this.le, by simp, ?_⟩
    intro x y s hx hy h1 h2 h3 h4 h5
    exact ⟨⟨cross_nonneg hx hy h2 h3, 12, h4, h5⟩, trivial⟩
  | succ n ih =>
    intro i hi hb
    rw [between.eq_1]
    by_cases hc : cornerAngle w h i < t
    · rw [if_pos hc]
      obtain ⟨cs, j, e1, e2, e3, e4, e5⟩ := ih (i + 1) (by omega) (by rw [before_succ]; exact hc.le)
      refine ⟨corner w h i :: cs, j, by rw [e1]; rfl, e2, e3, ?_, ?_⟩
      · intro c hcm
        rcases List.mem_cons.1 hcm with rfl | hcm
        · exact ⟨i, rfl, le_rfl, hc⟩
        · obtain ⟨k, k1, k2, k3⟩ := e4 c hcm
          exact ⟨k, k1, (cornerAngle_mono hw hh i).le.trans k2, k3⟩
      · intro x y s hx hy h1 h2 h3 h4 h5
        have hs := side_corner hw hh i
        have hp := corner_polar (h := h) hw i
        refine ⟨⟨cross_nonneg hx hp h1 (by linarith), i, h4, hs.1⟩, ?_⟩
        exact e5 (corner w h i) y (cornerAngle w h i) hp hy (cornerAngle_mono hw hh i).le hc.le (by linarith) hs.2 h5
    · rw [if_neg hc]
      refine ⟨[], i, rfl, hb, not_lt.1 hc, by simp, ?_⟩
      intro x y s hx hy h1 h2 h3 h4 h5
      exact ⟨⟨cross_nonneg hx hy h2 h3, i, h4, h5⟩, trivial⟩

/-! ### The extreme points -/

theorem firstMin_spec (f : Point → ℝ) (p : Point) (ps : List Point) : firstMin f p ps ∈ p :: ps ∧ ∀ q ∈ p :: ps, f (firstMin f p ps) ≤ f q := by
  induction ps generalizing p with
  | nil => simp [firstMin]
  | cons x ps ih =>
    have e : firstMin f p (x :: ps) = firstMin f (if f x < f p then x else p) ps := rfl
    rw [e]
    obtain ⟨h1, h2⟩ := ih (if f x < f p then x else p)
    have h3 := h2 _ (List.mem_cons_self ..)
    constructor
    · rcases List.mem_cons.1 h1 with h | h
      · rw [h]; split <;> simp
      · simp [h]
    · intro q hq
      rcases List.mem_cons.1 hq with rfl | hq
      · refine h3.trans ?_; split <;> linarith
      rcases List.mem_cons.1 hq with rfl | hq
      · refine h3.trans ?_; split <;> linarith
      · exact h2 q (by simp [hq])

theorem lastMax_spec (f : Point → ℝ) (p : Point) (ps : List Point) : lastMax f p ps ∈ p :: ps ∧ ∀ q ∈ p :: ps, f q ≤ f (lastMax f p ps) := by
  induction ps generalizing p with
  | nil => simp [lastMax]
  | cons x ps ih =>
    have e : lastMax f p (x :: ps) = lastMax f (if f x < f p then p else x) ps := rfl
    rw [e]
    obtain ⟨h1, h2⟩ := ih (if f x < f p then p else x)
    have h3 := h2 _ (List.mem_cons_self ..)
    constructor
    · rcases List.mem_cons.1 h1 with h | h
      · rw [h]; split <;> simp
      · simp [h]
    · intro q hq
      rcases List.mem_cons.1 hq with rfl | hq
      · refine le_trans ?_ h3; split <;> linarith
      rcases List.mem_cons.1 hq with rfl | hq
      · refine le_trans ?_ h3; split <;> linarith
      · exact h2 q (by simp [hq])

theorem cos_cases {d : ℝ} (h : 0 < Real.cos d) :
    d < -(3 * Real.pi / 2) ∨ (-(Real.pi / 2) < d ∧ d < Real.pi / 2) ∨ 3 * Real.pi / 2 < d := by
  have pi := Real.pi_pos
  by_contra hcon
  push Not at hcon
  obtain ⟨a, b, c⟩ := hcon
  have key : ∀ x, Real.pi / 2 ≤ x → x ≤ 3 * Real.pi / 2 → Real.cos x ≤ 0 := fun x hx1 hx2 => Real.cos_nonpos_of_pi_div_two_le_of_le hx1 (by linarith)
  by_cases hd : d ≤ -(Real.pi / 2)
  · have := key (-d) (by linarith) (by linarith)
    rw [Real.cos_neg] at this
    linarith
  · have := key d (b (not_le.1 hd)) c
    linarith

theorem dot_polar {d p : Point} {s t : ℝ} (hd : Polar d s) (hp : Polar p t) (h : 0 < d.1 * p.1 + d.2 * p.2) : 0 < Real.cos (t - s) := by
  obtain ⟨a, ha, rfl⟩ := hd
  obtain ⟨b, hb, rfl⟩ := hp
  have : a * Real.cos s * (b * Real.cos t) + a * Real.sin s * (b * Real.sin t) = a * b * Real.cos (t - s) := by
    rw [Real.cos_sub]; ring
  simp only at h
  rw [this] at h
  exact (pos_iff_pos_of_mul_pos h).1 (mul_pos ha hb)

theorem adjust_range {t : ℝ} (h1 : -Real.pi < t) (h2 : t ≤ Real.pi) : 0 ≤ adjust t ∧ adjust t < 2 * Real.pi ∧ (t < 0 → adjust t = t + 2 * Real.pi) ∧ (0 ≤ t → adjust t = t) := by
  have pi := Real.pi_pos
  unfold adjust
  split <;> refine ⟨by linarith, by linarith, fun h => ?_, fun h => ?_⟩ <;> first | rfl | linarith

theorem adjust_polar {p : Point} (h : p ≠ 0) : Polar p (adjust (angle p)) := by
  unfold adjust
  split
  · have := polar_add (polar_angle h) 1
    simpa using this
  · exact polar_angle h

/-- The smallest and the largest angle are less than half a turn apart, and all points are between them. -/
theorem minMax_spec {p : Point} {ps : List Point} (hap : Apart (p :: ps)) :
    (minMax p ps).1 ∈ p :: ps ∧ (minMax p ps).2 ∈ p :: ps ∧
    (∃ lo hi : ℝ, lo = angle (minMax p ps).1 ∧ hi = (if lo > angle (minMax p ps).2 then angle (minMax p ps).2 + 2 * Real.pi else angle (minMax p ps).2) ∧ lo ≤ hi ∧ hi < lo + Real.pi) ∧
    ∀ q ∈ p :: ps, 0 ≤ cross (minMax p ps).1 q ∧ 0 ≤ cross q (minMax p ps).2 := by
  obtain ⟨d, hd⟩ := hap
  have pi := Real.pi_pos
  have hne : ∀ q ∈ p :: ps, q ≠ 0 := by
    rintro q hq rfl
    have := hd _ hq
    simp at this
  have hdne : d ≠ 0 := by
    rintro rfl
    have := hd p (by simp)
    simp at this
  unfold minMax
  by_cases hc : angle (lastMax angle p ps) - angle (firstMin angle p ps) > Real.pi
  · simp only [if_pos hc]
    obtain ⟨a1, a2⟩ := firstMin_spec (fun q => adjust (angle q)) p ps
    obtain ⟨b1, b2⟩ := lastMax_spec (fun q => adjust (angle q)) p ps
    -- the two points that are far apart in the first range
    obtain ⟨lo1, -⟩ := firstMin_spec angle p ps
    obtain ⟨hi1, -⟩ := lastMax_spec angle p ps
    generalize lastMax angle p ps = u at *
    generalize firstMin angle p ps = v at *
    generalize firstMin (fun q => adjust (angle q)) p ps = a at *
    generalize lastMax (fun q => adjust (angle q)) p ps = b at *
    have ru := adjust_range (angle_gt u) (angle_le u)
    have rv := adjust_range (angle_gt v) (angle_le v)
    have au := angle_gt u
    have au' := angle_le u
    have av := angle_gt v
    have av' := angle_le v
    have eu := ru.2.2.2 (by linarith)
    have ev := rv.2.2.1 (by linarith)
    have rd := adjust_range (angle_gt d) (angle_le d)
    have win : ∀ q ∈ p :: ps, adjust (angle q) - adjust (angle d) < -(3 * Real.pi / 2) ∨
        (-(Real.pi / 2) < adjust (angle q) - adjust (angle d) ∧ adjust (angle q) - adjust (angle d) < Real.pi / 2) ∨ 3 * Real.pi / 2 < adjust (angle q) - adjust (angle d) := by
      intro q hq
      exact cos_cases (dot_polar (adjust_polar hdne) (adjust_polar (hne q hq)) (hd q hq))
    have wu := win u hi1
    have wv := win v lo1
    have span : ∀ x ∈ p :: ps, ∀ y ∈ p :: ps, adjust (angle x) < adjust (angle y) + Real.pi := by
      intro x hx y hy
      have rx := adjust_range (angle_gt x) (angle_le x)
      have ry := adjust_range (angle_gt y) (angle_le y)
      have wx := win x hx
      have wy := win y hy
      by_contra hcon
      rw [not_lt] at hcon
      rw [eu] at wu
      rw [ev] at wv
      rcases wx with wx | wx | wx <;> rcases wy with wy | wy | wy <;> first | linarith | (rcases wu with wu | wu | wu <;> first | linarith | (rcases wv with wv | wv | wv <;> linarith))
    refine ⟨a1, b1, ⟨_, _, rfl, rfl, ?_⟩, ?_⟩
    · have s1 := span b b1 a a1
      have s2 := a2 b b1
      have ra := adjust_range (angle_gt a) (angle_le a)
      have rb := adjust_range (angle_gt b) (angle_le b)
      have ga := angle_gt a
      have gb := angle_gt b
      have la := angle_le a
      have lb := angle_le b
      rcases lt_or_ge (angle a) 0 with na | na <;> rcases lt_or_ge (angle b) 0 with nb | nb
      · rw [ra.2.2.1 na, rb.2.2.1 nb] at s1 s2
        rw [if_neg (by linarith)]
        constructor <;> linarith
      · rw [ra.2.2.1 na, rb.2.2.2 nb] at s1 s2
        linarith
      · rw [ra.2.2.2 na, rb.2.2.1 nb] at s1 s2
        rw [if_pos (by linarith)]
        constructor <;> linarith
      · rw [ra.2.2.2 na, rb.2.2.2 nb] at s1 s2
        rw [if_neg (by linarith)]
        constructor <;> linarith
    · intro q hq
      exact ⟨cross_nonneg (adjust_polar (hne a a1)) (adjust_polar (hne q hq)) (a2 q hq) (span q hq a a1).le,
        cross_nonneg (adjust_polar (hne q hq)) (adjust_polar (hne b b1)) (b2 q hq) (span b b1 q hq).le⟩
  · simp only [if_neg hc]
    obtain ⟨a1, a2⟩ := firstMin_spec angle p ps
    obtain ⟨b1, b2⟩ := lastMax_spec angle p ps
    generalize lastMax angle p ps = b at *
    generalize firstMin angle p ps = a at *
    have hlt : angle b < angle a + Real.pi := by
      refine lt_of_le_of_ne (by linarith) fun he => ?_
      obtain ⟨r, hr, ea⟩ := polar_angle (hne a a1)
      obtain ⟨s, hs, eb⟩ := polar_angle (hne b b1)
      have da := hd a a1
      have db := hd b b1
      rw [he, Real.cos_add_pi, Real.sin_add_pi] at eb
      rw [ea] at da
      rw [eb] at db
      simp only at da db
      have h1 : 0 < d.1 * Real.cos (angle a) + d.2 * Real.sin (angle a) := by
        have : r * (d.1 * Real.cos (angle a) + d.2 * Real.sin (angle a)) > 0 := by linarith
        exact (pos_iff_pos_of_mul_pos this).1 hr
      have h2 := mul_pos hs h1
      linarith
    have hab := a2 b b1
    refine ⟨a1, b1, ⟨_, _, rfl, rfl, ?_⟩, ?_⟩
    · rw [if_neg (by linarith)]
      exact ⟨hab, hlt⟩
    · intro q hq
      have := a2 q hq
      have := b2 q hq
      exact ⟨cross_nonneg (polar_angle (hne a a1)) (polar_angle (hne q hq)) (by assumption) (by linarith),
        cross_nonneg (polar_angle (hne q hq)) (polar_angle (hne b b1)) (by assumption) (by linarith)⟩

/-! ### The shadow -/

theorem steps_of {P : Point → Point → Prop} {L : List Point} (h : Steps P L) {l l' : List Point} {p q : Point} (e : L = l ++ p :: q :: l') : P p q := by
  induction l generalizing L with
  | nil => subst e; exact h.1
  | cons x l ih =>
    subst e
    refine ih ?_ rfl
    cases l with
    | nil => exact h.2
    | cons y l => exact h.2

theorem steps_append {P : Point → Point → Prop} {L : List Point} {x y : Point} (h : Steps P (L ++ [x])) (hp : P x y) : Steps P (L ++ [x, y]) := by
  induction L with
  | nil => exact ⟨hp, trivial⟩
  | cons z L ih =>
    cases L with
    | nil => exact ⟨h.1, hp, trivial⟩
    | cons z' L => exact ⟨h.1, ih h.2⟩

theorem steps_imp {P Q : Point → Point → Prop} (h : ∀ p q, P p q → Q p q) {L : List Point} (hs : Steps P L) : Steps Q L := by
  induction L with
  | nil => trivial
  | cons z L ih =>
    cases L with
    | nil => trivial
    | cons z' L => exact ⟨h _ _ hs.1, ih hs.2⟩

/-- Each corner is the start of an edge. -/
theorem edge_from {ps : List Point} {p : Point} (h : p ∈ ps) : ∃ q, Edge ps p q := by
  obtain ⟨l, l', rfl⟩ := List.append_of_mem h
  cases l' with
  | cons q l' => exact ⟨q, Or.inl ⟨l, l', rfl⟩⟩
  | nil =>
    cases hl : (l ++ [p]).head? with
    | none => simp at hl
    | some q => exact ⟨q, Or.inr ⟨by simp, hl⟩⟩

theorem covers_edge {ps : List Point} (h : coversOrigin ps = true) {p q : Point} (he : Edge ps p q) : cross p q < 0 := by
  rw [← mem_edges] at he
  have := List.all_eq_true.1 h _ he
  have := of_decide_eq_true this
  simp only at this
  unfold cross
  linarith

/-- A point of the grid between two directions is a sum of the two points. -/
theorem inner {w h : ℝ} (hw : 0 < w) (hh : 0 < h) {a b q : Point} (ha : OnGrid w h a) (hb : OnGrid w h b) {k : Nat} (hq : Side w h k q) (h1 : 0 ≤ cross a q) (h2 : 0 ≤ cross q b)
    (hab : 0 ≤ cross a b) (hflat : cross a b = 0 → cross a q = 0 ∧ cross q b = 0) : 0 ≤ area b a q := by
  have e : area b a q = cross q b + cross a q - cross a b := by simp only [area, cross]; ring
  rw [e]
  rcases hab.eq_or_lt with h0 | h0
  · have := hflat h0.symm
    rw [this.1, this.2, ← h0]; norm_num
  · by_contra hcon
    rw [not_le] at hcon
    have x : cross a b * q.1 = cross q b * a.1 + cross a q * b.1 := by simp only [cross]; ring
    have y : cross a b * q.2 = cross q b * a.2 + cross a q * b.2 := by simp only [cross]; ring
    obtain ⟨a1, a2⟩ := ha
    obtain ⟨b1, b2⟩ := hb
    rw [abs_le] at a1 a2 b1 b2
    generalize cross a b = C at *
    generalize cross q b = A at *
    generalize cross a q = B at *
    unfold Side at hq
    rcases mod4 k with e | e | e | e <;> rw [e] at hq <;> simp only at hq
    · rw [hq.1] at x
      nlinarith [mul_nonneg h2 (show 0 ≤ a.1 + w by linarith), mul_nonneg h1 (show 0 ≤ b.1 + w by linarith)]
    · rw [hq.1] at y
      nlinarith [mul_nonneg h2 (show 0 ≤ a.2 + h by linarith), mul_nonneg h1 (show 0 ≤ b.2 + h by linarith)]
    · rw [hq.1] at x
      nlinarith [mul_nonneg h2 (show 0 ≤ w - a.1 by linarith), mul_nonneg h1 (show 0 ≤ w - b.1 by linarith)]
    · rw [hq.1] at y
      nlinarith [mul_nonneg h2 (show 0 ≤ h - a.2 by linarith), mul_nonneg h1 (show 0 ≤ h - b.2 by linarith)]

/-- The shadow of an object between two of its corners. -/
theorem shadow {w h : ℝ} (hw : 0 < w) (hh : 0 < h) (ps : List Point) (hps : ps ≠ []) (hg : ∀ p ∈ ps, OnGrid w h p) (hap : Apart ps) :
    ∃ res a b, hidden w h ps = some res ∧ a ∈ ps ∧ b ∈ ps ∧ (∀ p ∈ ps, 0 ≤ cross a p ∧ 0 ≤ cross p b) ∧ (cross a b = 0 → ∃ s : ℝ, 0 < s ∧ b = (s * a.1, s * a.2)) ∧
      (∀ r, OnGrid w h r → 0 ≤ cross a r → 0 ≤ cross r b → 0 ≤ area b a r → LeftOfEdges res r) ∧
      ∀ q ∈ res, OnGrid w h q ∧ ∃ l : ℝ, 1 ≤ l ∧ ∃ k ∈ Body ps, q = l • k := by
  obtain ⟨p, ps, rfl⟩ := List.exists_cons_of_ne_nil hps
  obtain ⟨ma, mb, ⟨lo, hi, elo, ehi, h1, h2⟩, hcone⟩ := minMax_spec hap
  have hne : ∀ q ∈ p :: ps, q ≠ 0 := by
    obtain ⟨d, hd⟩ := hap
    rintro q hq rfl
    have := hd _ hq
    simp at this
  have hcov : ¬ coversOrigin (p :: ps) = true := by
    intro hc
    obtain ⟨q, hq⟩ := edge_from ma
    have := covers_edge hc hq
    have := (hcone q (edge_mem hq).2).1
    linarith
  rw [hidden, if_neg hcov]
  have lo_le : lo ≤ Real.pi := elo ▸ angle_le _
  have lo_gt : -Real.pi < lo := elo ▸ angle_gt _
  have pi := Real.pi_pos
  have pa : Polar (minMax p ps).1 lo := elo ▸ polar_angle (hne _ ma)
  have pb : Polar (minMax p ps).2 hi := by
    rw [ehi]
    split
    · have := polar_add (polar_angle (hne _ mb)) 1
      simpa using this
    · exact polar_angle (hne _ mb)
  simp only [← elo, ← ehi]
  have ga := hg _ ma
  have gb := hg _ mb
  have hab : 0 ≤ cross (minMax p ps).1 (minMax p ps).2 := (hcone _ mb).1
  generalize (minMax p ps).1 = a at *
  generalize (minMax p ps).2 = b at *
  obtain ⟨i, ei, i1, i2, i3⟩ := seek_ends hw hh (t := lo) (by linarith) 12 0 rfl (by linarith [before_zero hw hh])
  obtain ⟨cs, j, ej, j1, j2, j3, j4⟩ := between_ends hw hh (t := hi) (by linarith) (12 - i) i (by omega) (by linarith)
  obtain ⟨⟨s, s1, es⟩, sa⟩ := projection_spec hw hh pa ga i1 i2.le
  obtain ⟨⟨u, u1, eu⟩, sb⟩ := projection_spec hw hh pb gb j1 j2
  have flat : cross a b = 0 → lo = hi := by
    intro h0
    obtain ⟨r, hr, e⟩ := cross_polar pa pb
    rw [h0] at e
    have h3 := (mul_eq_zero.1 e.symm).resolve_left hr.ne'
    by_contra hlh
    have : 0 < Real.sin (hi - lo) := Real.sin_pos_of_pos_of_lt_pi (by have := lt_of_le_of_ne h1 hlh; linarith) (by linarith)
    linarith
  rw [ei]
  simp only [Option.bind_eq_bind, Option.bind_some]
  rw [ej]
  simp only [Option.bind_some]
  generalize projection w h a i = x at *
  generalize projection w h b j = y at *
  have px : Polar x lo := by
    obtain ⟨r, hr, rfl⟩ := pa
    exact ⟨s * r, mul_pos (by linarith) hr, by rw [es]; simp only [mul_assoc]⟩
  have py : Polar y hi := by
    obtain ⟨r, hr, rfl⟩ := pb
    exact ⟨u * r, mul_pos (by linarith) hr, by rw [eu]; simp only [mul_assoc]⟩
  refine ⟨_, a, b, rfl, ma, mb, hcone, ?_, ?_, ?_⟩
  · intro h0
    have e := flat h0
    rw [← e] at pb
    obtain ⟨r, hr, rfl⟩ := pa
    obtain ⟨r', hr', rfl⟩ := pb
    refine ⟨r' / r, by positivity, ?_⟩
    ext <;> field_simp
  · intro r hr r1 r2 r3
    have path := steps_imp (Q := fun p q => 0 ≤ area p q r) (fun p q hpq => by
      obtain ⟨k1, k, k2, k3⟩ := hpq
      exact side_area hw hh k2 k3 k1 hr) (j4 x y lo px py i2.le h1 h2.le sa sb)
    have all : Steps (fun p q => 0 ≤ area p q r) (a :: x :: cs ++ [y, b]) := by
      refine ⟨?_, ?_⟩
      · have : area a x r = (s - 1) * cross a r := by rw [es]; simp only [area, cross]; ring
        show 0 ≤ area a x r
        rw [this]
        exact mul_nonneg (by linarith) r1
      · have := steps_append (L := x :: cs) (x := y) (y := b) path (by
          have : area y b r = (u - 1) * cross r b := by rw [eu]; simp only [area, cross]; ring
          rw [this]
          exact mul_nonneg (by linarith) r2)
        exact this
    rintro p q (⟨l, l', e⟩ | ⟨e1, e2⟩)
    · exact steps_of all e
    · simp only [List.cons_append, List.head?_cons, Option.some.injEq] at e2
      have e3 : (a :: x :: cs ++ [y, b]).getLast? = some b := by
        rw [List.getLast?_append]; rfl
      rw [e3] at e1
      cases e1
      rw [← e2]
      exact r3
  · have ba : a ∈ Body (p :: ps) := subset_convexHull ℝ _ ma
    have bb : b ∈ Body (p :: ps) := subset_convexHull ℝ _ mb
    intro q hq
    simp only [List.cons_append, List.mem_cons, List.mem_append, List.not_mem_nil, or_false] at hq
    rcases hq with rfl | rfl | hq | rfl | rfl
    · exact ⟨ga, 1, le_rfl, _, ba, (one_smul _ _).symm⟩
    · exact ⟨side_onGrid hw hh sa, s, s1, a, ba, es⟩
    · obtain ⟨k, rfl, k1, k2⟩ := j3 q hq
      have hk := side_corner hw hh k
      have pk := corner_polar (h := h) hw k
      have c1 := cross_nonneg pa pk (by linarith) (by linarith)
      have c2 := cross_nonneg pk pb k2.le (by linarith)
      have c3 := inner hw hh ga gb hk.1 c1 c2 hab fun h0 => by have := flat h0; linarith
      refine ⟨side_onGrid hw hh hk.1, ?_⟩
      have hpos : 0 < cross a b := by
        refine lt_of_le_of_ne hab fun h0 => ?_
        have := flat h0.symm
        linarith
      generalize corner w h k = c at *
      have e : area b a c = cross c b + cross a c - cross a b := by simp only [area, cross]; ring
      rw [e] at c3
      have hsum : 0 < cross c b + cross a c := by linarith
      have x1 : cross a b * c.1 = cross c b * a.1 + cross a c * b.1 := by simp only [cross]; ring
      have x2 : cross a b * c.2 = cross c b * a.2 + cross a c * b.2 := by simp only [cross]; ring
      generalize cross a b = C at *
      generalize cross c b = A at *
      generalize cross a c = B at *
      refine ⟨(A + B) / C, (one_le_div hpos).2 (by linarith), (A / (A + B)) • a + (B / (A + B)) • b, ?_, ?_⟩
      · exact (convex_convexHull ℝ _) ba bb (by positivity) (by positivity) (by field_simp)
      · ext
        · simp only [Prod.smul_fst, Prod.fst_add, smul_eq_mul]
          field_simp
          linarith
        · simp only [Prod.smul_snd, Prod.snd_add, smul_eq_mul]
          field_simp
          linarith
    · exact ⟨side_onGrid hw hh sb, u, u1, b, bb, eu⟩
    · exact ⟨gb, 1, le_rfl, _, bb, (one_smul _ _).symm⟩

/-- C120. The code computes for every object on the grid that does not surround the sensor a polygon on the grid, and every point of the grid that is behind the object is inside this polygon
or is a point of the object. -/
theorem C120_hidden (w h : ℝ) (hw : 0 < w) (hh : 0 < h) (ps : List Point) (hps : ps ≠ []) (hg : ∀ p ∈ ps, OnGrid w h p) (hap : Apart ps) :
    ∃ res, hidden w h ps = some res ∧ (∀ q ∈ res, OnGrid w h q) ∧ ∀ r, OnGrid w h r → Behind (Body ps) r → r ∈ Body ps ∨ LeftOfEdges res r := by
  obtain ⟨res, a, b, e, ma, mb, hcone, hflat, h1, h2⟩ := shadow hw hh ps hps hg hap
  refine ⟨res, e, fun q hq => (h2 q hq).1, ?_⟩
  rintro r hr ⟨t, t0, t1, ht⟩
  have ba : a ∈ Body ps := subset_convexHull ℝ _ ma
  have bb : b ∈ Body ps := subset_convexHull ℝ _ mb
  have cone : ∀ x ∈ Body ps, 0 ≤ cross a x ∧ 0 ≤ cross x b := by
    intro x hx
    refine convexHull_min (s := {p | p ∈ ps}) (t := {x | 0 ≤ cross a x ∧ 0 ≤ cross x b}) hcone ?_ hx
    intro x hx y hy m n hm hn _
    constructor
    · have : cross a (m • x + n • y) = m * cross a x + n * cross a y := by
        simp only [cross, Prod.fst_add, Prod.snd_add, Prod.smul_fst, Prod.smul_snd, smul_eq_mul]; ring
      rw [this]
      exact add_nonneg (mul_nonneg hm hx.1) (mul_nonneg hn hy.1)
    · have : cross (m • x + n • y) b = m * cross x b + n * cross y b := by
        simp only [cross, Prod.fst_add, Prod.snd_add, Prod.smul_fst, Prod.smul_snd, smul_eq_mul]; ring
      rw [this]
      exact add_nonneg (mul_nonneg hm hx.2) (mul_nonneg hn hy.2)
  obtain ⟨d, hd⟩ := hap
  have front : ∀ x ∈ Body ps, 0 < d.1 * x.1 + d.2 * x.2 := by
    intro x hx
    refine convexHull_min (s := {p | p ∈ ps}) (t := {x | 0 < d.1 * x.1 + d.2 * x.2}) hd ?_ hx
    intro x hx y hy m n hm hn hmn
    have e : d.1 * (m • x + n • y).1 + d.2 * (m • x + n • y).2 = m * (d.1 * x.1 + d.2 * x.2) + n * (d.1 * y.1 + d.2 * y.2) := by
      simp only [Prod.fst_add, Prod.snd_add, Prod.smul_fst, Prod.smul_snd, smul_eq_mul]; ring
    rw [Set.mem_ofPred_eq, e]
    rw [Set.mem_ofPred_eq] at hx hy
    rcases hm.eq_or_lt with h0 | h0
    · rw [← h0, show n = 1 by linarith]; linarith
    · have := mul_pos h0 hx
      have := mul_nonneg hn hy.le
      linarith
  obtain ⟨c1, c2⟩ := cone _ ht
  have e1 : cross a (t • r) = t * cross a r := by simp only [cross, Prod.smul_fst, Prod.smul_snd, smul_eq_mul]; ring
  have e2 : cross (t • r) b = t * cross r b := by simp only [cross, Prod.smul_fst, Prod.smul_snd, smul_eq_mul]; ring
  rw [e1] at c1
  rw [e2] at c2
  have r1 : 0 ≤ cross a r := nonneg_of_mul_nonneg_right c1 t0
  have r2 : 0 ≤ cross r b := nonneg_of_mul_nonneg_right c2 t0
  by_cases hc : 0 ≤ area b a r
  · exact Or.inr (h1 r hr r1 r2 hc)
  · left
    rw [not_le] at hc
    have e : area b a r = cross r b + cross a r - cross a b := by simp only [area, cross]; ring
    rw [e] at hc
    have hpos : 0 < cross a b := by linarith
    have x1 : cross a b * r.1 = cross r b * a.1 + cross a r * b.1 := by simp only [cross]; ring
    have x2 : cross a b * r.2 = cross r b * a.2 + cross a r * b.2 := by simp only [cross]; ring
    have hf := front _ ht
    simp only [Prod.smul_fst, Prod.smul_snd, smul_eq_mul] at hf
    have hr0 : 0 < d.1 * r.1 + d.2 * r.2 := by
      have : t * (d.1 * r.1 + d.2 * r.2) > 0 := by linarith
      exact (pos_iff_pos_of_mul_pos this).1 t0
    generalize cross a b = C at *
    generalize cross r b = A at *
    generalize cross a r = B at *
    have hsum : 0 < A + B := by
      refine lt_of_le_of_ne (by linarith) fun h0 => ?_
      have hA : A = 0 := by linarith
      have hB : B = 0 := by linarith
      rw [hA, hB] at x1 x2
      have y1 : r.1 = 0 := by
        have : C * r.1 = 0 := by linarith
        exact (mul_eq_zero.1 this).resolve_left hpos.ne'
      have y2 : r.2 = 0 := by
        have : C * r.2 = 0 := by linarith
        exact (mul_eq_zero.1 this).resolve_left hpos.ne'
      rw [y1, y2] at hr0
      simp at hr0
    -- the point of the line between the two corners in the same direction
    have chord : (C / (A + B)) • r ∈ Body ps := by
      have : (C / (A + B)) • r = (A / (A + B)) • a + (B / (A + B)) • b := by
        ext
        · simp only [Prod.smul_fst, Prod.fst_add, smul_eq_mul]
          field_simp
          linarith
        · simp only [Prod.smul_snd, Prod.snd_add, smul_eq_mul]
          field_simp
          linarith
      rw [this]
      exact (convex_convexHull ℝ _) ba bb (by positivity) (by positivity) (by field_simp)
    have hm : 1 < C / (A + B) := (one_lt_div hsum).2 (by linarith)
    generalize C / (A + B) = m at *
    have := (convex_convexHull ℝ {p | p ∈ ps}) ht chord (a := (m - 1) / (m - t)) (b := (1 - t) / (m - t)) (div_nonneg (by linarith) (by linarith))
      (div_nonneg (by linarith) (by linarith)) (by have : m - t ≠ 0 := by linarith
                                                   field_simp
                                                   ring)
    have hmt : m - t ≠ 0 := by linarith
    have e3 : ((m - 1) / (m - t)) • t • r + ((1 - t) / (m - t)) • m • r = r := by
      rw [smul_smul, smul_smul, ← add_smul]
      have : (m - 1) / (m - t) * t + (1 - t) / (m - t) * m = 1 := by field_simp; ring
      rw [this, one_smul]
    rw [e3] at this
    exact this

/-- C120. Nothing else is made invisible: from the sensor to every point of the polygon one meets the object. -/
theorem C120_only (w h : ℝ) (hw : 0 < w) (hh : 0 < h) (ps : List Point) (hps : ps ≠ []) (hg : ∀ p ∈ ps, OnGrid w h p) (hap : Apart ps) :
    ∃ res, hidden w h ps = some res ∧ ∀ r ∈ Body res, r ∈ Body ps ∨ Behind (Body ps) r := by
  obtain ⟨res, a, b, e, -, -, -, -, -, h2⟩ := shadow hw hh ps hps hg hap
  refine ⟨res, e, ?_⟩
  intro r hr
  have key : ∃ l : ℝ, 1 ≤ l ∧ ∃ k ∈ Body ps, r = l • k := by
    refine convexHull_min (s := {p | p ∈ res}) (t := {r | ∃ l : ℝ, 1 ≤ l ∧ ∃ k ∈ Body ps, r = l • k}) (fun q hq => (h2 q hq).2) ?_ hr
    rintro x ⟨l, hl, k, hk, rfl⟩ y ⟨l', hl', k', hk', rfl⟩ m n hm hn hmn
    have hs : 1 ≤ m * l + n * l' := by nlinarith [mul_nonneg hm (sub_nonneg.2 hl), mul_nonneg hn (sub_nonneg.2 hl')]
    have hp : 0 < m * l + n * l' := by linarith
    refine ⟨m * l + n * l', hs, (m * l / (m * l + n * l')) • k + (n * l' / (m * l + n * l')) • k', ?_, ?_⟩
    · exact (convex_convexHull ℝ _) hk hk' (div_nonneg (mul_nonneg hm (by linarith)) hp.le) (div_nonneg (mul_nonneg hn (by linarith)) hp.le) (by field_simp)
    · rw [smul_add, smul_smul, smul_smul, smul_smul, smul_smul, mul_div_cancel₀ _ hp.ne', mul_div_cancel₀ _ hp.ne']
  obtain ⟨l, hl, k, hk, rfl⟩ := key
  rcases hl.eq_or_lt with h1 | h1
  · left; rw [← h1, one_smul]; exact hk
  · right
    refine ⟨1 / l, by positivity, (div_lt_one (by linarith)).2 h1, ?_⟩
    rw [smul_smul, one_div, inv_mul_cancel₀ (by linarith), one_smul]
    exact hk

/-- C120 is violated by objects that surround the sensor: the check for them never succeeds for a polygon whose first point is repeated at its end, as it is in the rings of the
geometry library. -/
theorem C120_surrounded_violated (p : Point) (ps : List Point) : coversOrigin (p :: ps ++ [p]) = false := by
  rw [← Bool.not_eq_true]
  intro h
  have := covers_edge h (p := p) (q := p) (Or.inr ⟨by rw [List.getLast?_append]; rfl, by simp⟩)
  simp only [cross] at this
  linarith [mul_comm p.1 p.2]

/-- Without the repeated point the same object is found, and the whole grid is invisible. -/
example (w h : ℝ) : hidden w h [(-1, -1), (-1, 1), (1, 1), (1, -1)] = some [(-w, -h), (w, -h), (w, h), (-w, h)] := by
  have : coversOrigin [((-1 : ℝ), (-1 : ℝ)), (-1, 1), (1, 1), (1, -1)] = true := by
    norm_num [coversOrigin]
  rw [hidden, if_pos this]
  rfl

/-- A square to the right of the sensor hides the point behind it. -/
example : ∃ res, hidden 10 10 [(2, -1), (2, 1), (4, 1), (4, -1), (2, -1)] = some res ∧ LeftOfEdges res (8, 0) := by
  obtain ⟨res, h1, -, h2⟩ := C120_hidden 10 10 (by norm_num) (by norm_num) [(2, -1), (2, 1), (4, 1), (4, -1), (2, -1)] (by simp) (by
    intro p hp
    simp only [List.mem_cons, List.not_mem_nil, or_false] at hp
    rcases hp with rfl | rfl | rfl | rfl | rfl <;> norm_num [OnGrid, abs_le]) ⟨(1, 0), by
    intro p hp
    simp only [List.mem_cons, List.not_mem_nil, or_false] at hp
    rcases hp with rfl | rfl | rfl | rfl | rfl <;> norm_num⟩
  refine ⟨res, h1, (h2 (8, 0) (by norm_num [OnGrid]) ⟨3 / 8, by norm_num, by norm_num, ?_⟩).resolve_left ?_⟩
  · have m : ∀ x y : Point, x ∈ Body [(2, -1), (2, 1), (4, 1), (4, -1), (2, -1)] → y ∈ Body [(2, -1), (2, 1), (4, 1), (4, -1), (2, -1)] →
        ((1 : ℝ) / 2) • x + ((1 : ℝ) / 2) • y ∈ Body [(2, -1), (2, 1), (4, 1), (4, -1), (2, -1)] := fun x y hx hy => (convex_convexHull ℝ _) hx hy (by norm_num) (by norm_num) (by norm_num)
    have := m (2, -1) (4, 1) (subset_convexHull ℝ _ (by simp)) (subset_convexHull ℝ _ (by simp))
    convert this using 1
    ext <;> norm_num
  · intro hb
    have := convexHull_min (s := {p | p ∈ [((2 : ℝ), (-1 : ℝ)), (2, 1), (4, 1), (4, -1), (2, -1)]}) (t := {x | x.1 ≤ 4}) (by
      intro p hp
      simp only [Set.mem_ofPred_eq, List.mem_cons, List.not_mem_nil, or_false] at hp
      rcases hp with rfl | rfl | rfl | rfl | rfl <;> norm_num) (by
      intro x hx y hy m n hm hn hmn
      simp only [Set.mem_ofPred_eq, Prod.fst_add, Prod.smul_fst, smul_eq_mul] at hx hy ⊢
      nlinarith) hb
    norm_num at this

end Verif.Grid
