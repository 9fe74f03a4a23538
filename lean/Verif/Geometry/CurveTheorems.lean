import Verif.Geometry.Spline
import Verif.Geometry.Spec
import Verif.Geometry.SolverTheorems
import Mathlib.Analysis.Calculus.Deriv.Pow
import Mathlib.Analysis.Calculus.Deriv.Mul
import Mathlib.Analysis.Calculus.Deriv.Add
/-
C87 (Hermite curves) and C91 (crossings of a curve with a straight line).
-/
namespace Verif.Geometry
open Classical

/-- **C87** The curve made from two ends and two vectors begins at the first end with the first vector as tangent and ends at the second
end with the second vector. -/
theorem hermite_ends (start goal v0 v1 : Pt) :
    (Curve.hermite start goal v0 v1).point 0 = start ∧ (Curve.hermite start goal v0 v1).point 1 = goal ∧
      (Curve.hermite start goal v0 v1).tangent 0 = v0 ∧ (Curve.hermite start goal v0 v1).tangent 1 = v1 := by
  obtain ⟨x0, y0, z0⟩ := start
  obtain ⟨x1, y1, z1⟩ := goal
  obtain ⟨a, b, c⟩ := v0
  obtain ⟨d, e, f⟩ := v1
  simp only [Curve.hermite, Curve.point, Curve.tangent, Pt.mk.injEq]
  refine ⟨⟨?_, ?_, ?_⟩, ⟨?_, ?_, ?_⟩, ⟨?_, ?_, ?_⟩, ⟨?_, ?_, ?_⟩⟩ <;> ring

/-- **C87** It is the only cubic curve with these ends and tangents. -/
theorem hermite_only (k : Curve) : k = Curve.hermite (k.point 0) (k.point 1) (k.tangent 0) (k.tangent 1) := by
  obtain ⟨⟨ax, ay, az⟩, ⟨bx, by', bz⟩, ⟨cx, cy, cz⟩, ⟨dx, dy, dz⟩⟩ := k
  simp only [Curve.hermite, Curve.point, Curve.tangent, Curve.mk.injEq, Pt.mk.injEq]
  refine ⟨⟨?_, ?_, ?_⟩, ⟨?_, ?_, ?_⟩, ⟨?_, ?_, ?_⟩, ⟨?_, ?_, ?_⟩⟩ <;> ring

theorem cubic_deriv (a b c d s : ℝ) : HasDerivAt (fun s => a * (s * s * s) + b * (s * s) + c * s + d) (3 * a * s * s + 2 * b * s + c) s := by
  have h1 := hasDerivAt_id' s
  have h := ((((h1.mul h1).mul h1).const_mul a).add ((h1.mul h1).const_mul b)).add (h1.const_mul c) |>.add_const d
  exact h.congr_deriv (by simp only [Pi.mul_apply]; ring)

/-- **C87** The tangent is the derivative of the point. -/
theorem tangent_derivative (k : Curve) (s : ℝ) :
    HasDerivAt (fun s => (k.point s).x) (k.tangent s).x s ∧ HasDerivAt (fun s => (k.point s).y) (k.tangent s).y s ∧
      HasDerivAt (fun s => (k.point s).z) (k.tangent s).z s :=
  ⟨cubic_deriv .., cubic_deriv .., cubic_deriv ..⟩

/-- **C87** The normal is level, as long as the tangent seen from above, at a right angle to it and on its left. -/
theorem normal_left (k : Curve) (s : ℝ) :
    (k.normal s).z = 0 ∧ (k.normal s).x = -(k.tangent s).y ∧ (k.normal s).y = (k.tangent s).x := by
  unfold Curve.normal
  simp [Real.cos_pi_div_two, Real.sin_pi_div_two]

example : (Curve.hermite ⟨0, 0, 0⟩ ⟨1, 0, 0⟩ ⟨1, 1, 0⟩ ⟨1, -1, 0⟩).point (1 / 2) = ⟨1 / 2, 1 / 4, 0⟩ := by
  simp only [Curve.hermite, Curve.point, Pt.mk.injEq]; norm_num

/-- A polynomial of degree at most three whose roots the solver of the code finds exactly: with its highest coefficient that is not zero above
1e-7 and, for degree two and three, no discriminant close to zero (`solveQuadratic_partial`, `solveCubic_partial`). -/
def WellPosed (f : ℝ → ℝ) : Prop :=
  ∃ a b c d : ℝ, (∀ t, f t = a * t ^ 3 + b * t ^ 2 + c * t + d) ∧
    ((1 / 10 ^ 7 < |a| ∧ ((cubicGap a b c d ≤ 0 ∧ b ^ 2 ≠ 3 * a * c) ∨ (1 / 10 ^ 7 < cubicGap a b c d ∧ (b / a) ^ 2 - 3 * (c / a) ≤ 9000))) ∨
      (a = 0 ∧ 1 / 10 ^ 7 < |b| ∧ (c ^ 2 - 4 * b * d = 0 ∨ 1 / 10 ^ 7 < |c ^ 2 - 4 * b * d|)) ∨
      (a = 0 ∧ b = 0 ∧ 1 / 10 ^ 7 < |c|) ∨ (a = 0 ∧ b = 0 ∧ c = 0 ∧ 1 / 10 ^ 7 < |d|))

theorem approx_zero : approx 0 0 := by unfold approx tol; norm_num

theorem coefficients_unique {a b c d a' b' c' d' : ℝ}
    (h : ∀ t : ℝ, a * t ^ 3 + b * t ^ 2 + c * t + d = a' * t ^ 3 + b' * t ^ 2 + c' * t + d') : a = a' ∧ b = b' ∧ c = c' ∧ d = d' := by
  have h0 := h 0
  have h1 := h 1
  have h2 := h (-1)
  have h3 := h 2
  norm_num at h0 h1 h2 h3
  refine ⟨?_, ?_, ?_, ?_⟩ <;> linarith

/-- The solver, given the coefficients of a polynomial of the good kind, is exact. -/
theorem solve_wellPosed {f : ℝ → ℝ} {a b c d : ℝ} (h : WellPosed f) (hf : ∀ t, f t = a * t ^ 3 + b * t ^ 2 + c * t + d) :
    ¬ (approx a 0 ∧ approx b 0 ∧ approx c 0 ∧ approx d 0) ∧ ∃ l, solveCubic a b c d 0 1 = some l ∧ ∀ x, x ∈ l ↔ Wanted f 0 1 x := by
  obtain ⟨a', b', c', d', hf', hc⟩ := h
  obtain ⟨rfl, rfl, rfl, rfl⟩ := coefficients_unique fun t => (hf t).symm.trans (hf' t)
  have hff : f = fun t => a * t ^ 3 + b * t ^ 2 + c * t + d := funext hf
  have hr : (0 : ℝ) + 1 / 10 ^ 7 < 1 := by norm_num
  rcases hc with ⟨ha, hg⟩ | ⟨rfl, hb, hg⟩ | ⟨rfl, rfl, hc⟩ | ⟨rfl, rfl, rfl, hd⟩
  · refine ⟨fun h => not_approx ha h.1, ?_⟩
    rw [hff]; exact solveCubic_partial a b c d 0 1 ha hr hg
  · refine ⟨fun h => not_approx hb h.2.1, ?_⟩
    have := solveQuadratic_partial b c d 0 1 hb hr hg
    unfold solveCubic
    rw [if_pos approx_zero, hff]
    simpa using this
  · refine ⟨fun h => not_approx hc h.2.2.1, ?_⟩
    have := solveLinear_exact c d 0 1 hc hr
    unfold solveCubic solveQuadratic
    rw [if_pos approx_zero, if_pos approx_zero, hff]
    simpa using this
  · refine ⟨fun h => not_approx hd h.2.2.2, [], ?_, ?_⟩
    · unfold solveCubic solveQuadratic solveLinear
      rw [if_pos approx_zero, if_pos approx_zero, if_pos approx_zero, if_neg (not_approx hd)]
      rfl
    · intro x
      simp only [List.not_mem_nil, false_iff]
      have hd0 := ne_of_tol hd
      rintro (⟨-, -, h⟩ | ⟨-, y, h, -⟩ | ⟨-, y, h, -⟩) <;> rw [hf] at h <;> apply hd0 <;> linarith

theorem area_cubic (k : Curve) (p0 p1 : Pt) (t : ℝ) :
    area p0 p1 (k.point t) = (k.a.y * (p1.x - p0.x) - k.a.x * (p1.y - p0.y)) * t ^ 3 + (k.b.y * (p1.x - p0.x) - k.b.x * (p1.y - p0.y)) * t ^ 2 +
      (k.c.y * (p1.x - p0.x) - k.c.x * (p1.y - p0.y)) * t +
      (k.d.y * (p1.x - p0.x) - k.d.x * (p1.y - p0.y) - (p1.x - p0.x) * p0.y + (p1.y - p0.y) * p0.x) := by
  unfold area Curve.point; ring

/-- On the line through the two points, the test of the code decides whether the point is between them. -/
theorem accepts_iff (k : Curve) (p0 p1 : Pt) (s : ℝ) (h : area p0 p1 (k.point s) = 0) (hne : p0.x ≠ p1.x ∨ p0.y ≠ p1.y) :
    k.accepts p0 p1 s ↔ OnSegment p0 p1 (k.point s) := by
  unfold Curve.accepts OnSegment
  unfold area at h
  generalize k.point s = p at *
  simp only
  have he : (0 : ℝ) < eps := by unfold eps; positivity
  by_cases hx : p1.x - p0.x = 0
  · have hy : p1.y - p0.y ≠ 0 := by
      rcases hne with h | h
      · exact absurd (by linarith) h
      · intro h'; apply h; linarith
    have hpx : p.x = p0.x := by
      rw [hx] at h
      have : (p1.y - p0.y) * (p.x - p0.x) = 0 := by linarith
      rcases mul_eq_zero.mp this with h | h
      · exact absurd h hy
      · linarith
    simp only [share, hx, hy, if_true, if_false, inUnit, false_or]
    constructor
    · rintro ⟨h0, h1⟩
      refine ⟨_, h0, h1, by rw [mul_zero]; linarith, ?_⟩
      rw [div_mul_cancel₀ _ hy]; ring
    · rintro ⟨t, h0, h1, -, h3⟩
      have : (p.y - p0.y) / (p1.y - p0.y) = t := by rw [div_eq_iff hy]; linarith
      rw [this]; exact ⟨h0, h1⟩
  · by_cases hy : p1.y - p0.y = 0
    · have hpy : p.y = p0.y := by
        rw [hy] at h
        have : (p1.x - p0.x) * (p.y - p0.y) = 0 := by linarith
        rcases mul_eq_zero.mp this with h | h
        · exact absurd h hx
        · linarith
      simp only [share, hx, hy, if_true, if_false, inUnit, or_false]
      constructor
      · rintro ⟨h0, h1⟩
        refine ⟨_, h0, h1, ?_, by rw [mul_zero]; linarith⟩
        rw [div_mul_cancel₀ _ hx]; ring
      · rintro ⟨t, h0, h1, h2, -⟩
        have : (p.x - p0.x) / (p1.x - p0.x) = t := by rw [div_eq_iff hx]; linarith
        rw [this]; exact ⟨h0, h1⟩
    · have e : (p.x - p0.x) / (p1.x - p0.x) = (p.y - p0.y) / (p1.y - p0.y) := by
        rw [div_eq_div_iff hx hy]; linarith
      simp only [share, hx, hy, if_false, inUnit]
      rw [← e, sub_self, abs_zero, if_neg (not_lt.mpr he.le)]
      constructor
      · rintro ⟨⟨h0, h1⟩, -⟩
        refine ⟨_, h0, h1, ?_, ?_⟩
        · rw [div_mul_cancel₀ _ hx]; ring
        · rw [e, div_mul_cancel₀ _ hy]; ring
      · rintro ⟨t, h0, h1, h2, -⟩
        have : (p.x - p0.x) / (p1.x - p0.x) = t := by rw [div_eq_iff hx]; linarith
        rw [this]; exact ⟨⟨h0, h1⟩, h0, h1⟩

theorem area_of_onSegment {p0 p1 p : Pt} (h : OnSegment p0 p1 p) : area p0 p1 p = 0 := by
  obtain ⟨t, -, -, hx, hy⟩ := h
  unfold area; rw [hx, hy]; ring

/-- `none` means that all coefficients are close to zero. -/
theorem solveCubic_defined {a b c d lo hi : ℝ} (h : ¬ (approx a 0 ∧ approx b 0 ∧ approx c 0 ∧ approx d 0)) :
    ∃ l, solveCubic a b c d lo hi = some l := by
  unfold solveCubic
  split
  · unfold solveQuadratic
    split
    · unfold solveLinear
      split
      · split
        · exact absurd ⟨by assumption, by assumption, by assumption, by assumption⟩ h
        · exact ⟨_, rfl⟩
      · exact ⟨_, rfl⟩
    · exact ⟨_, rfl⟩
  · exact ⟨_, rfl⟩

/-- **C91** The search for crossings never throws. -/
theorem collisions_defined (k : Curve) (p0 p1 : Pt) (backward : Bool) : ∃ l, k.collisions p0 p1 backward = some l := by
  unfold Curve.collisions Curve.solutions
  simp only
  split
  · exact ⟨_, rfl⟩
  · obtain ⟨l, hl⟩ := solveCubic_defined (lo := 0) (hi := 1) (by assumption)
    rw [hl]; exact ⟨_, rfl⟩

/-- **C91** The crossings that a curve reports with the straight line between two points: a place strictly between the ends of the curve is
reported exactly if it is on the line seen from above, and the two ends are reported if they are on the line. Every reported place is on the
curve. Missing: an end is also reported if the curve, continued by at most 1e-7, meets the line; polynomials that are not `WellPosed`
(`collisions_overlap_violated`). -/
theorem collisions_partial (k : Curve) (p0 p1 : Pt) (backward : Bool) (hne : p0.x ≠ p1.x ∨ p0.y ≠ p1.y)
    (h : WellPosed fun t => area p0 p1 (k.point t)) :
    ∃ l, k.collisions p0 p1 backward = some l ∧ (∀ s, 0 < s → s < 1 → (s ∈ l ↔ OnSegment p0 p1 (k.point s))) ∧
      (∀ s, 0 ≤ s → s ≤ 1 → OnSegment p0 p1 (k.point s) → s ∈ l) ∧ (∀ s ∈ l, 0 ≤ s ∧ s ≤ 1) := by
  obtain ⟨hn, l, hl, hm⟩ := solve_wellPosed h (area_cubic k p0 p1)
  have hs : k.collisions p0 p1 backward = some (l.filter fun s => decide (k.accepts p0 p1 s)) := by
    unfold Curve.collisions Curve.solutions
    simp only
    rw [if_neg hn, hl]; rfl
  refine ⟨_, hs, ?_, ?_, ?_⟩
  · intro s h0 h1
    rw [List.mem_filter, hm, decide_eq_true_eq]
    constructor
    · rintro ⟨hw, ha⟩
      rcases hw with ⟨-, -, hz⟩ | ⟨e, -⟩ | ⟨e, -⟩
      · exact (accepts_iff k p0 p1 s hz hne).mp ha
      · exact absurd e h1.ne
      · exact absurd e h0.ne'
    · intro ho
      have hz := area_of_onSegment ho
      exact ⟨Or.inl ⟨h0.le, h1.le, hz⟩, (accepts_iff k p0 p1 s hz hne).mpr ho⟩
  · intro s h0 h1 ho
    have hz := area_of_onSegment ho
    rw [List.mem_filter, hm, decide_eq_true_eq]
    exact ⟨Or.inl ⟨h0, h1, hz⟩, (accepts_iff k p0 p1 s hz hne).mpr ho⟩
  · intro s hs
    rw [List.mem_filter, hm] at hs
    rcases hs.1 with ⟨h0, h1, -⟩ | ⟨rfl, -⟩ | ⟨rfl, -⟩
    · exact ⟨h0, h1⟩
    · norm_num
    · norm_num

/-- The straight curve from (0, 0) to (2, 0) and the line from (1, -1) to (1, 1) are a case for `collisions_partial`. -/
example : (WellPosed fun t => area ⟨1, -1, 0⟩ ⟨1, 1, 0⟩ ((⟨⟨0, 0, 0⟩, ⟨0, 0, 0⟩, ⟨2, 0, 0⟩, ⟨0, 0, 0⟩⟩ : Curve).point t)) ∧
    OnSegment ⟨1, -1, 0⟩ ⟨1, 1, 0⟩ ((⟨⟨0, 0, 0⟩, ⟨0, 0, 0⟩, ⟨2, 0, 0⟩, ⟨0, 0, 0⟩⟩ : Curve).point (1 / 2)) := by
  constructor
  · refine ⟨0, 0, -4, 2, ?_, Or.inr (Or.inr (Or.inl ⟨rfl, rfl, ?_⟩))⟩
    · intro t; unfold area Curve.point; ring
    · norm_num
  · refine ⟨1 / 2, by norm_num, by norm_num, ?_, ?_⟩ <;> (simp [Curve.point]; try norm_num)

/-- A bent curve, from (0, 0) to (1, 1) with degree three, and the line from (0, 1/8) to (1, 1/8). -/
example : WellPosed fun t => area ⟨0, 1 / 8, 0⟩ ⟨1, 1 / 8, 0⟩ ((⟨⟨0, 1, 0⟩, ⟨0, 0, 0⟩, ⟨1, 0, 0⟩, ⟨0, 0, 0⟩⟩ : Curve).point t) := by
  refine ⟨1, 0, 0, -1 / 8, ?_, Or.inl ⟨by norm_num, Or.inr ⟨?_, ?_⟩⟩⟩
  · intro t; unfold area Curve.point; ring
  · unfold cubicGap; norm_num
  · norm_num

/-- **C91** fails where the curve runs along the line: the straight curve from (0, 0) to (4, 0) runs along the line from (1, 0) to (2, 0), but no
common place is reported in either direction. -/
theorem collisions_overlap_violated :
    ∃ (k : Curve) (p0 p1 : Pt), (∀ s : ℝ, 1 / 4 ≤ s → s ≤ 1 / 2 → OnSegment p0 p1 (k.point s)) ∧
      ∀ backward, k.collisions p0 p1 backward = some [] := by
  refine ⟨⟨⟨0, 0, 0⟩, ⟨0, 0, 0⟩, ⟨4, 0, 0⟩, ⟨0, 0, 0⟩⟩, ⟨1, 0, 0⟩, ⟨2, 0, 0⟩, ?_, ?_⟩
  · intro s h0 h1
    refine ⟨4 * s - 1, by linarith, by linarith, ?_, ?_⟩ <;> simp only [Curve.point] <;> ring
  · intro backward
    have hs : (⟨⟨0, 0, 0⟩, ⟨0, 0, 0⟩, ⟨4, 0, 0⟩, ⟨0, 0, 0⟩⟩ : Curve).solutions ⟨1, 0, 0⟩ ⟨2, 0, 0⟩ backward = some [if backward then 1 else 0] := by
      unfold Curve.solutions
      rw [if_pos]
      norm_num [approx_zero]
    unfold Curve.collisions
    rw [hs]
    cases backward <;> simp [Curve.accepts, share, inUnit, Curve.point] <;> norm_num

end Verif.Geometry
