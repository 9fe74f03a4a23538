import Verif.Distance.Model
import Mathlib.Tactic.Linarith
import Mathlib.Algebra.Field.Rat
import Mathlib.Algebra.Order.Ring.Rat
/-
C129: the free space between two entities in a lane.

An entity at `x` occupies the lane from `x + rear` to `x + front` and from `right` to `left`. The distance `d` is that between the reference points.
-/
namespace Verif.Distance

variable {K : Type} [Field K] [LinearOrder K] [IsStrictOrderedRing K]

/-- Where a body begins and ends, along and across the lane. -/
def Box.Along (b : Box K) (x lo hi : K) : Prop := lo = x + (b.cx - b.dx / 2) ∧ hi = x + (b.cx + b.dx / 2)
def Box.Across (b : Box K) (y lo hi : K) : Prop := lo = y + (b.cy - b.dy / 2) ∧ hi = y + (b.cy + b.dy / 2)

/-- The reference point is within the length of the body. -/
def Box.Covers (b : Box K) : Prop := b.cx - b.dx / 2 ≤ 0 ∧ 0 ≤ b.cx + b.dx / 2

/-- The free space to an entity ahead is from the front of the one to the rear of the other; to an entity behind, it is the opposite of that from the
front of the other to the rear of the one. The bodies do not overlap exactly if the sign of the free space is that of the distance. -/
theorem C129_longitudinal_partial (a b : Box K) (ha : a.Covers) (hb : b.Covers) (d alo ahi blo bhi : K) (hA : a.Along 0 alo ahi) (hB : b.Along d blo bhi) :
    (0 < d → boxLongitudinal a b (some d) = some (blo - ahi)) ∧ (d < 0 → boxLongitudinal a b (some d) = some (-(alo - bhi))) ∧
    boxLongitudinal a b none = none := by
  obtain ⟨rfl, rfl⟩ := hA
  obtain ⟨rfl, rfl⟩ := hB
  obtain ⟨a1, a2⟩ := ha
  obtain ⟨b1, b2⟩ := hb
  have e1 : |a.front| = a.cx + a.dx / 2 := by rw [Box.front, abs_of_nonneg] <;> linarith
  have e2 : |b.front| = b.cx + b.dx / 2 := by rw [Box.front, abs_of_nonneg] <;> linarith
  have e3 : |a.rear| = -(a.cx - a.dx / 2) := by rw [Box.rear, abs_of_nonpos] <;> linarith
  have e4 : |b.rear| = -(b.cx - b.dx / 2) := by rw [Box.rear, abs_of_nonpos] <;> linarith
  refine ⟨fun h => ?_, fun h => ?_, rfl⟩
  · simp only [boxLongitudinal, Option.map_some, h, if_true, e1, e4, Option.some.injEq]; linarith
  · simp only [boxLongitudinal, Option.map_some, h, not_lt_of_gt h, if_true, if_false, e2, e3, Option.some.injEq]; linarith

/-- When two bodies overlap, the free space has the sign opposite to the distance, except if the distance is zero: an entity ahead is reported behind, the
farther the more the bodies overlap, and entities at the same place touch. -/
theorem C129_overlap_violated (a b : Box K) (ha : a.Covers) (hb : b.Covers) (d alo ahi blo bhi : K) (hA : a.Along 0 alo ahi) (hB : b.Along d blo bhi) :
    (0 < d → blo < ahi → ∃ x, boxLongitudinal a b (some d) = some x ∧ x < 0) ∧ (d < 0 → alo < bhi → ∃ x, boxLongitudinal a b (some d) = some x ∧ 0 < x) ∧
    (d = 0 → boxLongitudinal a b (some d) = some 0) := by
  have h := C129_longitudinal_partial a b ha hb d alo ahi blo bhi hA hB
  refine ⟨fun h1 h2 => ⟨_, h.1 h1, by linarith⟩, fun h1 h2 => ⟨_, h.2.1 h1, by linarith⟩, ?_⟩
  rintro rfl
  simp [boxLongitudinal]

/-- Likewise across the lane, for bodies whose reference point is in the middle of their width. -/
theorem C129_lateral_partial (a b : Box K) (ha : a.cy = 0) (hb : b.cy = 0) (ha' : 0 ≤ a.dy) (hb' : 0 ≤ b.dy) (d alo ahi blo bhi : K) (hA : a.Across 0 alo ahi)
    (hB : b.Across d blo bhi) : (0 < d → boxLateral a b (some d) = some (blo - ahi)) ∧ (d < 0 → boxLateral a b (some d) = some (-(alo - bhi))) ∧
    boxLateral a b none = none := by
  obtain ⟨rfl, rfl⟩ := hA
  obtain ⟨rfl, rfl⟩ := hB
  have e1 : |a.left| = a.dy / 2 := by rw [Box.left, ha, abs_of_nonneg] <;> linarith
  have e2 : |b.left| = b.dy / 2 := by rw [Box.left, hb, abs_of_nonneg] <;> linarith
  have e3 : |a.right| = a.dy / 2 := by rw [Box.right, ha, abs_of_nonpos] <;> linarith
  have e4 : |b.right| = b.dy / 2 := by rw [Box.right, hb, abs_of_nonpos] <;> linarith
  refine ⟨fun h => ?_, fun h => ?_, rfl⟩
  · simp only [boxLateral, Option.map_some, h, if_true, e2, e3, ha, hb, Option.some.injEq]; linarith
  · simp only [boxLateral, Option.map_some, h, not_lt_of_gt h, if_true, if_false, e1, e4, ha, hb, Option.some.injEq]; linarith

def car : Box ℚ := ⟨1, 0, 4, 2⟩
def wide : Box ℚ := ⟨1, 1/2, 4, 2⟩

example : car.Covers ∧ car.Along 0 (-1) 3 ∧ car.Along 10 9 13 ∧ boxLongitudinal car car (some 10) = some 6 ∧ boxLongitudinal car car (some (-10)) = some (-6) ∧
    car.Along 2 1 5 ∧ boxLongitudinal car car (some 2) = some (-2) := by
  simp only [Box.Covers, Box.Along]; decide +kernel
example : car.cy = 0 ∧ car.Across 0 (-1) 1 ∧ car.Across 5 4 6 ∧ boxLateral car car (some 5) = some 3 ∧ boxLateral car car (some (-5)) = some (-3) := by
  simp only [Box.Across]; decide +kernel

/-- For other bodies the lateral distance is measured between the edges that are away from each other: here 2.5 m are reported as 3.5 m. -/
theorem C129_edges_violated : ∃ (a b : Box ℚ) (d alo ahi blo bhi : ℚ), 0 < d ∧ a.Across 0 alo ahi ∧ b.Across d blo bhi ∧ blo - ahi = 5/2 ∧
    boxLateral a b (some d) = some (7/2) :=
  ⟨wide, car, 5, -1/2, 3/2, 4, 6, by simp only [Box.Across]; decide +kernel⟩

end Verif.Distance
