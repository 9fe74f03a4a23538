import Mathlib.Data.Real.Basic
/-
Lines, cells and polygons, independent of the code.
-/
namespace Verif.Grid.Spec

/-- A point of the plane. -/
abbrev Point := ℝ × ℝ

/-- The point at the time `t` on the way from `p` to `q`, on which one is from 0 to 1. -/
def on (p q : Point) (t : ℝ) : Point := (p.1 + (q.1 - p.1) * t, p.2 + (q.2 - p.2) * t)

/-- One coordinate on the way from `s` to `e` is in the column `k` at the time `t`: not on its border, unless it does not change. -/
def Within (k : ℤ) (s e t : ℝ) : Prop := (k < s + (e - s) * t ∧ s + (e - s) * t < k + 1) ∨ (s = e ∧ k ≤ s ∧ s < k + 1)

/-- The way from `p` to `q` is in the cell at the time `t`. -/
def Goes (c : ℤ × ℤ) (p q : Point) (t : ℝ) : Prop := Within c.1 p.1 q.1 t ∧ Within c.2 p.2 q.2 t

/-- The point is inside the cell, not on its border. -/
def InCell (c : ℤ × ℤ) (p : Point) : Prop := (c.1 < p.1 ∧ p.1 < c.1 + 1) ∧ (c.2 < p.2 ∧ p.2 < c.2 + 1)

/-- The point is inside the cell or on its border. -/
def Touches (c : ℤ × ℤ) (p : Point) : Prop := (c.1 ≤ p.1 ∧ p.1 ≤ c.1 + 1) ∧ (c.2 ≤ p.2 ∧ p.2 ≤ c.2 + 1)

/-- A line may start at a coordinate that is not negative and not a whole number, unless it goes down from there. -/
def Start (s e : ℝ) : Prop := 0 ≤ s ∧ (s < e → ∀ k : ℤ, s ≠ k)

/-- The edges of a polygon, from each corner to the next and from the last to the first. -/
def Edge (ps : List Point) (p q : Point) : Prop :=
  (∃ l l', ps = l ++ p :: q :: l') ∨ (ps.getLast? = some p ∧ ps.head? = some q)

/-- Twice the area of the triangle of two points and a third, negative if the third is to the right of the way from the first to the second. -/
def area (p q r : Point) : ℝ := (q.1 - p.1) * (r.2 - p.2) - (q.2 - p.2) * (r.1 - p.1)

/-- The point is inside a convex polygon, or on its border: it is on the same side of all edges, and between the lowest and the highest corner. -/
def Inside (ps : List Point) (r : Point) : Prop :=
  ((∀ p q, Edge ps p q → area p q r ≤ 0) ∨ (∀ p q, Edge ps p q → 0 ≤ area p q r)) ∧ (∃ p ∈ ps, p.2 < r.2) ∧ ∃ p ∈ ps, r.2 < p.2

end Verif.Grid.Spec
