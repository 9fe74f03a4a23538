import Verif.Geometry.Segment
/-
Vocabulary for the geometric properties, apart from the functions of the model.
-/
namespace Verif.Geometry

/-- Seen from above, `p` is on the closed straight line from `a` to `b`. -/
def OnSegment (a b p : Pt) : Prop :=
  ∃ t : ℝ, 0 ≤ t ∧ t ≤ 1 ∧ p.x = a.x + t * (b.x - a.x) ∧ p.y = a.y + t * (b.y - a.y)

/-- Seen from above, the two closed segments have a point in common. -/
def Meet (l0 l1 : Seg) : Prop := ∃ p, OnSegment l0.start l0.stop p ∧ OnSegment l1.start l1.stop p

/-- Twice the signed area of the triangle `a b p` seen from above: positive if `p` is on the left of the way from `a` to `b`,
negative if it is on the right, zero if the three are on one line. -/
def area (a b p : Pt) : ℝ := (b.x - a.x) * (p.y - a.y) - (b.y - a.y) * (p.x - a.x)

/-- The point is on the line or clearly off it, not within the tolerance of the code. -/
def Clear (a b p : Pt) : Prop := area a b p = 0 ∨ 1 / 2 ^ 52 < |area a b p|

/-- No end of one of the segments is off the line of the other by less than the tolerance of the code. -/
def ClearPair (l0 l1 : Seg) : Prop :=
  Clear l0.start l0.stop l1.start ∧ Clear l0.start l0.stop l1.stop ∧ Clear l1.start l1.stop l0.start ∧ Clear l1.start l1.stop l0.stop

/-- The directions of the two segments, seen from above, span an area above the tolerance of the code. -/
def Slanted (l0 l1 : Seg) : Prop :=
  1 / 2 ^ 52 < |(l0.stop.x - l0.start.x) * (l1.stop.y - l1.start.y) - (l0.stop.y - l0.start.y) * (l1.stop.x - l1.start.x)|

/-- Square of the distance seen from above. -/
def sq2 (p q : Pt) : ℝ := (p.x - q.x) ^ 2 + (p.y - q.y) ^ 2

/-- `p` is on a side of the outline that goes through the points of `ring` in turn. -/
def OnOutline (ring : List Pt) (p : Pt) : Prop :=
  ∃ (i : Nat) (a b : Pt), ring[i]? = some a ∧ ring[i + 1]? = some b ∧ OnSegment a b p

/-- The outlines have no point in common. -/
def Apart (ring0 ring1 : List Pt) : Prop := ∀ p, ¬ (OnOutline ring0 p ∧ OnOutline ring1 p)

/-- A quaternion of length one. -/
def Unit (q : Quat) : Prop := q.x ^ 2 + q.y ^ 2 + q.z ^ 2 + q.w ^ 2 = 1

/-- Half of the way from one point to another. -/
noncomputable def chord (p q : Pt) : Pt := ⟨(q.x - p.x) / 2, (q.y - p.y) / 2, (q.z - p.z) / 2⟩

/-- Neighbours in the list differ. -/
def NoRepeat (l : List Pt) : Prop := ∀ (i : Nat) (p q : Pt), l[i]? = some p → l[i + 1]? = some q → p ≠ q

/-- Places from `start` to `stop`, in steps of exactly `res` but for the last step, which may be shorter. -/
def Spaced (start stop res : ℝ) (l : List ℝ) : Prop :=
  l.head? = some start ∧ l.getLast? = some stop ∧
    (∀ (i : Nat) (a b : ℝ), l[i]? = some a → l[i + 1]? = some b → 0 < |b - a| ∧ |b - a| ≤ res ∧ (start ≤ stop → a < b) ∧ (stop < start → b < a)) ∧
    ∀ (i : Nat) (a b c : ℝ), l[i]? = some a → l[i + 1]? = some b → l[i + 2]? = some c → |b - a| = res

/-- Seen along the direction `t` from `p`, the point `q` is straight to the left by `offset` (to the right if it is negative). -/
def LeftBy (p t q : Pt) (offset : ℝ) : Prop :=
  (q.x - p.x) * t.x + (q.y - p.y) * t.y = 0 ∧ t.x * (q.y - p.y) - t.y * (q.x - p.x) = offset * Real.sqrt (t.x ^ 2 + t.y ^ 2)

end Verif.Geometry
