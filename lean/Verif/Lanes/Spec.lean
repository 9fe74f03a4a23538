import Verif.Lanes.Change
/-!
What is meant by a place on a line, by the lane some lanes to the side, and by a place to change lanes to.
-/

namespace Verif.Lanes.Spec

variable {V : Type} [NormedAddCommGroup V] [NormedSpace ℝ V]

open Classical in
/-- Where one is after walking a length along the line through the points. -/
noncomputable def walk : List V → ℝ → V
  | [], _ => 0
  | [a], _ => a
  | a :: b :: l, t => if t ≤ ‖b - a‖ then a + (t / ‖b - a‖) • (b - a) else walk (b :: l) (t - ‖b - a‖)

/-- The length of the line through the points. -/
noncomputable def length : List V → ℝ
  | a :: b :: l => ‖b - a‖ + length (b :: l)
  | _ => 0

/-- The second lanelet is reached from the first by going over to the neighbour that many times. -/
inductive Over (neighbour : Nat → Option Nat) : Nat → Nat → Nat → Prop where
  | here (a : Nat) : Over neighbour 0 a a
  | next {n a b c : Nat} : neighbour a = some b → Over neighbour n b c → Over neighbour (n + 1) a c

/-- The lanelet that a lane change relative to an entity starts from: that of the entity itself, or of another. -/
def Starts (a : Actor) (others : String → Option (Option Nat)) (entity : String) (lanelet : Nat) : Prop :=
  entity = a.name ∧ a.lanelet = some lanelet ∨ entity ≠ a.name ∧ others entity = some (some lanelet)

/-- A way from lanelet to lanelet, with so many changes to the left and so many to the right. -/
inductive Way (r : Roads) : List Nat → Nat → Nat → Prop where
  | at (a : Nat) : Way r [a] 0 0
  | on {a b m n : Nat} {l : List Nat} : b ∈ r.next a → Way r (b :: l) m n → Way r (a :: b :: l) m n
  | left {a b m n : Nat} {l : List Nat} : b ∈ r.lefts a → Way r (b :: l) m n → Way r (a :: b :: l) (m + 1) n
  | right {a b m n : Nat} {l : List Nat} : b ∈ r.rights a → Way r (b :: l) m n → Way r (a :: b :: l) m (n + 1)

/-- A place on the target lane, a whole number of metres from its beginning, that is far enough ahead and that a curve leads to
that is not too sharp. -/
def Fits {K C : Type} [Field K] [LinearOrder K] (t : Target K C) (maximum forward s : K) (c : C) : Prop :=
  (∃ n : Nat, s = n) ∧ s < t.length ∧ forward < t.ahead s 0 ∧ t.curve s 0 = some c ∧ t.curvature c < maximum

end Verif.Lanes.Spec
