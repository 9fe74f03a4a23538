import Verif.Distance.Model
import Mathlib.Algebra.Group.Hom.Defs
/-
What the distances should be, in terms of the map only.
-/
namespace Verif.Distance

variable {K : Type} [Field K] [LinearOrder K]

/-- The lanelets lie along one road: the start of lanelet `a` is at `pos a`. A road is a line (then `G = K` and `φ` is the identity) or a ring (then `G` is a
circle and `φ` winds the line around it). A lanelet starts where the one before it ends, and points beside each other are at the same place. -/
structure Laid {G : Type} [AddCommGroup G] (φ : K →+ G) (m : Map K) (pos : Nat → G) : Prop where
  next : ∀ {a b}, b ∈ m.next a → pos b = pos a + φ (m.length a)
  along : ∀ {a b s t}, m.along a b s = some t → pos a + φ t = pos b + φ s
  first : ∀ {c a b x l}, m.route c a b = x :: l → x = a
  last : ∀ {c a b x}, (m.route c a b).getLast? = some x → x = b

/-- Where a pose is on the road. -/
def at' {G : Type} [AddCommGroup G] (φ : K →+ G) (pos : Nat → G) (p : Pose K) : G := pos p.id + φ p.s

/-- The poses of a place are different names of one point. -/
def OnePoint {G : Type} [AddCommGroup G] (φ : K →+ G) (pos : Nat → G) (p : Place K) : Prop :=
  ∀ t ∈ p.poses, at' φ pos t = at' φ pos p.pose

/-- A way from lanelet to lanelet, each following the one before. -/
inductive Way (m : Map K) : Nat → Nat → List Nat → Prop
  | stay (a : Nat) : Way m a a [a]
  | go {a b c : Nat} {l : List Nat} : b ∈ m.next a → Way m b c l → Way m a c (a :: l)

/-- The lanelets lie side by side: the centre line of lanelet `a` is at `off a` to the left of some line. -/
structure Beside (m : Map K) (off : Nat → K) : Prop where
  next : ∀ {a b}, b ∈ m.next a → off b = off a
  across : ∀ {a b x}, m.across a b = some x → off b = off a + x
  first : ∀ {c a b x l}, m.route c a b = x :: l → x = a
  last : ∀ {c a b x}, (m.route c a b).getLast? = some x → x = b

end Verif.Distance
