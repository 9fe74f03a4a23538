import Verif.Place.Model
/-
What is meant by "an entity is where it was put", apart from how it is computed.
-/
namespace Verif.Place.Spec
variable {K I L A : Type}

/-- What canonical poses are: making a canonical pose canonical changes nothing, and the blank pose is none of them. -/
structure Lawful (m : Map K I L) : Prop where
  again : ∀ l l', m.canon l = some l' → m.canon l' = some l'
  blank : ∀ l l', m.canon l = some l' → l' ≠ m.blank

/-- The pose on a lane that a pose in the world is matched to, if there is one. -/
def Matched (m : Map K I L) (crosswalk : Bool) (p : Pose K) (o : Option L) : Prop :=
  (m.near crosswalk p = none ∧ o = none) ∨ (∃ l, m.near crosswalk p = some l ∧ ((l = m.blank ∧ o = none) ∨ (l ≠ m.blank ∧ o = m.canon l)))

/-- The status says that the entity is at the point of `p`: on the lane `l` with its height and its heading, or off the lanes exactly as `p` says. -/
def Placed (m : Map K I L) (p : Pose K) (o : Option L) (s : Status K L A) : Prop :=
  s.pose.x = p.x ∧ s.pose.y = p.y ∧ s.canonical = o ∧
    (∀ l, o = some l → s.pose.z = (m.toMap l).z ∧ s.pose.turn = (m.toMap l).turn) ∧ (o = none → s.pose = p)

/-- The parts of a status agree with each other. -/
def Sound (m : Map K I L) (s : Status K L A) : Prop :=
  (s.valid = true ↔ s.canonical ≠ none) ∧ (s.canonical = none → s.lane = m.blank) ∧
    ∀ l, s.canonical = some l → s.lane = l ∧ m.canon l = some l ∧ s.pose.z = (m.toMap l).z ∧ s.pose.turn = (m.toMap l).turn

/-- A heading is a direction. -/
def Direction [Mul K] [Add K] [One K] (t : Turn K) : Prop := t.c * t.c + t.s * t.s = 1

/-- The point of `p` seen from `r`: `dx` ahead of it, `dy` to its left and `dz` above it. -/
def Seen [Mul K] [Add K] [Sub K] [Neg K] (r p : Pose K) (dx dy dz : K) : Prop :=
  (p.x - r.x) * r.turn.c + (p.y - r.y) * r.turn.s = dx ∧ (p.y - r.y) * r.turn.c - (p.x - r.x) * r.turn.s = dy ∧ p.z - r.z = dz

/-- The point of `p` seen from `r` along the axes of the world. -/
def SeenWorld [Sub K] (r p : Pose K) (dx dy dz : K) : Prop := p.x - r.x = dx ∧ p.y - r.y = dy ∧ p.z - r.z = dz

/-- The heading `t` seen from the heading `r` is `o`. -/
def Turned [Mul K] [Add K] [Sub K] (r t o : Turn K) : Prop := t.c * r.c + t.s * r.s = o.c ∧ t.s * r.c - t.c * r.s = o.s

end Verif.Place.Spec
