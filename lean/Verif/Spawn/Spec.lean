import Verif.Spawn.Model
/-
What the properties are about, in terms of the map and of what is drawn only.
-/
namespace Verif.Spawn

section
variable {K Q P L B E : Type} [Field K] [LinearOrder K]

/-- The pose `p` is in the area of the source: no further from its centre than its radius. -/
def InArea (s : Source K Q B) (p : Pose K Q) : Prop :=
  (p.x - s.pose.x) * (p.x - s.pose.x) + (p.y - s.pose.y) * (p.y - s.pose.y) ≤ s.radius * s.radius

/-- Each corner of the box at a place on a lane is in one of the lanelets near the source, and so is the lanelet of the place. Lanelets
near the source include crosswalks for pedestrians, and only for them. -/
def Fits (g : Ground K Q P L B) (s : Source K Q B) (n : Entry B) (l : L) : Prop :=
  g.lane l ∈ g.limited s.pose s.radius n.pedestrian ∧
  ∀ c ∈ g.transform (g.toMap l) n.corners, ∃ i ∈ g.limited s.pose s.radius n.pedestrian, g.isIn c i = true

/-- An entity can be put at the pose `p`: the corners of its box are no further from it than the radius; and it may be off the lanes, or
there is a lane, into which it fits if it has to. -/
def Usable (g : Ground K Q P L B) (s : Source K Q B) (n : Entry B) (p : Pose K Q) : Prop :=
  (∀ c ∈ g.transform p n.corners, g.close c p s.radius = true) ∧
  (s.config.outside = true ∨ ∃ a, g.toLane p n.pedestrian = some a ∧ (s.config.fitting = true → Fits g s n (g.align a)))

/-- The laws of cosine, sine and the distribution of the radius. -/
def Lawful (g : Ground K Q P L B) (r : Engine K E) (s : Source K Q B) : Prop :=
  (∀ a, g.cos a * g.cos a + g.sin a * g.sin a = 1) ∧ ∀ e, 0 ≤ (r.radius e).1 ∧ (r.radius e).1 ≤ s.radius

end

/-- The lanelet of an id. -/
def Is (m : List Lane) (id : Id) (l : Lane) : Prop := l ∈ m ∧ l.id = id

/-- `d` is the distance of the outline to the bound of one of the lanelets on one of the sides, and no other of these distances is less. -/
def Nearest {K P : Type} [LinearOrder K] (w : Sides K P) (sides : List (Id → Option (List P))) (ids : List Id) (d : K) : Prop :=
  (∃ id ∈ ids, ∃ s ∈ sides, ∃ b, s id = some b ∧ d = w.distance b w.outline) ∧
  ∀ id ∈ ids, ∀ s ∈ sides, ∀ b, s id = some b → d ≤ w.distance b w.outline

/-- A bound of a lanelet is missing or empty. -/
def Broken {P : Type} (side : Id → Option (List P)) (id : Id) : Prop := side id = none ∨ side id = some []

end Verif.Spawn
