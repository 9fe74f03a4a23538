import Verif.Markers.Model
/-
What the claims about markers speak of: a viewer that follows the published markers.
-/
namespace Verif.Markers

variable {σ π ω ο κ : Type}

/-- What a viewer has: by namespace and id what is drawn, and until when. -/
abbrev Display (κ : Type) := String → Int → Option (κ × Option Nat)

/-- A viewer gets a marker at time `t`: ADD puts it in the place of an earlier one, DELETE removes it. -/
def apply (t : Nat) (d : Display κ) (m : Mark κ) : Display κ := fun n i =>
  if n = m.ns ∧ i = m.id then
    match m.act with
    | .add c l => some (c, l.map (t + ·))
    | .delete => none
  else d n i

/-- A viewer gets a message of markers. -/
def receive (t : Nat) (d : Display κ) (ms : List (Mark κ)) : Display κ := ms.foldl (apply t) d

/-- At time `u` the viewer shows `c` for the entity of this name. -/
def Shows (d : Display κ) (n : String) (u : Nat) (c : κ) : Prop :=
  ∃ i e, d n i = some (c, e) ∧ ∀ x, e = some x → u < x

/-- The component and a viewer that gets all it publishes, after messages about entities that came at the times given. -/
def watch (h : List (Nat × List (Item σ π ω ο))) : Node σ π ω ο × Display (Content σ π ω ο) :=
  h.foldl (fun s m => ((callback s.1 m.2).1, receive m.1 s.2 (callback s.1 m.2).2)) (Node.new, fun _ _ => none)

/-- What the viewer has after these messages. -/
def display (h : List (Nat × List (Item σ π ω ο))) : Display (Content σ π ω ο) := (watch h).2

/-- A message about entities: their names are told twice, and no two have the same. -/
structure Proper (m : List (Item σ π ω ο)) : Prop where
  same : ∀ x ∈ m, x.status.name = x.name
  distinct : (m.map Item.name).Nodup

/-- About a goal. -/
def Content.OfGoal : Content σ π ω ο → Prop
  | .goal .. | .goalLabel .. => True
  | _ => False

/-- What is to be seen of an entity beside its goals. -/
def marksOf (x : Item σ π ω ο) : List (Content σ π ω ο) :=
  [.body x.status, .label x.status, .heading x.status, .action x.status] ++
    if x.waypoints.length > 2 then .path x.status x.waypoints :: (if x.found then [.obstacle x.status x.waypoints x.obstacle] else [])
    else []

/-- A tenth of a second. -/
def tenth : Nat := 100000000

/-- A frame of the simulation: its time, whether the entities are driven yet, and the entities by name. -/
structure Frame (σ π ω ο : Type) where
  time : Nat
  started : Bool
  ents : List (String × Ent σ π ω ο)

/-- The messages about entities that the simulation publishes in its frames. -/
def messages (none : ο) (fs : List (Frame σ π ω ο)) : List (Nat × List (Item σ π ω ο)) :=
  fs.map fun f => (f.time, publish f.started none f.ents)

/-- Two corners of a box next to each other: they differ in one of the three directions. -/
def Neighbours (a b : Bool × Bool × Bool) : Prop :=
  (a.1 ≠ b.1 ∧ a.2.1 = b.2.1 ∧ a.2.2 = b.2.2) ∨ (a.1 = b.1 ∧ a.2.1 ≠ b.2.1 ∧ a.2.2 = b.2.2) ∨
    (a.1 = b.1 ∧ a.2.1 = b.2.1 ∧ a.2.2 ≠ b.2.2)

end Verif.Markers
