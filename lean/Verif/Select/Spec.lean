import Verif.Select.Model

/-! What a reader of a scenario takes entities, selections and collisions to be. -/
namespace Verif.Select

/-- The names a scenario declares, objects before selections. -/
def names (os : List Obj) (ss : List (String × Members)) : List String := os.map Obj.name ++ ss.map Prod.fst

/-- Members are given by name, each declared before, or by type, and there is at least one. -/
def Members.Good (before : List String) : Members → Prop
  | .refs ns => ns ≠ [] ∧ ∀ n ∈ ns, n ∈ before
  | .types ks => ks ≠ []
  | .neither => False
  | .both => False

/-- Each selection is made of what stands before it. -/
def Ordered (before : List String) : List (String × Members) → Prop
  | [] => True
  | (name, ms) :: rest => ms.Good before ∧ Ordered (before ++ [name]) rest

/-- An object belongs to an entity: it is the entity, or belongs to a member, or is of a type selected. -/
inductive Belongs (t : Table) : String → Entity → Prop
  | self (n : String) (k : Kind) : Belongs t n (.object n k)
  | member (n name : String) (ms : List Entity) (ks : List Kind) (m : Entity) :
      m ∈ ms → Belongs t n m → Belongs t n (.selection name ms ks)
  | type (n m name : String) (ks : List Kind) (k : Kind) :
      (n, .object m k) ∈ t → k ∈ ks → Belongs t n (.selection name [] ks)

/-- Two entities are in collision: two, both there, and their bodies overlap. -/
def Sim.Hit (s : Sim) (a b : String) : Prop :=
  a ≠ b ∧ s.alive a = true ∧ s.alive b = true ∧ s.touch a b = true

/-- A triggering entity is taken to do something when all objects of it do. -/
def Does (t : Table) (p : String → Prop) (e : Entity) : Prop := ∀ o, Belongs t o e → p o

/-- All of the triggering entities, or any. -/
def Rule.Holds (r : Rule) (p : Entity → Prop) (es : List Entity) : Prop :=
  match r with
  | .all => ∀ e ∈ es, p e
  | .any => ∃ e ∈ es, p e

end Verif.Select
