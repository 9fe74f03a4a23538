import Verif.Action.Model
/-
Vocabulary for the properties of actions.
-/
namespace Verif.Action

/-- The speed of the object is the target speed, up to the machine epsilon, in the frame described by `s`. -/
def AtTarget (t : Target) (s : Speeds) (o : Obj) : Prop :=
  ∃ v w, s o = some v ∧
    (match t with
      | .absolute x => w = x
      | .relative r .delta x _ => ∃ y, s r = some y ∧ w = y + x
      | .relative r .factor x _ => ∃ y, s r = some y ∧ w = y * x) ∧
    v - w < 1 / 2 ^ 52 ∧ w - v < 1 / 2 ^ 52

/-- The target is to be kept relative to a reference entity. -/
def Continuous (t : Target) : Prop := ∃ r type v, t = .relative r type v true

/-- All objects of the actor are at the target speed in frame `n`. -/
def ReachedAt (t : Target) (frames : List Speeds) (n : Nat) (e : Entity) : Prop :=
  ∃ s, frames[n]? = some s ∧ ∀ o ∈ e.objects, AtTarget t s o

/-- The actors meet `P` one after the other, in the order given: each in a frame not before that of its predecessor, the first not
before `a` and the last not after `b`. -/
inductive InTurn (P : Nat → Entity → Prop) : Nat → List Entity → Nat → Prop
  | nil {a b : Nat} : a ≤ b → InTurn P a [] b
  | cons {a m b : Nat} {e : Entity} {l : List Entity} : a ≤ m → P m e → InTurn P m l b → InTurn P a (e :: l) b

/-- `order` lists the actors, each once. -/
def Lists (order actors : List Entity) : Prop := order.Nodup ∧ ∀ e, e ∈ order ↔ e ∈ actors

/-- The first frame in which `P` holds. -/
def First (P : Nat → Prop) (n : Nat) : Prop := P n ∧ ∀ m, m < n → ¬ P m

/-- Progress of an actor through a speed profile in the frames from `a` up to, not including, `n`: `times` are the frames
in which the entries were reached, each the first one after that of the entry before; the next entry, if there is one, has not been
reached after those. -/
inductive Passes (reached : Nat → Entry → Prop) (n : Nat) : Nat → List Entry → List Nat → Prop
  | finished {a : Nat} : Passes reached n a [] []
  | waiting {a : Nat} {e : Entry} {l : List Entry} : (∀ m, a ≤ m → m < n → ¬ reached m e) → Passes reached n a (e :: l) []
  | next {a m : Nat} {e : Entry} {l : List Entry} {times : List Nat} : a ≤ m → m < n → reached m e →
      (∀ k, a ≤ k → k < m → ¬ reached k e) → Passes reached n (m + 1) l times → Passes reached n a (e :: l) (m :: times)

/-- All objects of the actor have the speed of the entry, relative to the reference entity if there is one. -/
def HasSpeed (reference : Option Obj) (frames : List Speeds) (e : Entity) (n : Nat) (entry : Entry) : Prop :=
  ∃ s, frames[n]? = some s ∧ ∀ o ∈ e.objects, ∃ v w, s o = some v ∧
    (match reference with
      | none => w = entry.speed
      | some r => ∃ y, s r = some y ∧ w = entry.speed + y) ∧
    v - w < 1 / 2 ^ 52 ∧ w - v < 1 / 2 ^ 52

/-- The actor has reached all entries, one after the other, in the first `n` frames. -/
def Completed (reached : Nat → Entry → Prop) (entries : List Entry) (n : Nat) : Prop :=
  ∃ times, Passes reached n 0 entries times ∧ times.length = entries.length

/-- No object belongs to two of the actors, nor twice to one. -/
def Disjoint (actors : List Entity) : Prop := (actors.flatMap Entity.objects).Nodup

end Verif.Action
