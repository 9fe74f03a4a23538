import Verif.Behavior.Actions
/-
What the properties of the behaviour of vehicles speak about: frames, requests and changes from outside.
-/
namespace Verif.Behavior.Spec

open Verif.Behavior

variable {K : Type} [Field K] [LinearOrder K] {B C : Type}

/-- The states of a vehicle that is spawned, and then simulated frame by frame. Between two frames it may be given another request, and anything may change around it and in its own
state. -/
inductive Reachable (env : Env B C K) : World (Car B C K) → Prop
  | spawn (b : B) (l : LaneState C K) : Reachable env (World.init ⟨b, l⟩)
  | frame {w w' : World (Car B C K)} : Reachable env w → frame env w = some (.ok w') → Reachable env w'
  | request {w : World (Car B C K)} (r : Request) : Reachable env w → Reachable env { w with request := r }
  | change {w : World (Car B C K)} (b : B) : Reachable env w → Reachable env { w with entity := { w.entity with body := b } }

/-- In the next frame the vehicle is moved exactly once, toward the speed `v`: the frame ends with the vehicle moved so, or with the exception of that movement. -/
def Moves (env : Env B C K) (w : World (Car B C K)) (v : K) : Prop :=
  (∀ f, env.move v w.entity.body = .error f → frame env w = some (.error f)) ∧
    ∀ b, env.move v w.entity.body = .ok b → ∃ w', frame env w = some (.ok w') ∧ w'.entity.body = b

/-- The vehicle is only to follow its lane. -/
def Plain (w : World (Car B C K)) : Prop := w.request = .none ∨ w.request = .followLane

/-- The vehicle is on a lane and does not move backward, nor will it after this frame if the speed it is to reach is not negative. -/
structure Forward (env : Env B C K) (b : B) : Prop where
  lane : (env.view b).lane = true
  speed : 0 ≤ (env.view b).speed
  target : ∀ t, (env.view b).target = some t → 0 ≤ t
  limit : 0 ≤ (env.view b).limit
  stays : ∀ v b', 0 ≤ v → env.move v b = .ok b' → (env.view b').lane = true ∧ 0 ≤ (env.view b').speed

/-- The vehicle looks out and need not give way. -/
def Watchful (env : Env B C K) (b : B) : Prop := (env.view b).seeAround = true ∧ (env.view b).mustYield = false

/-- The speed for a target at the distance `d`: none if the way that is left before the front of the vehicle, with a margin of 1 m, is less than it takes to stop, and otherwise the
speed it has, but never more than the speed it is to drive at. -/
def Slows (v : View K) (d w : K) : Prop :=
  (d - (v.length / 2 + 1) < v.stopDistance → w = match v.target with
    | some t => min t 0
    | none => 0) ∧
  (v.stopDistance ≤ d - (v.length / 2 + 1) → w = match v.target with
    | some t => min t v.speed
    | none => v.speed)

end Verif.Behavior.Spec
