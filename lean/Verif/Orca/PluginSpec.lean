import Verif.Orca.Plugin
import Verif.Orca.Spec
/-
Vocabulary for the statements about where the pedestrian goes. Of the model only structures and the ticks of a frame are used here.
-/
namespace Verif.Orca
open Geometry

/-- Two points are nearer than the distance, seen from above. -/
def Near (d : ℝ) (a b : Pt) : Prop := (a.x - b.x) ^ 2 + (a.y - b.y) ^ 2 < d ^ 2

/-- The point is at most at the distance and not behind. -/
def Reached (d : ℝ) (own : Pt) (yaw : ℝ) (g : Pt) : Prop :=
  0 ≤ (g.x - own.x) * Real.cos yaw + (g.y - own.y) * Real.sin yaw ∧ (own.x - g.x) ^ 2 + (own.y - g.y) ^ 2 ≤ d ^ 2

/-- The tree of actions of a pedestrian who has just been made. -/
def Fresh (b : Brain) : Prop :=
  b.request = .nothing ∧ b.root = .idle ∧ b.lane = .idle ∧ b.polyline = .idle ∧ b.second = false ∧ b.action = none ∧ b.goals = [] ∧
    b.known = none ∧ b.given = none

/-- The states between frames: at the start, after a new request, and after a frame. -/
inductive Reach : Brain → Prop
  | start {b} : Fresh b → Reach b
  | ask {b} (r : Request) : Reach b → Reach { b with request := r }
  | frame {e b b'} : Reach b → Frame e b b' → Reach b'

/-- The goal on a route: the points before are not near, then some are near, and the goal is the first that is not near any more, or the last of the
route. -/
def GoalOn (d : ℝ) (own : Pt) (route : List Pt) (g : Pt) : Prop :=
  ∃ before near after, route = before ++ near ++ g :: after ∧ (∀ p ∈ before, ¬ Near d own p) ∧ (∀ p ∈ near, Near d own p) ∧
    (near ≠ [] ∧ ¬ Near d own g ∨ Near d own g ∧ after = [])

/-- The first point that is not reached. -/
def FirstLeft (d : ℝ) (own : Pt) (yaw : ℝ) (points : List Pt) (g : Pt) (before after : List Pt) : Prop :=
  points = before ++ g :: after ∧ (∀ p ∈ before, Reached d own yaw p) ∧ ¬ Reached d own yaw g

/-- The vertex in front: the first that is not behind, or the last. -/
def InFront (own : Pt) (yaw : ℝ) (t : Trajectory) (v : Pt × Option ℝ) : Prop :=
  (∃ before after, t.vertices = before ++ v :: after ∧ 0 ≤ (v.1.x - own.x) * Real.cos yaw + (v.1.y - own.y) * Real.sin yaw ∧
    ∀ w ∈ before, (w.1.x - own.x) * Real.cos yaw + (w.1.y - own.y) * Real.sin yaw < 0) ∨
  (∃ before, t.vertices = before ++ [v] ∧ ∀ w ∈ t.vertices, (w.1.x - own.x) * Real.cos yaw + (w.1.y - own.y) * Real.sin yaw < 0)

/-- The name has the mark somewhere. -/
def Marked (name : List Char) : Prop := ∃ a b, name = a ++ "__CONTEXT_GAMMA_IGNORE__".toList ++ b

/-- All are on one level, move on it, and have boxes. -/
def OneLevel (bodies : List Body) : Prop := ∃ z, ∀ b ∈ bodies, b.position.z = z ∧ b.velocity.z = 0 ∧ Solid b.box

/-- The middle of the box is the position, as seen from above. -/
def Centered (b : Body) : Prop := b.box.center.x = 0 ∧ b.box.center.y = 0

/-- The velocity on the map. -/
noncomputable def onMap (b : Body) : Pt :=
  ⟨b.velocity.x * Real.cos b.yaw - b.velocity.y * Real.sin b.yaw, b.velocity.x * Real.sin b.yaw + b.velocity.y * Real.cos b.yaw, b.velocity.z⟩

end Verif.Orca
