import Verif.Entity.Model
/-
What stand-still duration and travelled distance are meant to be.
-/
namespace Verif.Entity
variable {V : Type} [Zero V] [Add V] [Mul V]

/-- The frames of a history: step and speed at the end of the frame. An entity at the end of the
lanelets is stopped. -/
def frames : List (EOp V) → List (V × V)
  | [] => []
  | .frame step speed atEnd _ :: ops => (step, if atEnd then 0 else speed) :: frames ops
  | _ :: ops => frames ops

/-- No frame of the history is one at the end of the lanelets. -/
def neverAtEnd (ops : List (EOp V)) : Prop :=
  ∀ step speed atEnd r, EOp.frame step speed atEnd r ∈ ops → atEnd = false

/-- The sum of |speed| * step over the frames, in order. -/
def distance (N : Num V) (fs : List (V × V)) : V :=
  fs.foldl (fun d f => d + N.abs f.2 * f.1) 0

/-- The frames since the entity last moved. -/
def sinceMoved (N : Num V) (fs : List (V × V)) : List (V × V) :=
  (fs.reverse.takeWhile (fun f => N.still f.2)).reverse

/-- The time since the entity last moved: the sum of the steps of those frames. -/
def standingTime (N : Num V) (fs : List (V × V)) : V :=
  (sinceMoved N fs).foldl (fun d f => d + f.1) 0

end Verif.Entity
