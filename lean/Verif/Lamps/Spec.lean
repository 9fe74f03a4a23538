import Verif.Lamps.Model
import Verif.Light.Spec
/-
Vocabulary of C239-C242.
-/
namespace Verif.Lamps
open Verif.Light

variable {K P : Type}

/-- The lights an operation is about: those of the regulatory element or the light itself. -/
def Op.lights (m : RoadMap) : Op K → List Id
  | .stop i => if m.lights i = some [i] then [i] else []
  | o => (m.lights o.id).getD []

/-- Operations one after the other, on lights of which none was asked for yet. -/
def after [One K] (m : RoadMap) (h : List (Op K)) : Reg K := h.foldl (fun r o => (apply m r o).1) Reg.empty

/-- Operations that only ask. -/
def Op.Asks : Op K → Prop
  | .compare .. | .composed .. | .stop .. => True
  | _ => False

/-- What a viewer has on the screen: a sphere at every number, or none. -/
abbrev Screen (P : Type) := Int → Option (Sphere P)

/-- A marker arrives: DELETEALL removes everything, ADD puts a sphere in the place of that of the same number. -/
def see (d : Screen P) : Mark P → Screen P
  | .deleteAll => fun _ => none
  | .add z x => fun z' => if z' = z then some x else d z'

/-- All that a viewer sees of updates, each of them by a kind of lights with the lights it had then. -/
def watch (pos : Id → Color → Option P) (us : List (Channel × Reg K)) : Screen P :=
  (us.flatMap fun u => (markers pos u.2).flatten).foldl see fun _ => none

/-- The spheres that a light is to be shown by: one at every place where the map has a bulb of the colour, bright
if the light has a round bulb of that colour. -/
def IsSphere (pos : Id → Color → Option P) (r : Reg K) (w : Id) (x : Sphere P) : Prop :=
  w ∈ r.keys ∧ x.color ∈ [Color.green, Color.yellow, Color.red] ∧ pos w x.color = some x.place ∧
    (x.bright = true ↔ ∃ b ∈ (r.lamp w).bulbs, b.color = x.color ∧ b.shape = .circle)

/-- The last rate that was asked for on a channel in a history. -/
def lastRate (c : Channel) (h : List (Event K)) : Option K :=
  (h.filterMap fun e => match e with | .reset c' r => if c' = c then some r else none | _ => none).getLast?

/-- There was a frame after the logic of NPCs was started. -/
def Framed (h : List (Event K)) : Prop := ∃ a b c, h = a ++ .start :: b ++ .frame :: c

/-- The configured rate. -/
def Config.at (cfg : Config K) : Channel → K
  | .conventional => cfg.conv
  | .v2i => cfg.v2i

end Verif.Lamps
