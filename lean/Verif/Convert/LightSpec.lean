import Verif.Convert.LightModel
import Mathlib.Data.List.Forall2
/-
Vocabulary for C108: what numbers in messages mean and what is to be seen of the traffic lights.
-/
namespace Verif.Convert.Lights
open Verif.Light (Color Status Shape Bulb)

variable {D F : Type}

/-- The numbers of colours in messages (TrafficLightBulbV1.msg). -/
def ColorIs (c : Color) (n : Nat) : Prop :=
  (c = .unknown ∧ n = 0) ∨ (c = .red ∧ n = 1) ∨ (c = .yellow ∧ n = 2) ∨ (c = .green ∧ n = 3) ∨ (c = .white ∧ n = 4)

/-- The numbers of states in messages. -/
def StatusIs (s : Status) (n : Nat) : Prop :=
  (s = .unknown ∧ n = 0) ∨ (s = .solidOff ∧ n = 1) ∨ (s = .solidOn ∧ n = 2) ∨ (s = .flashing ∧ n = 3)

/-- The numbers of shapes in messages. -/
def ShapeIs (s : Shape) (n : Nat) : Prop :=
  (s = .unknown ∧ n = 0) ∨ (s = .circle ∧ n = 1) ∨ (s = .left ∧ n = 2) ∨ (s = .right ∧ n = 3) ∨ (s = .up ∧ n = 4) ∨ (s = .upperLeft ∧ n = 5) ∨
  (s = .upperRight ∧ n = 6) ∨ (s = .down ∧ n = 7) ∨ (s = .lowerLeft ∧ n = 8) ∨ (s = .lowerRight ∧ n = 9) ∨ (s = .cross ∧ n = 10)

/-- The message shows the bulb. -/
def Shows (c : F) (b : Bulb) (e : Element F) : Prop :=
  ColorIs b.color e.color ∧ StatusIs b.status e.status ∧ ShapeIs b.shape e.shape ∧ e.confidence = c

/-- The message shows the bulb, except that arrows to the upper left and right are shown as an unknown shape. -/
def Hints (c : F) (b : Bulb) (e : Element F) : Prop :=
  ColorIs b.color e.color ∧ StatusIs b.status e.status ∧ e.confidence = c ∧
    (ShapeIs b.shape e.shape ∨ ((b.shape = .upperLeft ∨ b.shape = .upperRight) ∧ e.shape = 0))

/-- The id can be written with 32 bits. -/
def Fits (i : Int) : Prop := -2 ^ 31 ≤ i ∧ i < 2 ^ 31

/-- A traffic light whose ids can be written with 32 bits. -/
def LightFits (l : Light D) : Prop := Fits l.way ∧ ∀ g ∈ l.regulatory, Fits g

/-- What is to be seen of the traffic light `way`: its regulatory elements, and the bulbs with their confidence, those detected if a detection was set, else
those of the ground truth. -/
def Seen (lights detected : List (Light D)) (way : Int) (regulatory : List Int) (bulbs : List Bulb) (confidence : D) : Prop :=
  (∃ d ∈ detected, d.way = way ∧ d.bulbs = bulbs ∧ d.confidence = confidence ∧
    ((∃ l ∈ lights, l.way = way ∧ l.regulatory = regulatory) ∨ ((∀ l ∈ lights, l.way ≠ way) ∧ d.regulatory = regulatory))) ∨
  ((∀ d ∈ detected, d.way ≠ way) ∧ ∃ l ∈ lights, l.way = way ∧ l.regulatory = regulatory ∧ l.bulbs = bulbs ∧ l.confidence = confidence)

/-- The lights of both sets are different ways, with ids of 32 bits. -/
def Proper (lights detected : List (Light D)) : Prop :=
  (lights.map (·.way)).Nodup ∧ (detected.map (·.way)).Nodup ∧ (∀ l ∈ lights, LightFits l) ∧ ∀ d ∈ detected, LightFits d

/-- A request to predict the state of a traffic light. -/
structure Foreseen where
  way : Int
  bulb : Bulb
  time : Int

/-- The predictions after the requests, in their order. -/
def foresee (one : F) (rs : List Foreseen) : Predictions F := rs.foldl (fun p r => addPrediction one r.way r.bulb r.time p) (fun _ => [])

end Verif.Convert.Lights
