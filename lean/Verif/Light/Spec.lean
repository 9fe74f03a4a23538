import Verif.Light.Model
/-
Vocabulary of C19-C22.
-/
namespace Verif.Light

/-- A light as the public operations build it: bulbs in strictly increasing order. -/
def Ordered (l : List Bulb) : Prop := l.Pairwise fun a b => a.hash < b.hash

/-- The words for colours, statuses and shapes. -/
def colorWords : List (String × Color) :=
  [("green", .green), ("Green", .green), ("yellow", .yellow), ("Yellow", .yellow), ("amber", .yellow),
   ("red", .red), ("Red", .red), ("white", .white), ("unknown", .unknown)]
def statusWords : List (String × Status) :=
  [("solidOn", .solidOn), ("solidOff", .solidOff), ("Blank", .solidOff), ("none", .solidOff),
   ("flashing", .flashing), ("unknown", .unknown)]
def shapeWords : List (String × Shape) :=
  [("circle", .circle), ("cross", .cross), ("left", .left), ("down", .down), ("up", .up), ("straight", .up),
   ("right", .right), ("lowerLeft", .lowerLeft), ("upperLeft", .upperLeft), ("lowerRight", .lowerRight),
   ("upperRight", .upperRight), ("unknown", .unknown)]

/-- `w` is a word for `v`, or there is no word and `v` is the default. -/
def Word {α : Type} (words : List (String × α)) (default : α) (w : Text) (v : α) : Prop :=
  (w = [] ∧ v = default) ∨ ∃ s, (s, v) ∈ words ∧ w = s.toList

/-- The text names the bulb: a word for the colour, one for the status and one for the shape, each of
which may be left out (green, solidOn, circle) and with any blanks in between. The word "unknown",
which all three have, is for the first of them that has no word of its own. -/
def Names (p : Text) (b : Bulb) : Prop :=
  ∃ c ws s ws' h : Text, p = c ++ (ws ++ (s ++ (ws' ++ h))) ∧ (∀ x ∈ ws, isSpace x) ∧ (∀ x ∈ ws', isSpace x) ∧
    Word colorWords .green c b.color ∧ Word statusWords .solidOn s b.status ∧
    Word shapeWords .circle h b.shape ∧
    (c = [] → s ≠ "unknown".toList) ∧ (s = [] → h ≠ "unknown".toList)

/-- One bulb in a text: letters, digits, underscores and blanks, beginning with a non-blank, at
least two characters long, and naming the bulb. -/
structure Piece (p : Text) (b : Bulb) : Prop where
  first : ∃ c r, p = c :: r ∧ isWord c ∧ r ≠ []
  chars : ∀ c ∈ p, isWord c ∨ isSpace c
  names : Names p b

/-- `Describes s bs`: the text `s` is a comma-separated list of bulbs `bs` (a comma after the last
one is allowed, line breaks after a bulb's text are not). -/
inductive Describes : Text → List Bulb → Prop
  | nil : Describes [] []
  | last {p b} : Piece p b → Describes p [b]
  | cons {p b ws t bs} : Piece p b → (∀ c ∈ ws, isSpace c) → (∀ c ∈ t.head?, ¬ isSpace c) →
      (∀ c ∈ t, ¬ isLineEnd c) → Describes t bs → Describes (p ++ ',' :: (ws ++ t)) (b :: bs)

/-- Operations on the registries. -/
inductive Op
  | convSet (i : Id) (s : Text) | convAdd (i : Id) (s : Text) | convClear (i : Id)
  | v2iSet (i : Id) (s : Text) | v2iAdd (i : Id) (s : Text) | v2iClear (i : Id)
  | feature (i : Id) (on : Bool)

def Op.apply (m : RoadMap) : Op → Lights → Lights × Bool
  | .convSet i s => Light.convSet m i s
  | .convAdd i s => Light.convAdd m i s
  | .convClear i => Light.convClear m i
  | .v2iSet i s => Light.v2iSet m i s
  | .v2iAdd i s => Light.v2iAdd m i s
  | .v2iClear i => Light.v2iClear m i
  | .feature i on => fun w => (setFeature m i on w, true)

/-- Operations in sequence; `none` if one of them throws. -/
def applyAll (m : RoadMap) : List Op → Lights → Option Lights
  | [], w => some w
  | o :: os, w => let r := o.apply m w; if r.2 then applyAll m os r.1 else none

/-- No lights on, no V2I features. -/
def Lights.initial : Lights :=
  ⟨fun _ => [], fun _ => [], fun _ => none, fun _ => none, fun _ => false⟩

/-- Operations that address light `i` by its own id or not at all, do not write its V2I side directly
and do not disable its V2I feature. -/
def Tame (m : RoadMap) (i : Id) : Op → Prop
  | .convSet j _ | .convAdd j _ | .convClear j => j = i ∨ ∀ ids, m.lights j = some ids → i ∉ ids
  | .v2iSet j _ | .v2iAdd j _ | .v2iClear j => ∀ ids, m.lights j = some ids → i ∉ ids
  | .feature j on => on = true ∨ ∀ ids, m.lights j = some ids → i ∉ ids ∧ i ≠ j

/-- Both sides of light `i` agree and the feature is enabled. -/
def Mirrored (i : Id) (w : Lights) : Prop := w.enabled i = true ∧ w.v2i i = w.conv i

end Verif.Light
