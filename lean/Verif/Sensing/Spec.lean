import Mathlib.Analysis.SpecialFunctions.Trigonometric.Basic
import Mathlib.Analysis.SpecialFunctions.Sqrt
import Mathlib.Data.List.Forall2

/-! What the properties of the sensors mean, apart from the model. -/

namespace Verif.Sensing

/-- A place relative to the ego lies within the ellipse of y-radius `r` whose x-radius is `ratio` times
as large. -/
def Within (ratio r x y : ℝ) : Prop := 0 < r ∧ (x / ratio) ^ 2 + y ^ 2 < r ^ 2

/-- The value that belongs to the first ellipse that contains the place, and zero if none does. -/
def Documented (ratio : ℝ) (radii values : List ℝ) (x y v : ℝ) : Prop :=
  (∃ i, ∃ (h : i < radii.length) (h' : i < values.length), Within ratio radii[i] x y ∧
    (∀ j, ∀ h'' : j < i, ¬ Within ratio (radii[j]'(Nat.lt_trans h'' h)) x y) ∧ values[i] = v) ∨
  ((∀ r ∈ radii, ¬ Within ratio r x y) ∧ v = 0)

/-- `*` stands for any text and `?` for any character; every other character stands for itself. -/
inductive Glob : List Char → List Char → Prop where
  | nil : Glob [] []
  | one {p t} (c) : c ≠ '*' → c ≠ '?' → Glob p t → Glob (c :: p) (c :: t)
  | any {p t} (c) : Glob p t → Glob ('?' :: p) (c :: t)
  | none {p t} : Glob p t → Glob ('*' :: p) t
  | more {p t} (c) : Glob ('*' :: p) t → Glob ('*' :: p) (c :: t)

/-- None of the characters means something special in a regular expression, `*` and `?` apart. -/
def Plain (p : List Char) : Prop := ∀ c ∈ p, c ∉ ['.', '^', '$', '\\', '+', '(', ')', '[', ']', '{', '}', '|']

/-- A text of one line. -/
def OneLine (t : List Char) : Prop := '\n' ∉ t ∧ '\r' ∉ t

/-- The lists of patterns of a configuration: kinds, subkinds and names. -/
structure Filter where
  types : List (List Char)
  subtypes : List (List Char)
  names : List (List Char)

/-- An entity of this kind, subkind and name passes the filter. -/
def Filter.Passes (f : Filter) (type subtype name : List Char) : Prop :=
  (∃ p ∈ f.types, Glob p type) ∧ (∃ p ∈ f.subtypes, Glob p subtype) ∧ (∃ p ∈ f.names, Glob p name)

/-- The patterns of the filter are plain. -/
def Filter.Plain (f : Filter) : Prop :=
  (∀ p ∈ f.types, Sensing.Plain p) ∧ (∀ p ∈ f.subtypes, Sensing.Plain p) ∧ (∀ p ∈ f.names, Sensing.Plain p)

/-- The parameter belongs to the configuration: its name is the base path, the name of the
configuration, a dot and something more. -/
def Belongs (base config parameter : List Char) : Prop :=
  config ≠ [] ∧ '.' ∉ config ∧ ∃ rest, parameter = base ++ config ++ '.' :: rest

/-- Two directions of the horizon are the same. -/
def SameDirection (a b : ℝ) : Prop := ∃ n : ℤ, a = b + n * (2 * Real.pi)

/-- The distance of two places on the map. -/
noncomputable def apart (a b : ℝ × ℝ) : ℝ := Real.sqrt ((a.1 - b.1) ^ 2 + (a.2 - b.2) ^ 2)

/-- A place turned about another one. -/
noncomputable def turned (angle : ℝ) (about p : ℝ × ℝ) : ℝ × ℝ :=
  (about.1 + (Real.cos angle * (p.1 - about.1) - Real.sin angle * (p.2 - about.2)),
   about.2 + (Real.sin angle * (p.1 - about.1) + Real.cos angle * (p.2 - about.2)))

/-- The points left after each one of them met its fate: removed (`none`) or replaced. -/
def Survivors {P : Type} (fates : List (Option P)) : List P := fates.filterMap id

end Verif.Sensing
