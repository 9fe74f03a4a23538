import Mathlib.Algebra.Order.Floor.Semiring
import Mathlib.Data.Rat.Floor
/-
Model of the conversion of a scenario written in YAML, and of the scenarios its modifiers derive:
/repo/openscenario/openscenario_utility/openscenario_utility/conversion.py.

Not modelled: the encoding of a tree as XML by the schema (`schema.encode`), which text is valid under
the schema (a function given), how Python prints numbers (a function given), floating point (numbers
are rational), names that are regular expressions other than plain text, values with backslashes,
folders within the output directory.
-/
namespace Verif.Modify

/-- A text. -/
abbrev Text := List Char

/-- conversion.py 33 (`tol`). -/
def tolerance : ℚ := 1 / 10 ^ 10

/-- The default `rel_tol` of `math.isclose`. -/
def relative : ℚ := 1 / 10 ^ 9

/-- conversion.py 34, 37-39: `math.isclose(a, b, abs_tol=tol)`, with the default relative tolerance. -/
def close (a b : ℚ) : Bool := decide (|a - b| ≤ max (relative * max |a| |b|) tolerance)

/-- conversion.py 37-39: the condition of the loop. -/
def goesOn (step stop x : ℚ) : Bool :=
  (if 0 < step then decide (x < stop) else decide (x > stop)) || close x stop

/-- conversion.py 37-41: the loop, at most so many times. -/
def iotaLoop (step stop : ℚ) : Nat → ℚ → List ℚ
  | 0, _ => []
  | n + 1, x => if goesOn step stop x then x :: iotaLoop step stop n (x + step) else []

/-- More times than the loop is run (`iota_enough`); not in the code. -/
def rounds (start step stop : ℚ) : Nat := ⌈(|start| + 2 * |stop| + 2) / |step|⌉₊ + 1

/-- conversion.py 32-41 (`iota`). -/
def iota (start step stop : ℚ) : List ℚ :=
  if close step 0 then [start] else iotaLoop step stop (rounds start step stop) start

/-- What a modifier ranges over: conversion.py 67-77. The items of a list as they are printed. -/
inductive Values where
  | list (items : List Text)
  | range (start step stop : ℚ)

/-- A modifier: conversion.py 65-77. -/
structure Modifier where
  name : Text
  values : Values

/-- conversion.py 67-77: the pairs of the name and each value. `print` is Python's `str`. -/
def Modifier.pairs (print : ℚ → Text) (m : Modifier) : List (Text × Text) :=
  match m.values with
  | .list items => items.map fun x => (m.name, x)
  | .range start step stop => (iota start step stop).map fun x => (m.name, print x)

/-- conversion.py 62-77 (`self.specs`). `rules` is none if the scenario has no ScenarioModifiers. -/
def specs (print : ℚ → Text) (rules : Option (List Modifier)) : List (List (Text × Text)) :=
  match rules with
  | none => []
  | some ms => ms.map (Modifier.pairs print)

/-- `itertools.product`, used in conversion.py 82. -/
def product {α : Type} : List (List α) → List (List α)
  | [] => [[]]
  | s :: ss => s.flatMap fun x => (product ss).map fun r => x :: r

/-- `re.sub` in conversion.py 88, for a plain name: each occurrence, from the left, none overlapping
another. The number says how many characters of the last occurrence are still to be passed over. -/
def subFrom (name value : Text) : Nat → Text → Text
  | _, [] => []
  | k + 1, _ :: s => subFrom name value k s
  | 0, c :: s =>
    if name.isPrefixOf (c :: s) then value ++ subFrom name value (name.length - 1) s
    else c :: subFrom name value 0 s

/-- conversion.py 88. -/
def replace (name value s : Text) : Text := subFrom name value 0 s

/-- Put a binding before the first whose name is not longer. -/
def insertBinding (b : Text × Text) : List (Text × Text) → List (Text × Text)
  | [] => [b]
  | c :: cs => if c.1.length ≤ b.1.length then b :: c :: cs else c :: insertBinding b cs

/-- conversion.py 86: sorted by the length of the name, the longest first; Python's sort keeps the order
of those as long as each other. -/
def sortBindings : List (Text × Text) → List (Text × Text)
  | [] => []
  | b :: bs => insertBinding b (sortBindings bs)

/-- conversion.py 83-88. -/
def expand (bindings : List (Text × Text)) (xosc : Text) : Text :=
  (sortBindings bindings).foldl (fun target b => replace b.1 b.2 target) xosc

/-- The name of a file derived: the name of the scenario, then the number if it has modifiers
(conversion.py 90-93). The digits of a number are not modelled. -/
structure FileName where
  stem : Text
  index : Option Nat
deriving DecidableEq

/-- conversion.py 90-93. -/
def fileName (some_spec : Bool) (stem : Text) (index : Nat) : FileName :=
  if some_spec then ⟨stem, some index⟩ else ⟨stem, none⟩

/-- The output directory. -/
abbrev Folder := FileName → Option Text

/-- conversion.py 103-104. -/
def Folder.write (f : Folder) (n : FileName) (t : Text) : Folder := fun m => if m = n then some t else f m

/-- How the conversion ends: with the paths written, or `exit()` (conversion.py 101). -/
inductive Ended where
  | paths (ps : List FileName)
  | exited
deriving DecidableEq

/-- conversion.py 82-106: the loop from the given number on. -/
def deriveFrom (valid : Text → Bool) (some_spec : Bool) (stem xosc : Text) :
    Nat → List (List (Text × Text)) → Folder → List FileName → Folder × Ended
  | _, [], f, ps => (f, .paths ps)
  | i, bs :: rest, f, ps =>
    if valid (expand bs xosc) then
      deriveFrom valid some_spec stem xosc (i + 1) rest (f.write (fileName some_spec stem i) (expand bs xosc))
        (ps ++ [fileName some_spec stem i])
    else (f, .exited)

/-- conversion.py 173-209 (`convert`), from the XML text on: the output directory is emptied first
(175-177). -/
def convert (print : ℚ → Text) (valid : Text → Bool) (rules : Option (List Modifier)) (stem xosc : Text)
    (_before : Folder) : Folder × Ended :=
  deriveFrom valid (!(specs print rules).isEmpty) stem xosc 0 (product (specs print rules)) (fun _ => none) []

/-- The status `main` ends with (conversion.py 212-220): `exit()` without an argument is zero. -/
def status (e : Ended) : Nat :=
  match e with
  | .paths _ => 0
  | .exited => 0

/-- Data read from YAML. A number is as Python prints it. The keys of a map are texts. -/
inductive Yaml where
  | null
  | bool (b : Bool)
  | number (printed : Text)
  | text (t : Text)
  | seq (items : List Yaml)
  | map (entries : List (Text × Yaml))

mutual
/-- conversion.py 44-52 (`normalize_yaml_bools`). -/
def normalize : Yaml → Yaml
  | .null => .null
  | .bool b => .text (if b then "true".toList else "false".toList)
  | .number n => .number n
  | .text t => .text t
  | .seq items => .seq (normalizeAll items)
  | .map entries => .map (normalizeEntries entries)

/-- conversion.py 48. -/
def normalizeAll : List Yaml → List Yaml
  | [] => []
  | y :: ys => normalize y :: normalizeAll ys

/-- conversion.py 46. -/
def normalizeEntries : List (Text × Yaml) → List (Text × Yaml)
  | [] => []
  | (k, v) :: es => (k, normalize v) :: normalizeEntries es
end

/-- What the schema encodes as XML: nothing, text, several of an element, or an element with attributes
(keys beginning with `@`) and elements within. -/
inductive Tree where
  | nothing
  | text (t : Text)
  | several (items : List Tree)
  | node (entries : List (Text × Tree))

/-- The way from YAML to a tree: a tree, or an exception (the empty key: `tag[0]`). -/
inductive Read (α : Type) where
  | ok (a : α)
  | raised
deriving DecidableEq

/-- Do, then go on. -/
def Read.bind {α β : Type} (r : Read α) (f : α → Read β) : Read β :=
  match r with
  | .ok a => f a
  | .raised => .raised

/-- Assignment to a key of a Python dictionary: in its place if it is there, else at the end. -/
def put (k : Text) (v : Tree) : List (Text × Tree) → List (Text × Tree)
  | [] => [(k, v)]
  | (j, w) :: es => if j = k then (k, v) :: es else (j, w) :: put k v es

/-- conversion.py 130: an empty list. -/
def Yaml.isEmptyList : Yaml → Bool
  | .seq [] => true
  | _ => false

mutual
/-- conversion.py 120-170 (`from_yaml`). `lower` is `str.islower` of a character, `str` is Python's `str`
of a value. -/
def fromYaml (lower : Char → Bool) (str : Yaml → Text) : Yaml → Read Tree
  | .map entries => (fromEntries lower str entries []).bind fun es => .ok (.node es)
  | .seq items => (fromItems lower str items).bind fun ts => .ok (.several ts)
  | .text t => .ok (.text t)
  | .null => .ok .nothing
  | .bool _ => .ok .nothing
  | .number _ => .ok .nothing

/-- conversion.py 159-164. -/
def fromItems (lower : Char → Bool) (str : Yaml → Text) : List Yaml → Read (List Tree)
  | [] => .ok []
  | y :: ys => (fromYaml lower str y).bind fun t => (fromItems lower str ys).bind fun ts => .ok (t :: ts)

/-- conversion.py 126-153: the entries so far are given. -/
def fromEntries (lower : Char → Bool) (str : Yaml → Text) :
    List (Text × Yaml) → List (Text × Tree) → Read (List (Text × Tree))
  | [], done => .ok done
  | (tag, value) :: es, done =>
    if value.isEmptyList then fromEntries lower str es done
    else
      match tag with
      | [] => .raised
      | c :: cs =>
        if lower c then fromEntries lower str es (put ('@' :: c :: cs) (.text (str value)) done)
        else (fromYaml lower str value).bind fun t => fromEntries lower str es (put (c :: cs) t done)
end

end Verif.Modify
