/-
How attributes with substitutions are written, independent of the code that reads them.
-/
namespace Verif.Reader.Spec

/-- A line break: what `.` of a regular expression does not match. -/
def lineBreak (c : Char) : Prop := c = '\n' ∨ c = '\r'

/-- Text on one line. -/
def OneLine (s : List Char) : Prop := ∀ c ∈ s, ¬ lineBreak c

/-- Text on one line without `$`. -/
def Clean (s : List Char) : Prop := OneLine s ∧ '$' ∉ s

/-- The characters of the names of substitutions. -/
def wordChar (c : Char) : Bool := c.isAlphanum || c == '_' || c == '-'

/-- The name of a substitution. -/
def Word (w : List Char) : Prop := w ≠ [] ∧ ∀ c ∈ w, wordChar c = true

/-- An attribute is written as a list of texts and substitutions `$(word argument)`; the argument is written in the same way. -/
inductive Piece where
  | text (s : List Char)
  | call (word : List Char) (argument : List Piece)

/-- How it is written. -/
def render : List Piece → List Char
  | [] => []
  | .text s :: ps => s ++ render ps
  | .call w a :: ps => ['$', '('] ++ w ++ [' '] ++ render a ++ [')'] ++ render ps

/-- What it means, if `means word argument value` says what one substitution means: the arguments are replaced first, and everything else stays. -/
inductive Value (means : List Char → List Char → List Char → Prop) : List Piece → List Char → Prop where
  | nil : Value means [] []
  | text {s v : List Char} {ps : List Piece} : Clean s → Value means ps v → Value means (.text s :: ps) (s ++ v)
  | call {w a u v : List Char} {as ps : List Piece} : Word w → Value means as a → ')' ∉ a → means w a u → Clean u → Value means ps v →
      Value means (.call w as :: ps) (u ++ v)

/-- There is a substitution in the text, at the end of `before`: it is on one line, up to its argument. -/
def At (s before word argument after : List Char) : Prop :=
  Word word ∧ ')' ∉ argument ∧ OneLine before ∧ OneLine after ∧
    (s = before ++ ['$', '('] ++ word ++ argument ++ [')'] ++ after ∨ ∃ sp : Char, sp.isWhitespace = true ∧ s = before ++ ['$', '('] ++ word ++ [sp] ++ argument ++ [')'] ++ after)

end Verif.Reader.Spec
