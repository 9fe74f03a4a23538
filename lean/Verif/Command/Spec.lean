import Verif.Parameter.Model
/- What function calls, command lines and names of topics are, apart from the model. -/
namespace Verif.Command

def Space (c : Char) : Prop := c ∈ [' ', '\t', '\n', '\r', '\x0b', '\x0c']

/-- A written parameter: a run of characters other than spaces, parentheses, commas and quotation marks, or a text in quotation marks. -/
inductive Written : List Char → Prop
  | plain (w : List Char) : w ≠ [] → (∀ c ∈ w, ¬ Space c ∧ c ∉ ['(', ')', ',', '"']) → Written w
  | quoted (w : List Char) : '"' ∉ w → Written ('"' :: w ++ ['"'])

/-- What stands behind a parameter: a comma and spaces, each of which may be missing. -/
inductive Gap : List Char → Prop
  | comma (w : List Char) : (∀ c ∈ w, Space c) → Gap (',' :: w)
  | spaces (w : List Char) : (∀ c ∈ w, Space c) → Gap w

/-- Parameters and the text they are written as. -/
inductive Parameters : List (List Char) → List Char → Prop
  | nil : Parameters [] []
  | cons {w g t : List Char} {l : List (List Char)} : Written w → Gap g → Parameters l t → Parameters (w :: l) (w ++ g ++ t)

/-- Parameters with something between them. -/
inductive Apart : List (List Char) → List Char → Prop
  | nil : Apart [] []
  | last {w g : List Char} : Written w → Gap g → Apart [w] (w ++ g)
  | cons {w g t : List Char} {l : List (List Char)} : Written w → Gap g → g ≠ [] → Apart l t → Apart (w :: l) (w ++ g ++ t)

/-- Names of functions. -/
def Name (s : List Char) : Prop := s ≠ [] ∧ ∀ c ∈ s, c.isAlphanum = true ∨ c = '_' ∨ c = '@'

/-- A call of the function `f` with the text `a` between the parentheses, or without parentheses. -/
def Calls (f a s : List Char) : Prop := (s = f ∧ a = []) ∨ s = f ++ '(' :: a ++ [')']

/-- Names of topics: `/a/b/c`, where only the last part has no hyphens. -/
def TopicName (s : List Char) : Prop := ∃ (l : List (List Char)) (w : List Char),
  s = (l.map ('/' :: ·)).flatten ++ '/' :: w ∧ w ≠ [] ∧ (∀ c ∈ w, c.isAlphanum = true ∨ c = '_') ∧ ∀ x ∈ l, x ≠ [] ∧ ∀ c ∈ x, c.isAlphanum = true ∨ c = '_' ∨ c = '-'

/-- The commands that are known. -/
def commandNames : List String :=
  ["DisableTrafficSignalV2IFeatureAction@v1", "EnableTrafficSignalV2IFeatureAction@v1", "FaultInjectionAction", "FaultInjectionAction@v1", "FaultInjectionAction@v2",
    "PseudoTrafficSignalDetectorConfidenceSetAction@v1", "RequestToCooperateCommandAction@v1", "V2ITrafficSignalStateAction", "WalkStraightAction", "debugError",
    "debugSegmentationFault", "dummyLongRunningAction", "exitFailure", "exitSuccess", "printParameter", "test"]

/-- The type of a custom command is a call of `f` with the parameters `l`: as text, with something between them, or `f` alone. -/
def Invokes (type : List Char) (f : String) (l : List (List Char)) : Prop :=
  (type = f.toList ∧ l = []) ∨ ∃ a, Apart l a ∧ type = f.toList ++ '(' :: a ++ [')']

end Verif.Command
