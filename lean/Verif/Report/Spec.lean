import Verif.Report.Model

/-!
# What one expects of the result file and of the statistics
-/
namespace Verif.Report

/-- An order in which a map may be gone through: it leaves nothing out and adds nothing. -/
def Order (σ : ∀ α : Type, List α → List α) : Prop := ∀ (α : Type) (l : List α), (σ α l).Perm l

/-- Is it a failure, with type and message? -/
def Verdict.asFailure : Verdict → Option (String × String)
  | .failure t m => some (t, m)
  | _ => none

/-- Is it an error, with type and message? -/
def Verdict.asError : Verdict → Option (String × String)
  | .error t m => some (t, m)
  | _ => none

/-- The failures among some verdicts, in order. -/
def failuresOf (vs : List (Path × Verdict)) : List (String × String) :=
  vs.filterMap fun v => v.2.asFailure

/-- The errors among some verdicts, in order. -/
def errorsOf (vs : List (Path × Verdict)) : List (String × String) :=
  vs.filterMap fun v => v.2.asError

/-- The verdicts on the scenarios of a directory. -/
def inSuite (d : String) (vs : List (Path × Verdict)) : List (Path × Verdict) :=
  vs.filter fun v => v.1.directory = d

/-- The verdicts on the scenarios of a directory with a name. -/
def inCase (d n : String) (vs : List (Path × Verdict)) : List (Path × Verdict) :=
  vs.filter fun v => v.1.directory = d ∧ v.1.stem = n

/-- What was timed under a tag, to the end, in the order of the uses. -/
def timed (tag : String) (us : List Use) : List Int :=
  us.filterMap fun
    | .invoke t x false => if t = tag then some x else none
    | _ => none

end Verif.Report
