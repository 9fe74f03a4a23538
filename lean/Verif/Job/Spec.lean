import Verif.Job.Model
/-
The calls of the functions of one job.
-/
namespace Verif.Job

def Call.job : Call → Nat
  | .ran i | .cleaned i => i

/-- The calls of one job. -/
def of (k : Nat) (log : List Call) : List Call := log.filter (fun c => c.job == k)

/-- The state after the calls of a log, for jobs with the given functions and durations. -/
def replay {σ T : Type} (jobs : List (Job σ T)) : σ → List Call → σ
  | st, [] => st
  | st, .ran i :: l => replay jobs (match jobs[i]? with | some j => (j.onUpdate j.duration st).1 | none => st) l
  | st, .cleaned i :: l => replay jobs (match jobs[i]? with | some j => j.onCleanup st | none => st) l

end Verif.Job
