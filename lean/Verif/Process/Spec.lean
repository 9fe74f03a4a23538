import Verif.Process.Model
/-
What the claims about processes speak of.
-/
namespace Verif.Process

/-- The machine before the simulator is started: processes with different numbers, none of them started by it. -/
structure Before (me : Nat) (others : List Proc) (next : Nat) : Prop where
  pids : (others.map Proc.pid).Nodup
  keys : (others.map Proc.key).Nodup
  old : ∀ p ∈ others, p.key < next
  positive : ∀ p ∈ others, 0 < p.pid
  foreign : ∀ p ∈ others, p.child = false ∧ p.origin = none ∧ p.ended = none ∧ p.pid ≠ me

/-- The states a simulator can get into. -/
inductive Reachable : State → Prop
  | start (self own : Nat) (others : List Proc) (next : Nat) (h : Before self others next) : Reachable (start self own others next)
  | step (s : State) (o : Op) (h : Reachable s) : Reachable (step s o)

/-- The process with this key is in the table, running or not waited for. -/
def Exists (s : State) (k : Nat) : Prop := ∃ p ∈ s.m.procs, p.key = k

/-- The process with this key is running. -/
def Running (s : State) (k : Nat) : Prop := ∃ p ∈ s.m.procs, p.key = k ∧ p.ended = none

/-- No blocking call is interrupted by a signal, and no recorder cannot be started. -/
def Smooth : Op → Prop
  | .interrupt => False
  | .activate true none => False
  | _ => True

/-- The states a simulator can get into if every recorder can be started. -/
inductive Recordable : State → Prop
  | start (self own : Nat) (others : List Proc) (next : Nat) (h : Before self others next) : Recordable (start self own others next)
  | step (s : State) (o : Op) (h : Recordable s) (ho : o ≠ .activate true none) : Recordable (step s o)

end Verif.Process
