/-
Model of the queue of tasks for Autoware: a dispatcher thread and client threads under an arbitrary
scheduler.

TQH = external/concealer/include/concealer/task_queue.hpp, TQC = external/concealer/src/task_queue.cpp.
Every access to shared data is one atomic step of the model, in a total order (sequential consistency).
The accesses to `thunks` are protected by a mutex and `finalized` is atomic, so this is what the language
guarantees for them; `thrown` is accessed without synchronisation by both threads, a data race, which the
model treats as atomic.
-/
namespace Verif.TaskQueue

/-- Where the dispatcher thread is, TQC 24-39. -/
inductive PC (T E : Type)
  /-- at the condition of the loop, line 26 -/
  | loop
  /-- at `empty()`, line 27 -/
  | test
  /-- at `front()`, line 28 -/
  | front
  /-- running the task, line 29 -/
  | running (t : T)
  /-- at `pop()`, line 30 -/
  | pop
  /-- sleeping, line 32 -/
  | sleep
  /-- the task threw, before line 36 -/
  | catching (e : E)
  /-- the thread has ended -/
  | done
  deriving DecidableEq

/-- The data members of `TaskQueue`, TQH 28-41; `ok` is `rclcpp::ok()`. `pending c` is the task that client `c`
is about to push: it is in `delay` behind `rethrow()`, TQH 54-55. -/
structure State (T E : Type) where
  thunks : List T
  thrown : Option E
  finalized : Bool
  ok : Bool
  pc : PC T E
  pending : Nat → Option T

/-- TQC 22-24: what the constructor makes. -/
def State.init {T E : Type} : State T E :=
  { thunks := [], thrown := none, finalized := false, ok := true, pc := .loop, pending := fun _ => none }

/-- What can be observed. -/
inductive Event (T E : Type)
  /-- client `c` has put a task into the queue -/
  | queued (c : Nat) (t : T)
  /-- `delay` threw -/
  | rejected (c : Nat) (e : E)
  | started (t : T)
  | finished (t : T)
  | threw (t : T) (e : E)
  /-- the dispatcher has caught the exception -/
  | recorded (e : E)
  /-- `rethrow` returned or threw -/
  | checked (c : Nat) (r : Option E)
  /-- `empty` returned -/
  | empty (c : Nat) (b : Bool)
  deriving DecidableEq

/-- A choice of the scheduler: who takes the next step. -/
inductive Choice (T E : Type)
  /-- the dispatcher; `outcome` is how the task ends, if it is running one -/
  | dispatcher (outcome : Option E)
  /-- client `c` calls `delay(t)`: `rethrow()`, TQH 53 -/
  | delay (c : Nat) (t : T)
  /-- client `c` pushes, TQH 54-55 -/
  | push (c : Nat)
  /-- client `c` calls `rethrow()`, TQC 68-73 -/
  | check (c : Nat)
  /-- client `c` calls `empty()`, TQC 50-54 -/
  | isEmpty (c : Nat)
  /-- the destructor, TQC 44-45 -/
  | finalize
  /-- ROS is shut down -/
  | shutdown

variable {T E : Type}

/-- TQC 24-39, one step of the dispatcher. -/
def dispatch (s : State T E) (outcome : Option E) : State T E × List (Event T E) :=
  match s.pc with
  | .loop => ({ s with pc := if s.ok && !s.finalized then .test else .done }, [])
  | .test => ({ s with pc := if s.thunks.isEmpty then .sleep else .front }, [])
  | .front =>
    match s.thunks with
    | t :: _ => ({ s with pc := .running t }, [.started t])
    -- unreachable: undefined behaviour of `std::queue::front`, see `C36_front_defined`
    | [] => (s, [])
  | .running t =>
    match outcome with
    | none => ({ s with pc := .pop }, [.finished t])
    | some e => ({ s with pc := .catching e }, [.threw t e])
  | .pop => ({ s with thunks := s.thunks.tail, pc := .loop }, [])
  | .sleep => ({ s with pc := .loop }, [])
  | .catching e => ({ s with thrown := some e, pc := .done }, [.recorded e])
  | .done => (s, [])

def step (s : State T E) : Choice T E → State T E × List (Event T E)
  | .dispatcher o => dispatch s o
  | .delay c t =>
    match s.pending c with
    | some _ => (s, [])  -- this client is still in its previous call
    | none =>
      match s.thrown with
      | some e => (s, [.rejected c e])
      | none => ({ s with pending := fun c' => if c' = c then some t else s.pending c' }, [])
  | .push c =>
    match s.pending c with
    | none => (s, [])
    | some t => ({ s with thunks := s.thunks ++ [t], pending := fun c' => if c' = c then none else s.pending c' },
        [.queued c t])
  | .check c => (s, [.checked c s.thrown])
  | .isEmpty c => (s, [.empty c s.thunks.isEmpty])
  | .finalize => ({ s with finalized := true }, [])
  | .shutdown => ({ s with ok := false }, [])

/-- An execution: the choices of the scheduler in order; the state and everything observed. -/
def run : State T E → List (Choice T E) → State T E × List (Event T E)
  | s, [] => (s, [])
  | s, c :: cs =>
    let r := step s c
    let q := run r.1 cs
    (q.1, r.2 ++ q.2)

/-- The tasks queued, started and finished, in the order of the events. -/
def queuedIn (l : List (Event T E)) : List T := l.filterMap fun | .queued _ t => some t | _ => none
def startedIn (l : List (Event T E)) : List T := l.filterMap fun | .started t => some t | _ => none
def finishedIn (l : List (Event T E)) : List T := l.filterMap fun | .finished t => some t | _ => none
/-- Tasks that ended by an exception. -/
def threwIn (l : List (Event T E)) : List (T × E) := l.filterMap fun | .threw t e => some (t, e) | _ => none

end Verif.TaskQueue
