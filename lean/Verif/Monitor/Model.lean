/-!
The monitor of the threads of a process.

H = common/status_monitor/include/status_monitor/status_monitor.hpp, C = common/status_monitor/src/status_monitor.cpp.

Times and durations are integers, in units of the clock.
-/

namespace Verif.Monitor

/-! ### The statuses -/

/-- A thread. -/
abbrev Tid := Nat

/-- `Status`, H 31-62. `duration::max()` and `duration::min()` are `none`. -/
structure Status where
  name : String
  last : Int
  minimum : Option Int
  maximum : Option Int
  exited : Bool
  deriving DecidableEq

/-- The constructor, H 45-52. -/
def Status.new (name : String) (now : Int) : Status := ⟨name, now, none, none, false⟩

/-- `good`, H 54-59. -/
def Status.good (s : Status) (threshold now : Int) : Bool := s.exited || decide (now - s.last < threshold)

/-- `std::min` and `std::max` with the limits of the type. -/
def least (a : Option Int) (b : Int) : Option Int := match a with
  | none => some b
  | some a => some (if b < a then b else a)

def greatest (a : Option Int) (b : Int) : Option Int := match a with
  | none => some b
  | some a => some (if a < b then b else a)

/-- H 89-99: an access to a status that there is. -/
def Status.access (s : Status) (now : Int) : Status :=
  { s with minimum := least s.minimum (now - s.last), maximum := greatest s.maximum (now - s.last), last := now }

/-- `statuses`: the map from threads to their statuses. -/
abbrev Statuses := List (Tid × Status)

/-- `touch`, H 81-103, by a thread. -/
def touch (m : Statuses) (t : Tid) (name : String) (now : Int) : Statuses := match m with
  | [] => [(t, .new name now)]
  | (u, s) :: m => if u = t then (t, s.access now) :: m else (u, s) :: touch m t name now

/-- `mark_as_exited`, C 64-68. -/
def markAsExited (m : Statuses) (t : Tid) : Statuses := m.map fun p => if p.1 = t then (p.1, { p.2 with exited := true }) else p

/-- What is written about a thread, C 101-126. -/
structure Entry where
  thread : Tid
  name : String
  good : Bool
  since : Int
  minimum : Option Int
  maximum : Option Int
  /-- the error in the log -/
  logged : Bool
  deriving DecidableEq

/-- C 101-127: one thread after the other. The clock is read three times for each; `n` is the number of readings before. -/
def entries (threshold : Int) (clock : Nat → Int) : Statuses → Nat → List Entry
  | [], _ => []
  | (t, s) :: m, n => ⟨t, s.name, s.good threshold (clock n), clock (n + 1) - s.last, s.minimum, s.maximum, !s.good threshold (clock (n + 2))⟩ :: entries threshold clock m (n + 3)

/-- `good` of all, C 91-95, which stops at the first thread that is not. -/
def allGood (threshold : Int) (clock : Nat → Int) : Statuses → Nat → Bool
  | [], _ => true
  | (_, s) :: m, n => s.good threshold (clock n) && allGood threshold clock m (n + 1)

/-- What is written, C 87-140, but for the name of the process and the time. -/
structure Report where
  threads : List Entry
  good : Bool
  threshold : Int
  deriving DecidableEq

/-- `write`, C 87-140. -/
def write (m : Statuses) (threshold : Int) (clock : Nat → Int) : Report :=
  ⟨entries threshold clock m 0, allGood threshold clock m (3 * m.length), threshold⟩

/-- What happens to the statuses. -/
inductive Event where
  | touch (t : Tid) (name : String) (now : Int)
  | exit (t : Tid)
  deriving DecidableEq

def Event.apply (m : Statuses) : Event → Statuses
  | .touch t name now => Monitor.touch m t name now
  | .exit t => markAsExited m t

/-! ### Other thresholds for a while -/

/-- The threshold, and for each thread the values that its `ScopedExchanger`s keep, H 105-127. -/
structure Thresholds where
  threshold : Int
  saved : Tid → List Int

/-- `overrideThreshold`, H 136-143: its begin, and its end. -/
inductive Override where
  | enter (t : Tid) (threshold : Int)
  | leave (t : Tid)
  deriving DecidableEq

def Override.apply (s : Thresholds) : Override → Thresholds
  | .enter t x => ⟨x, fun u => if u = t then s.threshold :: s.saved u else s.saved u⟩
  | .leave t => match s.saved t with
    | [] => s
    | x :: l => ⟨x, fun u => if u = t then l else s.saved u⟩

/-! ### The end of the process -/

/-- Where the watchdog is, C 52-55. -/
inductive Dog where
  /-- before `while (not terminating)` -/
  | check
  /-- before the lock in `write`, C 89 -/
  | wait
  /-- in `write`, with the lock -/
  | write
  /-- in `sleep_for` -/
  | sleep
  /-- the thread has ended -/
  | ended
  deriving DecidableEq

/-- Where the thread is that destroys the monitors, C 60-79. -/
inductive Main where
  /-- before the lock of the next destructor, C 62 -/
  | before
  /-- with the lock, C 64-72 -/
  | locked
  /-- in `watchdog.join()`, C 74, with the lock -/
  | join
  /-- after the last destructor -/
  | ended
  deriving DecidableEq

/-- Who has the mutex. -/
inductive Owner where
  | dog
  | main
  | other (t : Tid)
  deriving DecidableEq

structure Process where
  dog : Dog
  main : Main
  lock : Option Owner
  terminating : Bool
  /-- `count`, C 37: the monitors that there are -/
  count : Nat
  deriving DecidableEq

/-- The process, when the first destructor is called. -/
def Process.start (n : Nat) : Process := ⟨.check, .before, none, false, n⟩

/-- One step of one thread. -/
inductive Step : Process → Process → Prop where
  /-- C 52 -/
  | leave (p : Process) : p.dog = .check → p.terminating = true → Step p { p with dog := .ended }
  | again (p : Process) : p.dog = .check → p.terminating = false → Step p { p with dog := .wait }
  /-- C 89 -/
  | take (p : Process) : p.dog = .wait → p.lock = none → Step p { p with dog := .write, lock := some .dog }
  /-- the end of `write`, C 140 -/
  | give (p : Process) : p.dog = .write → Step p { p with dog := .sleep, lock := none }
  /-- C 54 -/
  | wake (p : Process) : p.dog = .sleep → Step p { p with dog := .check }
  /-- C 62 -/
  | begin (p : Process) : p.main = .before → p.lock = none → 0 < p.count → Step p { p with main := .locked, lock := some .main }
  /-- C 72, 79: not the last one -/
  | next (p : Process) : p.main = .locked → p.count - 1 ≠ 0 → Step p { p with main := .before, lock := none, count := p.count - 1 }
  /-- C 72-73: the last one -/
  | last (p : Process) : p.main = .locked → p.count - 1 = 0 → Step p { p with main := .join, terminating := true, count := p.count - 1 }
  /-- C 74-79 -/
  | join (p : Process) : p.main = .join → p.dog = .ended → Step p { p with main := .ended, terminating := false, lock := none }
  /-- `touch` of another thread, H 84 -/
  | acquire (p : Process) (t : Tid) : p.lock = none → Step p { p with lock := some (.other t) }
  | release (p : Process) (t : Tid) : p.lock = some (.other t) → Step p { p with lock := none }

/-- Any number of steps. -/
inductive Run : Nat → Process → Process → Prop where
  | nil (p : Process) : Run 0 p p
  | cons {n : Nat} {p q r : Process} : Step p q → Run n q r → Run (n + 1) p r

end Verif.Monitor
