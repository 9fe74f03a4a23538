/-
The processes a simulation starts: Autoware, the recorder and commands of the scenario.

Cited files, below CO = /repo/external/concealer and OI = /repo/openscenario/openscenario_interpreter:
LH = CO/include/concealer/launch.hpp, FO = CO/src/field_operator_application.cpp, RH = OI/include/openscenario_interpreter/record.hpp,
RC = OI/src/record.cpp, FX = OI/src/posix/fork_exec.cpp, IC = OI/src/openscenario_interpreter.cpp,
EE = /repo/simulation/traffic_simulator/src/entity/ego_entity.cpp

The operating system is POSIX as Linux has it: a table of processes with their groups, `fork`, `kill`, `killpg`, `waitpid` and
`sigtimedwait`. A history is a list of operations: calls of the simulator, things other processes do, and the points at which a
blocking call of the simulator goes on. An operation that is not possible in a state changes nothing. Time is not modelled: a time
limit may be over at any moment.

Simplified: there is at most one ego with an Autoware at a time; processes never join a group other than their own or that of
their parent; all processes of the table may be signalled by the simulator; the simulator has one thread; `reset` is called once for an
activation, so not by `on_error`.
-/
namespace Verif.Process

/-- How a process ends: with an exit code, or by a signal, with or without a core dump. -/
inductive End
  | exit (code : Nat)
  | killed (sig : Nat) (core : Bool)
  deriving DecidableEq

/-- Exit codes have eight bits, signals seven of which the greatest value stands for being stopped. -/
def End.valid : End → Bool
  | .exit c => c < 256
  | .killed s _ => 0 < s && s < 127

/-- The status word `waitpid` gives, as in `bits/waitstatus.h`. -/
def End.status : End → Nat
  | .exit c => c * 256
  | .killed s core => s + (if core then 128 else 0)

/-- `WIFEXITED`, `WEXITSTATUS`, `WIFSIGNALED` and `WTERMSIG` of `bits/waitstatus.h`. -/
def wifexited (status : Nat) : Bool := status % 128 == 0
def wexitstatus (status : Nat) : Nat := status / 256 % 256
def wifsignaled (status : Nat) : Bool := 0 < status % 128 && status % 128 < 127
def wtermsig (status : Nat) : Nat := status % 128

/-- A process other than the simulator. `key` tells apart processes that have the same number one after the other, `origin` is the
key of the process started by the simulator it descends from, `child` tells whether it is a child of the simulator, `ended` is
the status of a process that has ended and has not been waited for, `stopped` that of a stop not yet reported. -/
structure Proc where
  pid : Nat
  group : Nat
  key : Nat
  origin : Option Nat
  child : Bool
  ended : Option Nat
  stopped : Option Nat
  deriving DecidableEq

inductive Signal
  | int
  | kill
  deriving DecidableEq

/-- `self` and `own` are the process and the group of the simulator, `next` the key of the next process, `sent` the signals the
simulator has sent and the processes they went to. `blocked` and `pending` are about `SIGCHLD`. -/
structure Machine where
  self : Nat
  own : Nat
  procs : List Proc
  next : Nat
  sent : List (Signal × Proc)
  blocked : Bool
  pending : Bool
  deriving DecidableEq

/-- A number that is neither that of a process nor that of a group. -/
def Machine.free (m : Machine) (n : Nat) : Bool :=
  0 < n && n != m.self && n != m.own && m.procs.all fun p => p.pid != n && p.group != n

/-- `fork` of the simulator, LH:49, RH:50 and FX:51: the child is in the group of the simulator. None of the callers changes
that. -/
def Machine.fork (m : Machine) (n : Nat) : Machine :=
  { m with procs := m.procs ++ [⟨n, m.own, m.next, some m.next, true, none, none⟩], next := m.next + 1 }

/-- What other processes do: start one, make a group of their own, end and stop. -/
inductive Event
  | spawn (parent n : Nat)
  | lead (n : Nat)
  | finish (n : Nat) (e : End)
  | stop (n : Nat) (sig : Nat)

/-- The end of processes. Children of the simulator stay in the table until they are waited for, and `SIGCHLD` is sent for them;
that is discarded unless it is blocked. -/
def Machine.terminate (m : Machine) (which : Proc → Bool) (status : Nat) : Machine :=
  { m with
    procs := (m.procs.filter fun p => p.child || !(which p && p.ended.isNone)).map fun p =>
      if which p && p.ended.isNone then { p with ended := some status } else p
    pending := m.pending || m.blocked && m.procs.any fun p => p.child && which p && p.ended.isNone }

def Machine.event (m : Machine) : Event → Machine
  | .spawn a n =>
    match m.procs.find? fun p => p.pid == a && p.ended.isNone with
    | some p => if m.free n then
        { m with procs := m.procs ++ [⟨n, p.group, m.next, p.origin, false, none, none⟩], next := m.next + 1 }
      else m
    | none => m
  | .lead n => { m with procs := m.procs.map fun p => if p.pid == n && p.ended.isNone then { p with group := n } else p }
  | .finish n e => if e.valid then m.terminate (fun p => p.pid == n) e.status else m
  | .stop n sig =>
    { m with procs := m.procs.map fun p =>
        if p.pid == n && p.ended.isNone then { p with stopped := some (sig * 256 + 127) } else p }

/-- The processes a number stands for in `kill` and `waitpid`: minus one is all of them. -/
def denotes (t : Int) (p : Proc) : Bool := t == -1 || t == p.pid

/-- `kill`; the answer tells whether there is a process to send the signal to. What a process does about `SIGINT` is up to it. -/
def Machine.kill (m : Machine) (t : Int) : Machine × Bool :=
  let l := m.procs.filter (denotes t)
  ({ m with sent := m.sent ++ l.map fun p => (.int, p) }, !l.isEmpty)

/-- `killpg` with `SIGKILL` -/
def Machine.killpg (m : Machine) (g : Nat) : Machine :=
  let l := m.procs.filter fun p => p.group == g
  { m.terminate (fun p => p.group == g) 9 with sent := m.sent ++ l.map fun p => (.kill, p) }

/-- What `waitpid` finds -/
inductive Got
  | ended (status : Nat) (m : Machine)
  | running
  | noChild

def Machine.waitpid (m : Machine) (t : Int) : Got :=
  match m.procs.find? fun p => p.child && denotes t p && p.ended.isSome with
  | some p => .ended (p.ended.getD 0) { m with procs := m.procs.filter fun q => q.key != p.key }
  | none => if m.procs.any fun p => p.child && denotes t p then .running else .noChild

/-- What the simulator is doing: nothing that takes time, waiting for the time limit in the destructor (FO:208), waiting for
Autoware (FO:245), waiting for the recorder (RC:39), waiting for a command with the last status (FX:67-69), or it has called
`std::exit`. -/
inductive Mode
  | idle
  | terminating
  | reaping
  | saving
  | waiting (n status : Nat)
  | exited
  deriving DecidableEq

/-- The errors thrown by `spinSome`, FO:640-653, and by `fork` -/
inductive Error
  | gone
  | exited (code : Nat)
  | killed (sig : Nat)
  | noFork
  deriving DecidableEq

/-- `autoware` is `FieldOperatorApplication::process_id` if there is an ego, `recorder` is `record::process_id`, `record` the
parameter; `resetting` tells whether the destructor is called by `Interpreter::reset`. -/
structure State where
  m : Machine
  mode : Mode
  autoware : Option Nat
  recorder : Int
  record : Bool
  active : Bool
  resetting : Bool
  errors : List Error
  deriving DecidableEq

/-- `record::stop`, RC:27-43, at the end of `reset` (IC:389-395) -/
def stopRecord (s : State) : State :=
  if s.record && s.recorder != 0 then
    let (m, found) := s.m.kill s.recorder
    if found then { s with m := m, mode := .saving } else { s with m := m, mode := .exited }
  else { s with mode := .idle, active := false, resetting := false }

/-- What follows the destructor. -/
def afterDestroy (s : State) : State :=
  let s := { s with autoware := none }
  if s.resetting then stopRecord s else { s with mode := .idle }

/-- `~FieldOperatorApplication`, FO:184-208 and FO:254: `SIGCHLD` is blocked from now on, and Autoware is asked to end. -/
def destroy (s : State) : State :=
  match s.autoware with
  | none => afterDestroy s
  | some 0 => afterDestroy s
  | some n => { s with m := ({ s.m with blocked := true }.kill n).1, mode := .terminating }

/-- How `sigtimedwait` ends, FO:208-242: with a signal, interrupted, or with the time limit. -/
inductive Wake
  | signal
  | interrupted
  | timeout
  deriving DecidableEq

/-- FO:208-242 -/
def wake (s : State) : Wake → State
  | .signal => if s.m.pending then { s with m := { s.m with pending := false }, mode := .reaping } else s
  | .interrupted => { s with mode := .reaping }
  | .timeout => { s with m := s.m.killpg (s.autoware.getD 0), mode := .reaping }

/-- `FieldOperatorApplication::spinSome`, FO:629-660. Other errors of `waitpid` are not possible without blocking. -/
def spin (s : State) : State :=
  match s.autoware with
  | none => s
  | some 0 => s
  | some n =>
    match s.m.waitpid n with
    | .running => s
    | .noChild => { s with autoware := some 0, errors := s.errors ++ [.gone] }
    | .ended status m =>
      if wifexited status then { s with m := m, autoware := some 0, errors := s.errors ++ [.exited (wexitstatus status)] }
      else if wifsignaled status then { s with m := m, autoware := some 0, errors := s.errors ++ [.killed (wtermsig status)] }
      else { s with m := m }

/-- FX:67-69, after `waitpid` has set the status: again unless it is that of an end. -/
def loop (s : State) (n status : Nat) : State :=
  if wifexited status || wifsignaled status then { s with mode := .idle } else { s with mode := .waiting n status }

/-- A blocking `waitpid` looks for the process, FO:245, RC:39 and FX:68. The latter also reports that a command has been stopped. -/
def resume (s : State) : State :=
  match s.mode with
  | .reaping =>
    match s.m.waitpid (s.autoware.getD 0) with
    | .running => s
    | .noChild => afterDestroy s
    | .ended _ m => afterDestroy { s with m := m }
  | .saving =>
    match s.m.waitpid s.recorder with
    | .running => s
    | .noChild => { s with mode := .exited }
    | .ended _ m => { s with m := m, mode := .idle, active := false, resetting := false }
  | .waiting n status =>
    match s.m.waitpid n with
    | .ended st m => loop { s with m := m } n st
    | .noChild => loop s n status
    | .running =>
      match s.m.procs.find? fun p => p.child && denotes n p && p.stopped.isSome with
      | some p => loop { s with m := { s.m with procs := s.m.procs.map fun q =>
          if q.key == p.key then { q with stopped := none } else q } } n (p.stopped.getD 0)
      | none => s
  | _ => s

/-- A blocking `waitpid` ends with `EINTR`: FO:245-252, RC:39-41 and FX:68-69. -/
def interrupt (s : State) : State :=
  match s.mode with
  | .reaping => afterDestroy s
  | .saving => { s with mode := .exited }
  | .waiting n status => loop s n status
  | _ => s

/-- The numbers are those of the new processes; with `none` the call of `fork` fails. -/
inductive Op
  | event (e : Event)
  | activate (record : Bool) (fork : Option Nat)
  | launch (fork : Option Nat)
  | attach
  | spin
  | despawn
  | reset
  | shutdown
  | command (fork : Option Nat)
  | wake (w : Wake)
  | resume
  | interrupt

def step (s : State) : Op → State
  | .event e => { s with m := s.m.event e }
  /- `on_activate`, IC:222-251, with `record::start`, RH:41-73: an error leads to `reset`. -/
  | .activate r f =>
    if s.mode = .idle ∧ ¬ s.active then
      let s := { s with record := r }
      if r then
        match f with
        | some n => if s.m.free n then { s with m := s.m.fork n, recorder := n, active := true } else s
        | none => stopRecord { s with recorder := -1, resetting := true, errors := s.errors ++ [.noFork] }
      else { s with active := true }
    else s
  /- The constructor of the ego, EE:72-77, with `ros2_launch`, LH:29-57. -/
  | .launch f =>
    if s.mode = .idle ∧ s.active ∧ s.autoware = none then
      match f with
      | some n => if s.m.free n then { s with m := s.m.fork n, autoware := some n } else s
      | none => { s with errors := s.errors ++ [.noFork] }
    else s
  /- EE:77: the parameter `launch_autoware` is false. -/
  | .attach => if s.mode = .idle ∧ s.active ∧ s.autoware = none then { s with autoware := some 0 } else s
  | .spin => if s.mode = .idle then spin s else s
  /- The ego is despawned. -/
  | .despawn => if s.mode = .idle ∧ s.active then destroy s else s
  /- `reset`, IC:348-396, called by `on_deactivate` -/
  | .reset => if s.mode = .idle ∧ s.active then destroy { s with resetting := true } else s
  /- `on_shutdown`, IC:320-328 -/
  | .shutdown => if s.mode = .idle then destroy { s with active := false } else s
  /- `fork_exec`, FX:49-74 -/
  | .command f =>
    if s.mode = .idle ∧ s.active then
      match f with
      | some n => if s.m.free n then { s with m := s.m.fork n, mode := .waiting n 0 } else s
      | none => { s with errors := s.errors ++ [.noFork] }
    else s
  | .wake w => if s.mode = .terminating then wake s w else s
  | .resume => resume s
  | .interrupt => interrupt s

def run (s : State) (h : List Op) : State := h.foldl step s

/-- A simulator just started, among the given processes. -/
def start (self own : Nat) (others : List Proc) (next : Nat) : State :=
  ⟨⟨self, own, others, next, [], false, false⟩, .idle, none, 0, false, false, false, []⟩

end Verif.Process
