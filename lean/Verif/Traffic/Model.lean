import Verif.Registry.Model
/-
Model of traffic sources and sinks.

TS = simulation/traffic_simulator. Times are of type `V`, `none` is NaN (scenario time before the
scenario starts). Counters are unbounded.
-/
namespace Verif.Traffic

section source
variable {V : Type} [Zero V] [Add V] [Sub V] [LT V] [Max V] [∀ a b : V, Decidable (a < b)]

/-- TS/include/traffic_simulator/traffic/traffic_source.hpp 30-160 `TrafficSource`. `due k` is
`1.0 / rate * k`, the time at which entity `k` is due. -/
structure Source (V : Type) where
  id : Nat
  start : V
  due : Nat → V
  count : Nat

/-- traffic_source.hpp 109-112: the start time. -/
def startTime (now : Option V) (delay : V) : V := (now.getD 0) + max delay 0

/-- The comparison of TS/src/traffic/traffic_source.cpp 101; it is false for NaN. -/
def late (s : Source V) (now : Option V) (k : Nat) : Bool :=
  match now with
  | none => false
  | some t => decide (s.due k < t - s.start)

/-- TS/src/traffic/traffic_source.cpp 98-147, the loop of `execute`: the new count, whether an exception
was thrown, and the numbers of the entities spawned. `fails k` says that entity `k` cannot be placed
within 10000 attempts or that spawning it throws. The result is `none` if the loop does not end.
Random poses and parameters are not modelled here. -/
def loop (late fails : Nat → Bool) (k : Nat) : Option (Nat × Bool × List Nat) := do
  if late k then
    if fails k then some (k, true, [])
    else
      let r ← loop late fails (k + 1)
      some (r.1, r.2.1, k :: r.2.2)
  else some (k, false, [])
partial_fixpoint

/-- traffic_source.cpp 98-147 `execute`. -/
def Source.execute (s : Source V) (now : Option V) (fails : Nat → Bool) : Option (Source V × Bool × List Nat) :=
  (loop (late s now) fails s.count).map (fun r => ({ s with count := r.1 }, r.2.1, r.2.2))

/-- traffic_source.cpp 106-107: the name of an entity. -/
def name (id k : Nat) : String := "TrafficSource_" ++ toString id ++ "_Entity_" ++ toString k

/-- TS/src/traffic/traffic_controller.cpp 62-67 and the counter `source_count_` (traffic_source.hpp 136,
static: it outlives the controller). `spawned` is a ghost: the names of all entities spawned. -/
structure Controller (V : Type) where
  sources : List (Source V)
  sourceCount : Nat
  spawned : List String

inductive Op (V : Type) where
  | add (now : Option V) (delay : V) (due : Nat → V)
  | execute (now : Option V) (fails : Nat → Nat → Bool)
  /-- A new scenario: the sources are gone, the static counter and the spawned names are not. -/
  | reset

/-- traffic_controller.cpp 62-67 `execute` over the sources: an exception leaves the loop. -/
def executeAll (now : Option V) (fails : Nat → Nat → Bool) :
    List (Source V) → Option (List (Source V) × List String)
  | [] => some ([], [])
  | s :: ss => do
    let r ← s.execute now (fails s.id)
    let names := r.2.2.map (name s.id)
    if r.2.1 then some (r.1 :: ss, names)
    else
      let r' ← executeAll now fails ss
      some (r.1 :: r'.1, names ++ r'.2)

def exec (c : Controller V) : Op V → Option (Controller V)
  | .add now delay due =>
    some { c with
      sources := c.sources ++ [{ id := c.sourceCount, start := startTime now delay, due := due, count := 0 }]
      sourceCount := c.sourceCount + 1 }
  | .execute now fails =>
    (executeAll now fails c.sources).map (fun r => { c with sources := r.1, spawned := c.spawned ++ r.2 })
  | .reset => some { c with sources := [] }

def run (c : Controller V) : List (Op V) → Option (Controller V)
  | [] => some c
  | o :: os => (exec c o).bind (fun c' => run c' os)

end source

section area
variable {P : Type}

/-- traffic_source.cpp 149-172, step 1 of `isPoseValid`: `pose` is the parameter - the candidate pose of the
entity - and hides the member `pose`, the centre of the source. `near a b` is `hypot(..) < radius`,
`corners` are the corners of the bounding box at the candidate pose. -/
def cornersInside (near : P → P → Bool) (candidate : P) (corners : List P) : Bool :=
  corners.all (fun c => near c candidate)

end area

section sink
open Verif.Registry
variable {α : Type} [DecidableEq α]

/-- TS/include/traffic_simulator/traffic/traffic_sink.hpp `TrafficSinkConfig`: types and area. `far n` says
that the distance of entity `n` to the centre is greater than the radius. -/
structure Sink (α : Type) where
  sinkable : Kind → Bool
  far : α → Bool

/-- TS/src/traffic/traffic_sink.cpp 88-100 `isEntitySinkable`; `none` is an exception of `getEntity`. -/
def isSinkable (s : Sink α) (w : World α) (n : α) : Option Bool :=
  match w.entities.find? (fun e => e.1 = n) with
  | none => none
  | some (_, k) => some (if s.sinkable k = false then false else if s.far n then false else true)

/-- traffic_sink.cpp 49-57 `execute`, for the names taken before the loop. `despawn_` is `API::despawn`, its
result is ignored. -/
def sinkLoop (s : Sink α) : List α → World α → World α × Result
  | [], w => (w, .ok)
  | n :: ns, w => match isSinkable s w n with
    | none => (w, .throws)
    | some false => sinkLoop s ns w
    | some true =>
      let r := w.despawn n
      if r.2 = .hangs then (r.1, .hangs) else sinkLoop s ns r.1

def Sink.execute (s : Sink α) (w : World α) : World α × Result := sinkLoop s w.names w

/-- traffic_controller.cpp 62-67 `execute` over the sinks. -/
def executeSinks : List (Sink α) → World α → World α × Result
  | [], w => (w, .ok)
  | s :: ss, w => match s.execute w with
    | (w', .ok) => executeSinks ss w'
    | (w', r) => (w', r)

end sink

end Verif.Traffic
