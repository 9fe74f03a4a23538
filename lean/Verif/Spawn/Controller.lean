/-
What is shown of the sinks of a traffic controller.

CC = simulation/traffic_simulator/src/traffic/traffic_controller.cpp, CH = simulation/traffic_simulator/include/traffic_simulator/traffic/traffic_controller.hpp,
SC = simulation/traffic_simulator/src/traffic/traffic_sink.cpp, SH = simulation/traffic_simulator/include/traffic_simulator/traffic/traffic_sink.hpp.

What sinks do to entities is in `Verif.Traffic`.
-/
namespace Verif.Spawn

/-- SH 40-72: the configuration of a sink, without the kinds of entities. `P` are points, `K` numbers. -/
structure Sink (K P : Type) where
  radius : K
  position : P
  description : String
  deriving DecidableEq

/-- What differs between the markers of SC 59-86: name space, id, type (3: cylinder, 9: text), place, width, and text. Colours and heights
are left out. -/
structure SinkMarker (K P : Type) where
  ns : String
  id : Nat
  type : Nat
  position : P
  width : K
  text : String
  deriving DecidableEq

/-- The modules of a controller: sources (src/api/api.cpp 403) and sinks (CC 58). -/
inductive Module (K P : Type) where
  | source
  | sink (s : Sink K P)

/-- `appendDebugMarker`: SC 59-86 for sinks, nothing (traffic_module_base.hpp 40) for sources. -/
def Module.append {K P : Type} [Add K] (r : List (SinkMarker K P)) : Module K P → List (SinkMarker K P)
  | .source => r
  | .sink s =>
    let m : SinkMarker K P := ⟨"traffic_controller/traffic_sink/" ++ s.description, 0, 3, s.position, s.radius + s.radius, ""⟩
    r ++ [m] ++ [{ m with id := 1, type := 9, text := s.description }]

/-- CC 50-60: `appendAutoSinks`, for the ends of the road given by `noNextLaneletPoses`; the radius is 1. CC 45-47: only if there are kinds
of entities to remove. -/
def autoSinks {K P : Type} [One K] (types : List Nat) (ends : List (Nat × P)) : List (Module K P) :=
  if ¬ types.isEmpty then ends.foldl (fun r e => r ++ [.sink ⟨1, e.2, "auto_" ++ toString e.1⟩]) [] else []

/-- A process: the modules of the controller there is, and the static variable of `makeDebugMarker` (CC 71), which is set once per process. -/
structure Shown (K P : Type) where
  modules : List (Module K P) := []
  static : Option (List (SinkMarker K P)) := none

/-- What happens: a controller is made (with each new `API`), a source is defined, the markers are asked for (each frame). -/
inductive Event (P : Type) where
  | start (types : List Nat) (ends : List (Nat × P))
  | define
  | ask

/-- CC 69-79: `makeDebugMarker`. -/
def makeMarkers {K P : Type} [Add K] (s : Shown K P) : Shown K P × List (SinkMarker K P) :=
  match s.static with
  | some m => (s, m)
  | none =>
    let m := s.modules.foldl Module.append []
    ({ s with static := some m }, m)

/-- One event. CH 50-54: `addModule` puts the module at the end. -/
def Shown.step {K P : Type} [Add K] [One K] (s : Shown K P) : Event P → Shown K P
  | .start types ends => { s with modules := autoSinks types ends }
  | .define => { s with modules := s.modules ++ [.source] }
  | .ask => (makeMarkers s).1

def Shown.run {K P : Type} [Add K] [One K] (s : Shown K P) (es : List (Event P)) : Shown K P := es.foldl Shown.step s

end Verif.Spawn
