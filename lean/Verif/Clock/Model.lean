/-
Model of the simulation clock and of the calls of the API that drive it.

TS = simulation/traffic_simulator. `V` stands for double; its operations are arbitrary, so the theorems
that do not ask for algebraic laws hold for rounded arithmetic too. Not modelled: ROS time.
-/
namespace Verif.Clock
variable {V : Type} [Zero V] [Add V] [Sub V] [Div V]

/-- TS/include/traffic_simulator/simulation_clock/simulation_clock.hpp 22-59. `startedAt` is
`seconds_at_the_start_of_the_scenario_`, `none` for NaN. -/
structure Clock (V : Type) where
  factor : V
  rate : V
  now : V
  startedAt : Option V
deriving DecidableEq, Repr

namespace Clock

/-- TS/src/simulation_clock/simulation_clock.cpp 20-27 (constructor) and the member initialisers. -/
def make (factor rate : V) : Clock V := { factor, rate, now := 0, startedAt := none }

/-- simulation_clock.hpp 40 `getStepTime`. -/
def step (c : Clock V) : V := c.factor / c.rate

/-- simulation_clock.hpp 33-36 `getCurrentScenarioTime`; `none` is NaN. -/
def scenarioTime (c : Clock V) : Option V := c.startedAt.map (fun s => c.now - s)

/-- simulation_clock.hpp 44 `started`. -/
def started (c : Clock V) : Bool := c.startedAt.isSome

/-- simulation_clock.cpp 29-32 `update`. -/
def update (c : Clock V) : Clock V := { c with now := c.now + c.factor / c.rate }

/-- simulation_clock.cpp 51-59 `start`; `none` is an exception. -/
def start (c : Clock V) : Option (Clock V) :=
  if c.started then none else some { c with startedAt := some c.now }

end Clock

/-- The API: the clock, `npc_logic_started_` of the entity manager, and the step time that the
environment simulator was told last. -/
structure Api (V : Type) where
  clock : Clock V
  npcStarted : Bool
  simStep : V
deriving DecidableEq, Repr

inductive Result where
  | ok | no | throws
deriving DecidableEq, Repr

inductive Op (V : Type) where
  /-- `updateFrame`; `completes` says whether the exchanges with the environment simulator succeed and no
  exception is thrown before the clock is advanced. -/
  | frame (completes : Bool)
  | startNpcLogic
  /-- `setSimulationStepTime`, also called for messages on /real_time_factor. -/
  | setStep (x : V)
deriving DecidableEq, Repr

/-- TS/include/traffic_simulator/api/api.hpp 60-93 and TS/src/api/api.cpp 21-35 `init`: the environment
simulator is told the step time. -/
def Api.make (factor rate : V) : Api V :=
  { clock := Clock.make factor rate, npcStarted := false, simStep := (Clock.make factor rate).step }

/-- TS/src/api/api.cpp 39-54 `setSimulationStepTime` (`accepts` is `0.001 <=`), 56-64 `startNpcLogic`,
126-154 `updateFrame` (only its effect on the clock). -/
def exec (accepts : V → Bool) (a : Api V) : Op V → Api V × Result
  | .frame true => ({ a with clock := a.clock.update }, .ok)
  | .frame false => (a, .no)
  | .startNpcLogic =>
    if a.npcStarted then (a, .throws)
    else match a.clock.start with
      | none => (a, .throws)
      | some c => ({ a with clock := c, npcStarted := true }, .ok)
  | .setStep x =>
    if accepts x then
      let c := { a.clock with factor := x }
      ({ a with clock := c, simStep := c.step }, .ok)
    else (a, .no)

/-- The state after a history. -/
def run (accepts : V → Bool) (a : Api V) (os : List (Op V)) : Api V :=
  os.foldl (fun a o => (exec accepts a o).1) a

end Verif.Clock
