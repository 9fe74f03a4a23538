import Verif.Action.Model
import Verif.Parameter.Model
/-
Model of actions that add, delete and move entities, and of conditions that measure them.

Paths as in `Verif.Action.Model`; core = H/simulator_core.hpp; TS = simulation/traffic_simulator.
-/
namespace Verif.Action

open Verif.Parameter (Dbl Rule)

/-- What is known of the entities: `added` is `ScenarioObject::is_added` (H/syntax/scenario_object.hpp 44), `place` the position of
those in `EntityManager::entities_`. -/
structure World (P : Type) where
  added : Obj → Bool
  place : Obj → Option P

/-- At the start of a scenario. -/
def World.start {P : Type} : World P := ⟨fun _ => false, fun _ => none⟩

/-- S/add_entity_action.cpp 174-180 with 52-172 and `EntityManager::spawnEntity`
(TS/include/traffic_simulator/entity/entity_manager.hpp), which refuses a name that is in use. `none` is an exception. Not modelled:
other reasons for which spawning fails, and the assignment of the controller. -/
def World.addOne {P : Type} (p : P) (w : World P) (o : Obj) : Option (World P) :=
  if w.added o then none
  else match w.place o with
    | some _ => none
    | none => some ⟨fun x => if x = o then true else w.added x, fun x => if x = o then some p else w.place x⟩

/-- S/delete_entity_action.cpp 22-25 and TS/src/entity/entity_manager.cpp 362-365 `despawnEntity`: whether there was such an entity is
ignored. -/
def World.deleteOne {P : Type} (w : World P) (o : Obj) : World P :=
  ⟨w.added, fun x => if x = o then none else w.place x⟩

/-- S/teleport_action.cpp 63-88 and core 525-529: `getEntity` throws when there is no such entity
(TS/src/entity/entity_manager.cpp 292-299). -/
def World.moveOne {P : Type} (p : P) (w : World P) (o : Obj) : Option (World P) :=
  match w.place o with
  | none => none
  | some _ => some ⟨w.added, fun x => if x = o then some p else w.place x⟩

/-- S/entities.cpp 38-43 `isAdded`. -/
def World.isAdded {P : Type} (w : World P) (e : Entity) : Bool := e.objects.all w.added

/-- The actions. -/
inductive Change (P : Type)
  | add (e : Entity) (p : P)
  | delete (e : Entity)
  | teleport (e : Entity) (p : P)

/-- S/entity_action.cpp 42-45 `start` and S/teleport_action.cpp 52-61 `start`, for one actor: the members of the entity one after the
other (H/syntax/entity.hpp 63-75). -/
def World.apply {P : Type} (w : World P) : Change P → Option (World P)
  | .add e p => e.objects.foldlM (World.addOne p) w
  | .delete e => some (e.objects.foldl World.deleteOne w)
  | .teleport e p => if w.isAdded e then e.objects.foldlM (World.moveOne p) w else e.objects.foldlM (World.addOne p) w

/-- A sequence of actions; an exception ends the scenario. -/
def World.applyAll {P : Type} (w : World P) (l : List (Change P)) : Option (World P) := l.foldlM World.apply w

/-- Conditions that measure an entity, some relative to another object. -/
inductive Measure
  | speed | acceleration | standStill | reachPosition | timeHeadway (r : Obj) | relativeSpeed (r : Obj)
deriving DecidableEq

/-- What is measured for an object, `value` if it can be: S/speed_condition.cpp 49-57 with core 608-622; core 550-553; 624-627;
S/reach_position_condition.cpp 54-74 with core 123-134 (for a WorldPosition); core 629-645; S/relative_speed_condition.cpp 59-77 with
core 578-598. `none` is an exception. -/
def World.measure {P : Type} (w : World P) (value : Obj → Dbl) (m : Measure) (o : Obj) : Option Dbl :=
  match m with
  | .speed => if w.added o then (if (w.place o).isSome then some (value o) else none) else some .nan
  | .acceleration => if (w.place o).isSome then some (value o) else none
  | .standStill => if (w.place o).isSome then some (value o) else none
  | .reachPosition => if (w.place o).isSome then some (value o) else some .nan
  | .timeHeadway r => if (w.place r).isSome && (w.place o).isSome then some (value o) else some .nan
  | .relativeSpeed r =>
    if w.added o && w.added r then (if (w.place r).isSome && (w.place o).isSome then some (value o) else some .nan) else some .nan

/-- The value of a condition for one triggering entity: S/speed_condition.cpp 89-94, S/acceleration_condition.cpp 49-53,
S/stand_still_condition.cpp 49-53, S/reach_position_condition.cpp 78-82, S/time_headway_condition.cpp 53-57,
S/relative_speed_condition.cpp 102-107. -/
def World.met {P : Type} (w : World P) (value : Obj → Dbl) (m : Measure) (r : Rule) (c : Dbl) (e : Entity) : Option Bool :=
  (e.objects.mapM (w.measure value m)).map fun l => l.all fun x => r.measured x c

/-- core 629-645 `evaluateTimeHeadway` for entities in the simulation: `x` is the position of the triggering entity in the frame of
the reference entity, forward being positive, and `v` its speed, both finite. A quotient that is not a number, 0 / 0, becomes
infinity. Simplification: exact division, and the speed 0 is not the negative zero. -/
def timeHeadway (x v : Rat) : Dbl :=
  if x ≤ 0 then (if v = 0 then .inf true else .fin (-x / v)) else .nan

end Verif.Action
