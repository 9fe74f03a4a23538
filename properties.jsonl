{"id": "C01", "title": "Storyboard element life cycle", "statement": "Every state change a storyboard element goes through (and hence every state change a StoryboardElementStateCondition or monitor can observe) is one of the life-cycle edges: standby->start, start->running, running->end, end->standby, end->complete, any non-standby state->stop, stop->complete, start->standby (vetoed skip event), plus the forced re-start of actions/maneuvers by their parent. The skipTransition state is never entered, so the 'unimplemented' throw is unreachable.", "quantifier": "every storyboard tree (any number of stories, acts, groups, maneuvers, events, actions), every environment deciding condition values and action completion as an arbitrary function of the whole history, every number of frames", "why_tests_cant": "the set of trees, environments and frame sequences is unbounded", "anchors": ["openscenario/openscenario_interpreter/include/openscenario_interpreter/syntax/storyboard_element.hpp: StoryboardElement::evaluate/transitionTo/override/stop", "openscenario/openscenario_interpreter/src/syntax/event.cpp: Event", "openscenario/openscenario_interpreter/src/syntax/maneuver.cpp: Maneuver", "openscenario/openscenario_interpreter/src/syntax/action.cpp: Action"]}
{"id": "C02", "title": "maximumExecutionCount bounds executions", "statement": "Over a whole simulation an Event is executed (enters running) at most max(1, maximumExecutionCount) times; in particular the Actions it contains are started at most that many times each.", "quantifier": "every storyboard tree (any number of stories, acts, groups, maneuvers, events, actions), every environment deciding condition values and action completion as an arbitrary function of the whole history, every number of frames", "why_tests_cant": "bound must hold for all histories including nested restarts and overrides", "anchors": ["openscenario/openscenario_interpreter/include/openscenario_interpreter/syntax/storyboard_element.hpp: StoryboardElement::evaluate/transitionTo/override/stop", "openscenario/openscenario_interpreter/src/syntax/event.cpp: Event", "openscenario/openscenario_interpreter/src/syntax/maneuver.cpp: Maneuver", "openscenario/openscenario_interpreter/src/syntax/action.cpp: Action"]}
{"id": "C03", "title": "A completed event never acts again", "statement": "Once an Event is observed complete at the end of a frame, no later frame starts or runs any of its actions, and at the end of every later frame it is complete or in stopTransition.", "quantifier": "every storyboard tree (any number of stories, acts, groups, maneuvers, events, actions), every environment deciding condition values and action completion as an arbitrary function of the whole history, every number of frames", "why_tests_cant": "needs an invariant over all continuations of the run", "anchors": ["openscenario/openscenario_interpreter/include/openscenario_interpreter/syntax/storyboard_element.hpp: StoryboardElement::evaluate/transitionTo/override/stop", "openscenario/openscenario_interpreter/src/syntax/event.cpp: Event", "openscenario/openscenario_interpreter/src/syntax/maneuver.cpp: Maneuver", "openscenario/openscenario_interpreter/src/syntax/action.cpp: Action"]}
{"id": "C04", "title": "Override priority", "statement": "At the instant an Event with priority 'override' enters running, no other event of the same Maneuver is running; each event it overrode runs none of its actions afterwards and is complete after the maneuver's next evaluation.", "quantifier": "every storyboard tree (any number of stories, acts, groups, maneuvers, events, actions), every environment deciding condition values and action completion as an arbitrary function of the whole history, every number of frames", "why_tests_cant": "depends on the order of siblings and on what state each happened to be in", "anchors": ["openscenario/openscenario_interpreter/include/openscenario_interpreter/syntax/storyboard_element.hpp: StoryboardElement::evaluate/transitionTo/override/stop", "openscenario/openscenario_interpreter/src/syntax/event.cpp: Event", "openscenario/openscenario_interpreter/src/syntax/maneuver.cpp: Maneuver", "openscenario/openscenario_interpreter/src/syntax/action.cpp: Action"]}
{"id": "C05", "title": "Skip priority", "statement": "An Event with priority 'skip' never enters running in a frame position where another event of the same Maneuver is running; it stays in standby instead.", "quantifier": "every storyboard tree (any number of stories, acts, groups, maneuvers, events, actions), every environment deciding condition values and action completion as an arbitrary function of the whole history, every number of frames", "why_tests_cant": "all interleavings of sibling lifetimes", "anchors": ["openscenario/openscenario_interpreter/include/openscenario_interpreter/syntax/storyboard_element.hpp: StoryboardElement::evaluate/transitionTo/override/stop", "openscenario/openscenario_interpreter/src/syntax/event.cpp: Event", "openscenario/openscenario_interpreter/src/syntax/maneuver.cpp: Maneuver", "openscenario/openscenario_interpreter/src/syntax/action.cpp: Action"]}
{"id": "C06", "title": "Parent completes only after its children", "statement": "Whenever a storyboard element enters endTransition, every one of its children is complete at that instant.", "quantifier": "every storyboard tree (any number of stories, acts, groups, maneuvers, events, actions), every environment deciding condition values and action completion as an arbitrary function of the whole history, every number of frames", "why_tests_cant": "unbounded nesting and histories", "anchors": ["openscenario/openscenario_interpreter/include/openscenario_interpreter/syntax/storyboard_element.hpp: StoryboardElement::evaluate/transitionTo/override/stop", "openscenario/openscenario_interpreter/src/syntax/event.cpp: Event", "openscenario/openscenario_interpreter/src/syntax/maneuver.cpp: Maneuver", "openscenario/openscenario_interpreter/src/syntax/action.cpp: Action", "openscenario/openscenario_interpreter/src/syntax/act.cpp", "openscenario/openscenario_interpreter/src/syntax/story.cpp", "openscenario/openscenario_interpreter/src/syntax/maneuver_group.cpp"]}
{"id": "C07", "title": "Stop trigger stops the whole subtree", "statement": "When the stop trigger of an element that has left standby fires, the element is complete at the end of the same evaluation and every descendant is complete or has never started, so that nothing below it stays running.", "quantifier": "every storyboard tree (any number of stories, acts, groups, maneuvers, events, actions), every environment deciding condition values and action completion as an arbitrary function of the whole history, every number of frames", "why_tests_cant": "all tree shapes and all trigger valuations at the instant of stopping", "anchors": ["openscenario/openscenario_interpreter/include/openscenario_interpreter/syntax/storyboard_element.hpp: StoryboardElement::evaluate/transitionTo/override/stop", "openscenario/openscenario_interpreter/src/syntax/event.cpp: Event", "openscenario/openscenario_interpreter/src/syntax/maneuver.cpp: Maneuver", "openscenario/openscenario_interpreter/src/syntax/action.cpp: Action", "openscenario/openscenario_interpreter/include/openscenario_interpreter/syntax/storyboard_element.hpp: stop"]}
{"id": "C08", "title": "Children are evaluated once per frame in document order", "statement": "While an element is running, one evaluation of it evaluates every child exactly once, in document order, even if earlier children complete, stop or override others.", "quantifier": "every storyboard tree (any number of stories, acts, groups, maneuvers, events, actions), every environment deciding condition values and action completion as an arbitrary function of the whole history, every number of frames", "why_tests_cant": "all child-list lengths and states", "anchors": ["openscenario/openscenario_interpreter/src/syntax/maneuver.cpp: run", "openscenario/openscenario_interpreter/src/syntax/maneuver_group.cpp: run", "openscenario/openscenario_interpreter/src/syntax/act.cpp: run", "openscenario/openscenario_interpreter/src/syntax/story.cpp: run"]}
{"id": "C09", "title": "Condition edge semantics without delay", "statement": "With delay 0 and strictly increasing simulation time, the reported value of a Condition after its n-th evaluation is: none - the current raw value; rising - current true and previous raw value false; falling - current false and previous true; risingOrFalling - current differs from previous; sticky - some raw value so far was true; rising/falling/risingOrFalling report false on the first evaluation.", "quantifier": "every sequence of raw values and every increasing sequence of times", "why_tests_cant": "raw sequences are unbounded", "anchors": ["openscenario/openscenario_interpreter/include/openscenario_interpreter/syntax/condition.hpp: update_condition", "openscenario/openscenario_interpreter/src/syntax/condition.cpp: Condition::evaluate"]}
{"id": "C10", "title": "Condition delay semantics", "statement": "With any delay, the reported value equals the edge function applied to the newest samples whose time stamp is not later than (now - delay), computed from the full sample history, although the implementation erases old samples.", "quantifier": "every nondecreasing time sequence, every raw value sequence, every delay and edge, any monotone rounding of now - delay", "why_tests_cant": "requires relating the pruned history to the full one for all schedules", "anchors": ["openscenario/openscenario_interpreter/include/openscenario_interpreter/syntax/condition.hpp: update_condition", "openscenario/openscenario_interpreter/src/syntax/condition.cpp: Condition::evaluate"]}
{"id": "C11", "title": "Condition history does not leak", "statement": "After each evaluation the samples retained are at most those newer than (now - delay) plus the number of samples the edge needs.", "quantifier": "every time/raw sequence", "why_tests_cant": "unbounded runs", "anchors": ["openscenario/openscenario_interpreter/include/openscenario_interpreter/syntax/condition.hpp: update_condition", "openscenario/openscenario_interpreter/src/syntax/condition.cpp: Condition::evaluate"]}
{"id": "C12", "title": "Trigger is a disjunction of conjunctions and samples every condition", "statement": "A Trigger is true iff some ConditionGroup has all its Conditions true; a trigger without groups is false, a group without conditions is true; and each evaluation samples each condition exactly once regardless of the other values (so edges and delays of all conditions advance in lock-step).", "quantifier": "every number of groups and conditions, every condition state", "why_tests_cant": "unbounded list lengths", "anchors": ["openscenario/openscenario_interpreter/src/syntax/trigger.cpp", "openscenario/openscenario_interpreter/src/syntax/condition_group.cpp"]}
{"id": "C13", "title": "Reported active condition group", "statement": "After a Trigger evaluated to true, the reported active condition group index is the least index of a group all of whose conditions are true, hence it is in range; after false there is none.", "quantifier": "every trigger", "why_tests_cant": "unbounded groups", "anchors": ["openscenario/openscenario_interpreter/src/syntax/trigger.cpp: activeConditionGroupIndex"]}
{"id": "C14", "title": "StoryboardElementStateCondition latches", "statement": "Once a StoryboardElementStateCondition has seen its element enter the watched state, every later evaluation yields true, even if the element has moved on between two evaluations.", "quantifier": "every sequence of element transitions and condition evaluations", "why_tests_cant": "unbounded interleavings", "anchors": ["openscenario/openscenario_interpreter/src/syntax/storyboard_element_state_condition.cpp"]}
{"id": "C15", "title": "Signal phases cycle in declared order and honour durations", "statement": "A TrafficSignalController without reference visits its phases cyclically in declared order; it leaves a phase at the first evaluation at which at least the phase's duration has elapsed since the evaluation that entered it, never earlier, and changes at most one phase per evaluation.", "quantifier": "every phase list and every nondecreasing sequence of evaluation times", "why_tests_cant": "unbounded phases and schedules", "anchors": ["openscenario/openscenario_interpreter/src/syntax/traffic_signal_controller.cpp", "openscenario/openscenario_interpreter/include/openscenario_interpreter/iterator/circular_iterator.hpp", "openscenario/openscenario_interpreter/src/syntax/phase.cpp"]}
{"id": "C16", "title": "Referenced controller starts after the delay", "statement": "A controller with a reference and delay d (re)starts its first phase at its first evaluation strictly later than (begin of the reference's first phase + d), and not before; until then it is in no phase.", "quantifier": "every schedule of evaluation times and of begin notifications", "why_tests_cant": "unbounded schedules", "anchors": ["openscenario/openscenario_interpreter/src/syntax/traffic_signal_controller.cpp", "openscenario/openscenario_interpreter/include/openscenario_interpreter/iterator/circular_iterator.hpp", "openscenario/openscenario_interpreter/src/syntax/phase.cpp"]}
{"id": "C17", "title": "Signal states never leak across phases", "statement": "After a phase change every signal named by the new phase shows exactly the states the new phase declares for it (in order) and every signal named by the previous phase only is cleared; signals named by neither are untouched.", "quantifier": "every pair of phases with any number of states and repeated ids", "why_tests_cant": "unbounded lists", "anchors": ["openscenario/openscenario_interpreter/src/syntax/traffic_signal_controller.cpp", "openscenario/openscenario_interpreter/include/openscenario_interpreter/iterator/circular_iterator.hpp", "openscenario/openscenario_interpreter/src/syntax/phase.cpp", "openscenario/openscenario_interpreter/src/syntax/traffic_signal_state.cpp"]}
{"id": "C18", "title": "Phase predictions", "statement": "The predictions published on a phase change are for at most six following phases, at times equal to the remaining duration of the current phase plus the durations of the phases in between (in cyclic order).", "quantifier": "every phase list", "why_tests_cant": "unbounded phase lists", "anchors": ["openscenario/openscenario_interpreter/src/syntax/traffic_signal_controller.cpp", "openscenario/openscenario_interpreter/include/openscenario_interpreter/iterator/circular_iterator.hpp", "openscenario/openscenario_interpreter/src/syntax/phase.cpp"]}
{"id": "C19", "title": "Bulb identity", "statement": "Two bulbs are stored as the same element of a traffic light iff their colour, status and shape all agree.", "quantifier": "all colours, statuses, shapes incl. every arrow-direction combination", "why_tests_cant": "hash packing must be injective on the whole domain", "anchors": ["simulation/traffic_simulator/src/traffic_lights/traffic_light.cpp", "simulation/traffic_simulator/include/traffic_simulator/traffic_lights/traffic_light.hpp"]}
{"id": "C20", "title": "Bulb text round-trip", "statement": "Printing any bulb and parsing the text yields the same bulb; printing any traffic light and setting another light from the text yields the same set of bulbs.", "quantifier": "all bulbs; all finite bulb sets", "why_tests_cant": "sets of bulbs of any size", "anchors": ["simulation/traffic_simulator/src/traffic_lights/traffic_light.cpp", "simulation/traffic_simulator/include/traffic_simulator/traffic_lights/traffic_light.hpp"]}
{"id": "C21", "title": "Setting a traffic light", "statement": "Setting a traffic light's state from text replaces its bulbs by exactly those described; malformed text leaves the light unchanged.", "quantifier": "every light state and every text", "why_tests_cant": "all texts", "anchors": ["simulation/traffic_simulator/src/traffic_lights/traffic_light.cpp", "simulation/traffic_simulator/include/traffic_simulator/traffic_lights/traffic_light.hpp", "simulation/traffic_simulator/src/traffic_lights/traffic_lights_base.cpp"]}
{"id": "C22", "title": "V2I mirror", "statement": "For a signal with the V2I feature enabled, every conventional state set/add/clear is reproduced on the V2I side.", "quantifier": "every sequence of set/add/clear/enable operations", "why_tests_cant": "unbounded histories", "anchors": ["simulation/traffic_simulator/include/traffic_simulator/traffic_lights/traffic_lights.hpp: TrafficLights"]}
{"id": "C23", "title": "Variable lookup", "statement": "Looking up a name returns the declaration in the nearest enclosing scope that (transitively, through anonymous scopes) declares it; two declarations visible at the same anonymous depth are reported as ambiguous; an undeclared name is reported as missing.", "quantifier": "every scope tree and name", "why_tests_cant": "unbounded trees", "anchors": ["openscenario/openscenario_interpreter/include/openscenario_interpreter/scope.hpp: EnvironmentFrame::find", "openscenario/openscenario_interpreter/src/scope.cpp"]}
{"id": "C24", "title": "Expression evaluation", "statement": "Evaluating an OpenSCENARIO ${...} expression gives the value of the expression under usual precedence and left associativity with integer/double/boolean typing; ill-typed operands raise an error rather than a value.", "quantifier": "every expression tree", "why_tests_cant": "unbounded expressions", "anchors": ["openscenario/openscenario_interpreter/src/evaluate.cpp"]}
{"id": "C25", "title": "Entity registry", "statement": "After any sequence of spawn/despawn requests entity names are unique, an entity exists iff it was spawned and not since despawned, at most one of all entities is an Ego, and a refused request changes nothing.", "quantifier": "every request sequence", "why_tests_cant": "unbounded histories", "anchors": ["simulation/traffic_simulator/include/traffic_simulator/entity/entity_manager.hpp: spawnEntity", "simulation/traffic_simulator/src/entity/entity_manager.cpp"]}
{"id": "C26", "title": "Pairwise distances", "statement": "The table of pairwise distances computed each frame has an entry for every unordered pair of distinct entities, exactly one, whichever order names are given.", "quantifier": "every entity set", "why_tests_cant": "unbounded sets", "anchors": ["simulation/traffic_simulator/include/traffic_simulator/entity/entity_manager.hpp: spawnEntity", "simulation/traffic_simulator/src/entity/entity_manager.cpp", "simulation/traffic_simulator/src/entity/entity_manager.cpp: calculateEuclideanDistances"]}
{"id": "C27", "title": "Exclusive jobs", "statement": "At any time at most one exclusive job of each type is active for an entity; appending a new exclusive job of a type inactivates the previous one and runs its clean-up exactly once; an inactive job is never run again and never cleaned up twice.", "quantifier": "every sequence of appends and updates, every job body", "why_tests_cant": "unbounded histories", "anchors": ["simulation/traffic_simulator/src/job/job.cpp", "simulation/traffic_simulator/src/job/job_list.cpp"]}
{"id": "C28", "title": "A new speed request replaces the old one", "statement": "After requestSpeedChange(v) returns, the entity's target speed is v, whatever earlier requests are still active.", "quantifier": "every history of requests", "why_tests_cant": "histories", "anchors": ["simulation/traffic_simulator/src/entity/entity_base.cpp: requestSpeedChange", "simulation/traffic_simulator/src/job/job.cpp", "simulation/traffic_simulator/src/job/job_list.cpp"]}
{"id": "C29", "title": "Stand-still duration and travelled distance", "statement": "The reported stand-still duration is the time since the entity last moved (sum of steps in the maximal trailing run of frames with speed at most epsilon) and the travelled distance is the sum of |speed|*step; the latter never decreases.", "quantifier": "every sequence of frames", "why_tests_cant": "unbounded histories", "anchors": ["simulation/traffic_simulator/src/entity/entity_base.cpp: updateStandStillDuration/updateTraveledDistance"]}
{"id": "C30", "title": "Simulation clock", "statement": "After n frame updates the clock shows n steps from its initial time, scenario time is not-a-number before the scenario clock is started and equals elapsed steps since then afterwards; starting twice is an error.", "quantifier": "every sequence of update/start calls", "why_tests_cant": "unbounded sequences", "anchors": ["simulation/traffic_simulator/src/simulation_clock/simulation_clock.cpp", "simulation/traffic_simulator/include/traffic_simulator/simulation_clock/simulation_clock.hpp"]}
{"id": "C31", "title": "Traffic source spawn count", "statement": "The number of entities a traffic source has spawned by time t after its start depends only on t and the rate - not on how often or when it was polled - and names are distinct across sources.", "quantifier": "every polling schedule", "why_tests_cant": "unbounded schedules", "anchors": ["simulation/traffic_simulator/include/traffic_simulator/traffic/traffic_source.hpp", "simulation/traffic_simulator/src/traffic/traffic_source.cpp"]}
{"id": "C32", "title": "Traffic sink", "statement": "One execution of a traffic sink removes exactly the entities of a sinkable type within its radius and no other.", "quantifier": "every entity set and sink", "why_tests_cant": "unbounded sets", "anchors": ["simulation/traffic_simulator/src/traffic/traffic_sink.cpp"]}
{"id": "C33", "title": "Speed planning respects limits", "statement": "A planned step for a non-negative target never exceeds the configured speed limit, keeps acceleration within [-max deceleration, max acceleration], changes acceleration by at most the jerk limit times the step while the limits allow it, and does not overshoot the target.", "quantifier": "all constraints, states, targets and step times", "why_tests_cant": "continuous domain", "anchors": ["simulation/traffic_simulator/src/behavior/longitudinal_speed_planning.cpp"]}
{"id": "C34", "title": "Speed planning converges", "statement": "Iterating the planner with a fixed reachable target reaches the target speed in finitely many steps.", "quantifier": "all constraints, states, targets and step times", "why_tests_cant": "unbounded iteration", "anchors": ["simulation/traffic_simulator/src/behavior/longitudinal_speed_planning.cpp"]}
{"id": "C35", "title": "Route waypoints are consumed in order", "statement": "The waypoint queue of a route is always a suffix of the waypoints assigned; passing a waypoint never re-adds an earlier one.", "quantifier": "every sequence of positions and assignments", "why_tests_cant": "unbounded histories", "anchors": ["simulation/traffic_simulator/src/behavior/route_planner.cpp"]}
{"id": "C36", "title": "Task queue order", "statement": "Tasks queued for Autoware run one at a time, in the order queued, each at most once; none is skipped.", "quantifier": "every interleaving of the producer thread and the dispatcher thread", "why_tests_cant": "all schedules", "anchors": ["external/concealer/src/task_queue.cpp", "external/concealer/include/concealer/task_queue.hpp"]}
{"id": "C37", "title": "Task queue failure", "statement": "After a task throws, no further task is ever started, and every later attempt to queue a task or to check for failure reports that error (if the check happens after the failure).", "quantifier": "every interleaving and failure position", "why_tests_cant": "all schedules", "anchors": ["external/concealer/src/task_queue.cpp", "external/concealer/include/concealer/task_queue.hpp"]}
{"id": "C38", "title": "Exhausted means finished", "statement": "If the queue reports being exhausted, every task queued so far has finished running; if a task failed the queue never reports exhausted again.", "quantifier": "every interleaving", "why_tests_cant": "all schedules", "anchors": ["external/concealer/src/task_queue.cpp", "external/concealer/include/concealer/task_queue.hpp"]}
{"id": "C39", "title": "Autoware state classification", "statement": "The legacy Autoware state derived from ADAPI messages is total and 'driving' is reported only if localization is initialized, a route is set, the operation mode is autonomous, local or remote and Autoware control is enabled; any missing message is reported as initializing.", "quantifier": "all message combinations and times", "why_tests_cant": "product domain incl. continuous time", "anchors": ["external/concealer/include/concealer/legacy_autoware_state.hpp"]}
{"id": "C40", "title": "Bounded service retries", "statement": "A service request is attempted at most the configured number of times, stops at the first success and fails with an error only after all attempts failed.", "quantifier": "every sequence of service outcomes and every attempt limit", "why_tests_cant": "unbounded attempt limits", "anchors": ["external/concealer/include/concealer/service.hpp"]}
{"id": "C41", "title": "Detection delay queue", "statement": "Published detection frames are the recorded frames in order without loss or duplication, none is published before its age reaches the configured delay, at most one is published per sensor update.", "quantifier": "every update schedule", "why_tests_cant": "unbounded schedules", "anchors": ["simulation/simple_sensor_simulator/src/sensor_simulation/detection_sensor/detection_sensor.cpp"]}
{"id": "C42", "title": "Detected entities are in range", "statement": "Every published detected object corresponds to an entity in range at recording time, and (without configured noise) every in-range visible entity is published from the first frame it is seen.", "quantifier": "every entity history and noise configuration", "why_tests_cant": "unbounded histories, random seeds", "anchors": ["simulation/simple_sensor_simulator/src/sensor_simulation/detection_sensor/detection_sensor.cpp"]}
{"id": "C43", "title": "Scenario verdict", "statement": "The scenario result is success only if the exit-success action fired, failure only for exit-failure or time-out, and error for every other exception; exactly one verdict is recorded per scenario.", "quantifier": "every exception that can leave a frame", "why_tests_cant": "all event sequences", "anchors": ["openscenario/openscenario_interpreter/src/openscenario_interpreter.cpp", "openscenario/openscenario_interpreter/include/openscenario_interpreter/openscenario_interpreter.hpp: withExceptionHandler"]}
{"id": "C44", "title": "Preprocessor queue", "statement": "Derived scenarios are handed out exactly once in generation order; after the queue is empty 'no output' is answered.", "quantifier": "every sequence of load/derive requests", "why_tests_cant": "unbounded sequences", "anchors": ["openscenario/openscenario_preprocessor/src/openscenario_preprocessor.cpp"]}
{"id": "C45", "title": "Triggering entities rule", "statement": "A by-entity condition with rule all/any is true iff all/any of the triggering entities satisfy it.", "quantifier": "every entity list and predicate", "why_tests_cant": "unbounded lists", "anchors": ["openscenario/openscenario_interpreter/include/openscenario_interpreter/syntax/triggering_entities_rule.hpp"]}
{"id": "C46", "title": "Parameter arithmetic", "statement": "Adding to or multiplying an integer parameter by a decimal value yields the mathematically exact result rounded toward zero; comparison rules are mutually consistent (exactly one of <, =, > and 'not equal' is the negation of 'equal').", "quantifier": "all values", "why_tests_cant": "continuous domain", "anchors": ["openscenario/openscenario_interpreter/src/syntax/parameter_add_value_rule.cpp", "openscenario/openscenario_interpreter/src/syntax/parameter_multiply_by_value_rule.cpp", "openscenario/openscenario_interpreter/include/openscenario_interpreter/syntax/rule.hpp"]}
{"id": "C47", "title": "Qualified references", "statement": "A reference A::B::x means the x declared in scope B of the nearest scope A; a reference through a scope that does not exist is reported as an error.", "quantifier": "every scope tree, path and referring scope", "why_tests_cant": "unbounded trees and paths", "anchors": ["openscenario/openscenario_interpreter/src/scope.cpp: resolvePrefix, lookupFrame", "openscenario/openscenario_interpreter/include/openscenario_interpreter/scope.hpp: EnvironmentFrame::ref"]}
{"id": "C48", "title": "Environment simulator mirrors the registry", "statement": "The environment simulator always holds exactly the entities of the registry, each once and under its kind, so that a frame can always be exchanged with it.", "quantifier": "every sequence of spawn, despawn, reset and frame requests", "why_tests_cant": "unbounded histories of two processes", "anchors": ["simulation/traffic_simulator/src/entity/entity_manager.cpp", "simulation/traffic_simulator/src/api/api.cpp", "simulation/simple_sensor_simulator/src/simple_sensor_simulator.cpp"]}
{"id": "C49", "title": "Resetting a behaviour plugin", "statement": "Resetting the behaviour plugin of an entity keeps the entity with its name, kind and state and affects no other entity.", "quantifier": "every reachable registry and entity", "why_tests_cant": "memory lifetime and unbounded histories", "anchors": ["simulation/traffic_simulator/src/entity/entity_manager.cpp: resetBehaviorPlugin"]}
{"id": "C50", "title": "Spawning area of a traffic source", "statement": "All corners of an entity spawned by a traffic source lie within the radius of the source.", "quantifier": "every candidate pose, source and entity size", "why_tests_cant": "continuous domain and random poses", "anchors": ["simulation/traffic_simulator/src/traffic/traffic_source.cpp: isPoseValid"]}
{"id": "C51", "title": "Requests wait for the right Autoware state", "statement": "An initial pose, route or engage request is sent only once Autoware is ready for it; the task ends without an error only if Autoware has reached the state asked for, otherwise it fails, at the latest when the time limit passes.", "quantifier": "every history of Autoware states", "why_tests_cant": "unbounded histories", "anchors": ["external/concealer/src/field_operator_application.cpp: engage, plan, initialize", "external/concealer/include/concealer/field_operator_application.hpp: waitForAutowareStateToBe"]}
{"id": "C52", "title": "Entities below the ego vehicle", "statement": "With all objects in range to be detected, an entity more than a metre lower than the ego vehicle is detected if and only if it lies on or above the plane through the current pose of the ego vehicle.", "quantifier": "every history of poses", "why_tests_cant": "unbounded histories: the plane is remembered between updates", "anchors": ["simulation/simple_sensor_simulator/src/sensor_simulation/detection_sensor/detection_sensor.cpp: isOnOrAboveEgoPlane"]}
{"id": "C53", "title": "Configured autocorrelation is used", "statement": "The autocorrelation coefficients configured for the detection noise (amplitude, decay and offset under <kind>.autocorrelation_coefficient) are the ones used, limited to [0, 1].", "quantifier": "every configuration", "why_tests_cant": "all configurations and parameter names", "anchors": ["simulation/simple_sensor_simulator/src/sensor_simulation/detection_sensor/detection_sensor.cpp: autocorrelation_coefficient", "common/get_parameter/include/get_parameter/get_parameter.hpp"]}
{"id": "C54", "title": "Overriding of parameters", "statement": "A scenario loaded into the preprocessor is written with every declared parameter that was overridden before having the value last set, and all other parameters unchanged; overrides of undeclared parameters have no effect.", "quantifier": "every history of requests and every scenario", "why_tests_cant": "unbounded histories", "anchors": ["openscenario/openscenario_preprocessor/src/openscenario_preprocessor.cpp: preprocessScenario, set_parameter_server"]}
{"id": "C55", "title": "The result checker reports success only if every scenario succeeded", "statement": "After a run of the test runner the result checker reports success if and only if every scenario given to the runner ended with exit-success.", "quantifier": "every list of scenarios, every way they can end, every earlier result", "why_tests_cant": "all histories across four processes", "anchors": ["test_runner/scenario_test_runner/scenario_test_runner/scenario_test_runner.py: run_scenario, spin", "test_runner/scenario_test_runner/scenario_test_runner/result_checker.py: check", "openscenario/openscenario_interpreter/include/openscenario_interpreter/openscenario_interpreter.hpp: set"]}
{"id": "C56", "title": "Constraint groups of parameters", "statement": "A parameter declaration is accepted exactly if its name does not begin with OSC and there are no constraint groups or all constraints of at least one group hold for its value.", "quantifier": "every value, list of groups and constraints", "why_tests_cant": "unbounded lists", "anchors": ["openscenario/openscenario_interpreter/src/syntax/parameter_declaration.cpp", "openscenario/openscenario_interpreter/src/syntax/value_constraint.cpp", "openscenario/openscenario_interpreter/src/syntax/value_constraint_group.cpp"]}
{"id": "C57", "title": "Stopping distance", "statement": "The stopping distance computed for an entity is the distance it travels when it brakes to a stop, and its computation always ends.", "quantifier": "all constraints, states and step times", "why_tests_cant": "continuous domain and unbounded iteration", "anchors": ["simulation/traffic_simulator/src/behavior/longitudinal_speed_planning.cpp: getRunningDistance", "simulation/behavior_tree_plugin/src/action_node.cpp: calculateStopDistance"]}
{"id": "C58", "title": "Estimated duration of a speed change", "statement": "The estimated duration of a speed change is the time after which an entity following its limits on jerk and acceleration has the target speed.", "quantifier": "all constraints, states and targets", "why_tests_cant": "continuous domain", "anchors": ["simulation/traffic_simulator/src/behavior/longitudinal_speed_planning.cpp: getAccelerationDuration"]}
{"id": "C59", "title": "Speed change in a given time", "statement": "A speed change requested with a duration is planned so that the speed profile has the target speed exactly when the duration has passed.", "quantifier": "all constraints, states, targets and durations", "why_tests_cant": "continuous domain", "anchors": ["simulation/traffic_simulator/src/behavior/longitudinal_speed_planning.cpp: planConstraintsFromJerkAndTimeConstraint", "simulation/traffic_simulator/src/entity/entity_base.cpp: requestSpeedChangeWithTimeConstraint"]}
{"id": "C60", "title": "Canonical lanelet poses", "statement": "Canonicalizing a lanelet pose gives the same place on the road, with the longitudinal coordinate within its lanelet, or reports the lanelet at which the road ends; poses already canonical are unchanged, and the computation always ends.", "quantifier": "every road network with lanelets of at least some positive length, every pose and route", "why_tests_cant": "unbounded graphs and iteration", "anchors": ["simulation/traffic_simulator/src/lanelet_wrapper/pose.cpp: canonicalizeLaneletPose"]}
{"id": "C61", "title": "Movement along lanelets", "statement": "Moving a pose along the road by a distance gives the place at that distance along successive lanelets, or reports the end of the road.", "quantifier": "every road network, pose, distance and route", "why_tests_cant": "unbounded graphs and iteration", "anchors": ["simulation/traffic_simulator/src/lanelet_wrapper/pose.cpp: alongLaneletPose"]}
{"id": "C62", "title": "Lanelets ahead and behind", "statement": "The lanelets ahead of (behind) a lanelet form a connected path, along the route where one is given, which covers the requested distance or ends where the road ends, and is no longer than needed.", "quantifier": "every road network, lanelet, distance and route", "why_tests_cant": "unbounded graphs and iteration", "anchors": ["simulation/traffic_simulator/src/lanelet_wrapper/route.cpp: followingLanelets, previousLanelets"]}
{"id": "C63", "title": "Alternative lanelet poses", "statement": "The alternatives of a lanelet pose are all on the road and all denote the same place along some branch.", "quantifier": "every road network and pose", "why_tests_cant": "unbounded graphs and recursion", "anchors": ["simulation/traffic_simulator/src/lanelet_wrapper/pose.cpp: alternativeLaneletPoses"]}
{"id": "C64", "title": "Waypoints are dropped only when passed", "statement": "A waypoint of an entity's route is dropped only after the entity has passed it.", "quantifier": "every history of positions and assignments", "why_tests_cant": "unbounded histories", "anchors": ["simulation/traffic_simulator/src/behavior/route_planner.cpp: getRouteLanelets, cancelWaypoint, updateRoute"]}
{"id": "C65", "title": "The lanelets ahead lead to the next waypoint", "statement": "While waypoints remain and a route to the next one exists, the lanelets an entity is given to follow lead towards it.", "quantifier": "every history of positions and assignments, every road network", "why_tests_cant": "unbounded histories: depends on routes planned earlier", "anchors": ["simulation/traffic_simulator/src/behavior/route_planner.cpp: getRouteLanelets, updateRoute, setWaypoints"]}
{"id": "C66", "title": "Routes use the routing graph of the entity", "statement": "The route of an entity is planned on the routing graph for its own type.", "quantifier": "every interleaving of planning requests of several entities", "why_tests_cant": "state shared by all planners of the process", "anchors": ["simulation/traffic_simulator/src/behavior/route_planner.cpp: updateRoute (static routing_configuration)"]}
{"id": "C67", "title": "Shortest alternative pose", "statement": "Among the alternatives of a pose the one chosen is reachable if any is, with the fewest lanelets on the way.", "quantifier": "every list of alternatives and routing graph", "why_tests_cant": "all graphs", "anchors": ["simulation/traffic_simulator/src/data_type/lanelet_pose.cpp: getAlternativeLaneletPoseBaseOnShortestRouteFrom"]}
{"id": "C68", "title": "Detection noise is an autocorrelated process", "statement": "An entity is missing from a message of detected objects exactly if the random number drawn for it is not below the configured rate of true positives, weighted with the autocorrelation coefficient against whether it was in the previous message made from a frame with it.", "quantifier": "every history of frames, entities and random numbers", "why_tests_cant": "unbounded histories of remembered state", "anchors": ["simulation/simple_sensor_simulator/src/sensor_simulation/detection_sensor/detection_sensor.cpp: noise_v2, markov_process_noise"]}
{"id": "C69", "title": "Elements react to their triggers, and only to them", "statement": "An event or act in standby is started in the very evaluation in which its start trigger holds (unless it is a skip event and a sibling is running), and never otherwise. A running action is run once per frame and ends in the frame in which it is accomplished, and never otherwise. A running event or maneuver group ends when all its children are complete and is executed again while it has been executed less than maximumExecutionCount times.", "quantifier": "every storyboard, environment (trigger and completion behaviour depending on the whole history) and number of frames", "why_tests_cant": "unbounded histories and storyboards", "anchors": ["openscenario/openscenario_interpreter/include/openscenario_interpreter/syntax/storyboard_element.hpp: evaluate, transitionTo, override", "openscenario/openscenario_interpreter/src/syntax/event.cpp", "openscenario/openscenario_interpreter/src/syntax/act.cpp", "openscenario/openscenario_interpreter/src/syntax/maneuver_group.cpp", "openscenario/openscenario_interpreter/src/syntax/action.cpp"]}
{"id": "C70", "title": "SpeedAction ends when its actors have reached the target speed", "statement": "A SpeedAction that is neither a step nor continuous ends in the first frame by which each of its actors has had the target speed since the action started; with the shape step it ends at once, with a continuous relative target never.", "quantifier": "every list of actors and selections, every history of speeds", "why_tests_cant": "unbounded histories and any number of actors", "anchors": ["openscenario/openscenario_interpreter/src/syntax/speed_action.cpp: accomplished, start"]}
{"id": "C71", "title": "SpeedProfileAction goes through its entries in order", "statement": "Each actor of a SpeedProfileAction is asked for the entries in order, each once, the next one in the frame in which it has reached the one before; the action ends in the first frame by which all actors have reached the last entry.", "quantifier": "every profile, list of actors and history of speeds", "why_tests_cant": "unbounded histories, profiles and actors", "anchors": ["openscenario/openscenario_interpreter/src/syntax/speed_profile_action.cpp: start, run, accomplished"]}
{"id": "C72", "title": "Lane change and trajectory actions end when all have finished", "statement": "A LaneChangeAction or FollowTrajectoryAction that has started ends in the first frame by which all objects of all actors have finished, not before and not later.", "quantifier": "every list of actors and selections, every history of the behaviour of entities", "why_tests_cant": "unbounded histories and any number of actors", "anchors": ["openscenario/openscenario_interpreter/src/syntax/lane_change_action.cpp: accomplished", "openscenario/openscenario_interpreter/src/syntax/follow_trajectory_action.cpp: accomplished"]}
{"id": "C73", "title": "Each entity follows the trajectory it was given", "statement": "An object asked to follow a trajectory follows the vertices given, with their times scaled and moved as the timing says, starting from where it is.", "quantifier": "every trajectory, list of actors and selections", "why_tests_cant": "aliasing of shared objects, any number of actors", "anchors": ["openscenario/openscenario_interpreter/src/syntax/follow_trajectory_action.cpp: start", "openscenario/openscenario_interpreter/include/openscenario_interpreter/simulator_core.hpp: applyFollowTrajectoryAction"]}
{"id": "C74", "title": "Entities can be added when they are not in the simulation", "statement": "AddEntityAction puts the objects of an entity into the simulation at the position given and is an error only if one is there already. DeleteEntityAction removes them. TeleportAction puts each object of an actor at the position, adding those that are not in the simulation.", "quantifier": "every sequence of such actions on objects and selections", "why_tests_cant": "unbounded histories", "anchors": ["openscenario/openscenario_interpreter/src/syntax/add_entity_action.cpp", "openscenario/openscenario_interpreter/src/syntax/delete_entity_action.cpp", "openscenario/openscenario_interpreter/src/syntax/teleport_action.cpp", "openscenario/openscenario_interpreter/src/syntax/entities.cpp: isAdded"]}
{"id": "C75", "title": "Conditions on entities that are not in the simulation", "statement": "A condition that measures an entity can be evaluated whether or not the entity is in the simulation, and is not met while the entity is not.", "quantifier": "every condition, rule, entity, selection and history of additions and deletions", "why_tests_cant": "unbounded histories and all combinations", "anchors": ["openscenario/openscenario_interpreter/src/syntax/speed_condition.cpp", "openscenario/openscenario_interpreter/src/syntax/acceleration_condition.cpp", "openscenario/openscenario_interpreter/src/syntax/stand_still_condition.cpp", "openscenario/openscenario_interpreter/src/syntax/reach_position_condition.cpp", "openscenario/openscenario_interpreter/src/syntax/relative_speed_condition.cpp", "openscenario/openscenario_interpreter/src/syntax/time_headway_condition.cpp", "openscenario/openscenario_interpreter/include/openscenario_interpreter/syntax/rule.hpp"]}
{"id": "C76", "title": "Time headway", "statement": "The time headway of an entity is less than t exactly if the entity, behind the reference entity, reaches the present position of the reference entity before t has passed, at its present speed.", "quantifier": "every distance, speed and time", "why_tests_cant": "continuous domain", "anchors": ["openscenario/openscenario_interpreter/include/openscenario_interpreter/simulator_core.hpp: evaluateTimeHeadway", "openscenario/openscenario_interpreter/src/syntax/time_headway_condition.cpp"]}
{"id": "C77", "title": "Two line segments intersect exactly if they have a common point", "statement": "Asked whether two line segments (or any of a list) intersect, seen from above, the library says yes exactly if they have a point in common, ends included, also if they are parallel, on one line or of length zero.", "quantifier": "all pairs of segments and all lists of segments in the plane", "why_tests_cant": "continuous domain with many degenerate cases", "anchors": ["common/math/geometry/src/polygon/line_segment.cpp: isIntersect2D", "common/math/geometry/src/polygon/line_segment.cpp: relativePointPosition2D"]}
{"id": "C78", "title": "The intersection point is on both segments", "statement": "The intersection point of two line segments is reported if they have one, is a point of both, and is not reported otherwise.", "quantifier": "all pairs of segments in the plane", "why_tests_cant": "continuous domain with degenerate cases", "anchors": ["common/math/geometry/src/polygon/line_segment.cpp: getIntersection2D", "common/math/geometry/src/polygon/line_segment.cpp: getIntersection2DSValue"]}
{"id": "C79", "title": "Positions along a segment", "statement": "The point at the position s of a segment and the position of a point on it are inverse to each other, in both units (share of the length and metres), and the position of a crossing is the position of a common point.", "quantifier": "all segments, positions and points", "why_tests_cant": "continuous domain", "anchors": ["common/math/geometry/src/polygon/line_segment.cpp: getPoint", "common/math/geometry/src/polygon/line_segment.cpp: get2DIntersectionSValue", "common/math/geometry/src/polygon/line_segment.cpp: getIntersection2DSValue"]}
{"id": "C80", "title": "Sides, slopes and sides of polygons", "statement": "A point is reported to be on the left or right of a segment as documented; the slope of a segment is the ratio of the differences of its coordinates unless it is vertical; the segments of a list of points are those between neighbours, and the closing one on request.", "quantifier": "all segments, points and lists of points", "why_tests_cant": "continuous domain, lists of any length", "anchors": ["common/math/geometry/src/polygon/line_segment.cpp: relativePointPosition2D", "common/math/geometry/src/polygon/line_segment.cpp: getSlope", "common/math/geometry/src/polygon/line_segment.cpp: getLineSegments"]}
{"id": "C81", "title": "The closest point of a polygon is the closest point", "statement": "The projection of a point to a segment, and the closest point of a polygon, belong to the segment or outline, and no other point of it is closer.", "quantifier": "all points, segments and polygons with any number of vertices", "why_tests_cant": "continuous domain, quantification over all points of an outline", "anchors": ["common/math/geometry/src/bounding_box.cpp: pointToSegmentProjection", "common/math/geometry/src/bounding_box.cpp: getClosestPointOnPolygon"]}
{"id": "C82", "title": "Relative position of two bounding boxes", "statement": "For entities whose boxes are disjoint, the relative pose of the boxes leads from a point of the first box to a point of the second, and no two points of the boxes are closer to each other.", "quantifier": "all positions, headings and box sizes", "why_tests_cant": "continuous domain, quantification over all points of two outlines", "anchors": ["common/math/geometry/src/bounding_box.cpp: getClosestPoses", "simulation/traffic_simulator/src/utils/pose.cpp: boundingBoxRelativePose"]}
{"id": "C83", "title": "Transformations of poses are rigid and invertible", "statement": "Moving points with a pose keeps distances; relative and global pose are inverse to each other; applying one pose after another is applying the combined pose; the position seen from a sensor is the position relative to it; truncating and normalising a vector keep its direction.", "quantifier": "all poses, points and vectors", "why_tests_cant": "continuous domain", "anchors": ["common/math/geometry/src/transform.cpp: transformPoint", "common/math/geometry/src/transform.cpp: getRelativePose", "simulation/traffic_simulator/src/utils/pose.cpp: transformRelativePoseToGlobal", "common/math/geometry/include/geometry/vector3/truncate.hpp", "common/math/geometry/include/geometry/vector3/normalize.hpp"]}
{"id": "C84", "title": "Orientations from angles and directions", "statement": "The orientation given by roll, pitch and yaw turns about the x, y and z axes by these angles in this order; a pose with heading h turns points by h; the orientation of a direction makes the forward axis point in this direction and keeps the left axis horizontal.", "quantifier": "all angles, points and directions", "why_tests_cant": "continuous domain", "anchors": ["common/math/geometry/include/geometry/quaternion/euler_to_quaternion.hpp", "common/math/geometry/include/geometry/quaternion/direction_to_quaternion.hpp", "common/math/geometry/include/geometry/quaternion/get_rotation_matrix.hpp"]}
{"id": "C85", "title": "Interpolation between orientations", "statement": "Interpolation between two orientations starts at the first, ends at the second, always yields an orientation, turns evenly and takes the short way; the angle between two headings is the smaller of the two turns between them.", "quantifier": "all pairs of unit quaternions and all ratios", "why_tests_cant": "continuous domain", "anchors": ["common/math/geometry/include/geometry/quaternion/slerp.hpp", "common/math/geometry/include/geometry/quaternion/get_angle_difference.hpp"]}
{"id": "C86", "title": "Polynomial equations are solved", "statement": "The solver returns exactly the real roots of a polynomial of degree up to three that are in the range asked for, up to the tolerance of 1e-7 at the ends of the range.", "quantifier": "all coefficients and ranges", "why_tests_cant": "continuous domain; the failures are on thin sets that samples miss", "anchors": ["common/math/geometry/src/solver/polynomial_solver.cpp: solveLinearEquation", "common/math/geometry/src/solver/polynomial_solver.cpp: solveQuadraticEquation", "common/math/geometry/src/solver/polynomial_solver.cpp: solveCubicEquation", "common/math/geometry/src/solver/polynomial_solver.cpp: solveMonicCubicEquationWithComplex", "common/math/geometry/src/solver/polynomial_solver.cpp: filterByRange"]}
{"id": "C87", "title": "A Hermite curve has the ends and tangents it is made of", "statement": "The curve made from two end points and two vectors starts at the first point with the first vector as tangent and ends at the second with the second; its tangent is the derivative of its point, and its normal points to the left.", "quantifier": "all points, vectors and places on the curve", "why_tests_cant": "continuous domain", "anchors": ["common/math/geometry/src/spline/hermite_curve.cpp: HermiteCurve", "common/math/geometry/src/spline/hermite_curve.cpp: getPoint", "common/math/geometry/src/spline/hermite_curve.cpp: getTangentVector", "common/math/geometry/src/spline/hermite_curve.cpp: getNormalVector"]}
{"id": "C88", "title": "A spline goes through its control points without jumps", "statement": "A Catmull-Rom spline passes its control points in the given order, the last one at its length; neither its point nor its tangent jumps anywhere, and the tangent at an inner control point is half of the way between its neighbours.", "quantifier": "all lists of points of any length, all places", "why_tests_cant": "continuous domain, lists of any length", "anchors": ["common/math/geometry/src/spline/catmull_rom_spline.cpp: CatmullRomSpline", "common/math/geometry/src/spline/catmull_rom_spline.cpp: getPoint", "common/math/geometry/src/spline/catmull_rom_spline.cpp: getTangentVector"]}
{"id": "C89", "title": "Places on a spline and on its curves correspond", "statement": "Every place on a spline belongs to one of its curves, and going from the spline to the curve and back, or from the curve to the spline and back, changes nothing.", "quantifier": "all splines of at least three control points, all places", "why_tests_cant": "continuous domain, any number of curves", "anchors": ["common/math/geometry/src/spline/catmull_rom_spline.cpp: getCurveIndexAndS", "common/math/geometry/src/spline/catmull_rom_spline.cpp: getSInSplineCurve"]}
{"id": "C90", "title": "Trajectories are sampled evenly from start to end", "statement": "The points of a trajectory along a spline begin at the start, end at the end and are the resolution apart but for the last step, forwards and backwards; a resolution of zero is refused.", "quantifier": "all splines of at least three control points, starts, ends and resolutions", "why_tests_cant": "continuous domain; number of points without bound", "anchors": ["common/math/geometry/src/spline/catmull_rom_spline.cpp: getTrajectory", "common/math/geometry/src/spline/catmull_rom_spline.cpp: getTrajectoryPoses"]}
{"id": "C91", "title": "Crossings of a curve with lines and polygons", "statement": "The crossings that a curve reports with a line segment or the outline of a polygon, seen from above, are exactly the places where its point is on it.", "quantifier": "all curves, segments and polygons with any number of vertices", "why_tests_cant": "continuous domain with degenerate cases", "anchors": ["common/math/geometry/src/spline/hermite_curve.cpp: getCollisionPointsIn2D", "common/math/geometry/src/spline/hermite_curve.cpp: getCollisionPointIn2D"]}
{"id": "C92", "title": "Crossings of a spline and the place of a pose on it", "statement": "The crossing of a spline with a polygon or line is the first one (backwards: the last one), restricted to the range of places asked for; the place of a pose on a spline is the first one whose point is straight beside the pose within the reach, and a pose on the spline has one.", "quantifier": "all splines, polygons, segments, ranges and poses", "why_tests_cant": "continuous domain, any number of curves and vertices", "anchors": ["common/math/geometry/src/spline/catmull_rom_spline.cpp: getCollisionPointsIn2D", "common/math/geometry/src/spline/catmull_rom_spline.cpp: getCollisionPointIn2D", "common/math/geometry/src/spline/catmull_rom_spline.cpp: getSValue"]}
{"id": "C93", "title": "Offsets and bounds of a spline are on the right side", "statement": "The point of a spline with an offset is straight to the left of the spline by the offset; the left and right bounds are half of the width to the left and to the right.", "quantifier": "all splines, places, offsets and widths", "why_tests_cant": "continuous domain", "anchors": ["common/math/geometry/src/spline/catmull_rom_spline.cpp: getPoint", "common/math/geometry/src/spline/catmull_rom_spline.cpp: getRightBounds", "common/math/geometry/src/spline/catmull_rom_spline.cpp: getLeftBounds"]}
{"id": "C94", "title": "The ego moves in the direction of its gear", "statement": "With a geared vehicle model the ego never goes backward in a forward gear and never forward in a reverse gear; in any other gear it stands still in place. Otherwise a geared model moves as the one without gears.", "quantifier": "every state, gear, command, step time and set of parameters, every geared model", "why_tests_cant": "continuous states and inputs", "anchors": ["simulation/simple_sensor_simulator/src/vehicle_simulation/vehicle_model/sim_model_delay_steer_acc_geared.cpp: updateStateWithGear", "simulation/simple_sensor_simulator/src/vehicle_simulation/vehicle_model/sim_model_ideal_steer_acc_geared.cpp: updateStateWithGear", "simulation/simple_sensor_simulator/src/vehicle_simulation/vehicle_model/sim_model_delay_steer_map_acc_geared.cpp: updateStateWithGear"]}
{"id": "C95", "title": "Limits of velocity, acceleration and steering rate are kept", "statement": "Whatever is commanded, the speed of the ego never exceeds the configured limit, its velocity and its steering angle never change faster than their limits allow, for all vehicle models that have these limits.", "quantifier": "every history of gears and commands, every set of parameters, every model with limits", "why_tests_cant": "unbounded histories, continuous domain", "anchors": ["simulation/simple_sensor_simulator/src/vehicle_simulation/vehicle_model/sim_model_delay_steer_acc.cpp", "simulation/simple_sensor_simulator/src/vehicle_simulation/vehicle_model/sim_model_delay_steer_acc_geared.cpp", "simulation/simple_sensor_simulator/src/vehicle_simulation/vehicle_model/sim_model_delay_steer_acc_geared_wo_fall_guard.cpp", "simulation/simple_sensor_simulator/src/vehicle_simulation/vehicle_model/sim_model_delay_steer_map_acc_geared.cpp", "simulation/simple_sensor_simulator/src/vehicle_simulation/vehicle_model/sim_model_delay_steer_vel.cpp"]}
{"id": "C96", "title": "The ego approaches what is commanded", "statement": "Steering angle, acceleration and velocity of the delayed models go towards the command, limited to the configured range, exponentially with the configured time constant (or at the limit of the rate) and never beyond it; within the dead band the steering does not move.", "quantifier": "every state, command, step time and set of parameters; every history", "why_tests_cant": "continuous domain, unbounded histories", "anchors": ["simulation/simple_sensor_simulator/src/vehicle_simulation/vehicle_model/sim_model_delay_steer_acc.cpp", "simulation/simple_sensor_simulator/src/vehicle_simulation/vehicle_model/sim_model_delay_steer_acc_geared.cpp", "simulation/simple_sensor_simulator/src/vehicle_simulation/vehicle_model/sim_model_delay_steer_acc_geared_wo_fall_guard.cpp", "simulation/simple_sensor_simulator/src/vehicle_simulation/vehicle_model/sim_model_delay_steer_map_acc_geared.cpp", "simulation/simple_sensor_simulator/src/vehicle_simulation/vehicle_model/sim_model_delay_steer_vel.cpp"]}
{"id": "C97", "title": "Commands take effect after the configured delay", "statement": "A delayed model behaves as the same model without delay that gets each command later by the configured delay, rounded to whole steps; gear and slope are not delayed. Ideal models answer at once.", "quantifier": "every sequence of gears and commands, every delay and step time", "why_tests_cant": "unbounded histories", "anchors": ["simulation/simple_sensor_simulator/src/vehicle_simulation/vehicle_model/sim_model_delay_steer_acc.cpp", "simulation/simple_sensor_simulator/src/vehicle_simulation/vehicle_model/sim_model_delay_steer_acc_geared.cpp", "simulation/simple_sensor_simulator/src/vehicle_simulation/vehicle_model/sim_model_delay_steer_acc_geared_wo_fall_guard.cpp", "simulation/simple_sensor_simulator/src/vehicle_simulation/vehicle_model/sim_model_delay_steer_map_acc_geared.cpp", "simulation/simple_sensor_simulator/src/vehicle_simulation/vehicle_model/sim_model_delay_steer_vel.cpp"]}
{"id": "C98", "title": "The pose of the ego follows from its velocity and steering", "statement": "One step with straight wheels moves the ego along its heading by v\u00b7dt + a\u00b7dt\u00b2/2; the heading of the ideal models changes by this distance times the curvature; no step is longer than the greatest speed times the step time; an ego at rest with nothing commanded on level ground stays in place.", "quantifier": "every state, command, step time and set of parameters", "why_tests_cant": "continuous domain", "anchors": ["simulation/simple_sensor_simulator/src/vehicle_simulation/vehicle_model/sim_model_delay_steer_acc.cpp", "simulation/simple_sensor_simulator/src/vehicle_simulation/vehicle_model/sim_model_delay_steer_acc_geared.cpp", "simulation/simple_sensor_simulator/src/vehicle_simulation/vehicle_model/sim_model_delay_steer_acc_geared_wo_fall_guard.cpp", "simulation/simple_sensor_simulator/src/vehicle_simulation/vehicle_model/sim_model_delay_steer_map_acc_geared.cpp", "simulation/simple_sensor_simulator/src/vehicle_simulation/vehicle_model/sim_model_delay_steer_vel.cpp", "simulation/simple_sensor_simulator/src/vehicle_simulation/vehicle_model/sim_model_ideal_steer_acc.cpp", "simulation/simple_sensor_simulator/src/vehicle_simulation/vehicle_model/sim_model_ideal_steer_vel.cpp", "simulation/simple_sensor_simulator/src/vehicle_simulation/vehicle_model/sim_model_interface.cpp: updateRungeKutta"]}
{"id": "C99", "title": "The acceleration map is followed", "statement": "The entries of the map are those of the file. Between the commands and velocities of the map the acceleration is interpolated, at them it is the entry, outside the nearest place in the map counts. A file that is no usable map is refused when the vehicle is made.", "quantifier": "every file, command and velocity", "why_tests_cant": "tables of any size, continuous domain", "anchors": ["simulation/simple_sensor_simulator/src/vehicle_simulation/vehicle_model/sim_model_delay_steer_map_acc_geared.cpp: lerp", "simulation/simple_sensor_simulator/src/vehicle_simulation/vehicle_model/sim_model_delay_steer_map_acc_geared.cpp: clampValue", "simulation/simple_sensor_simulator/src/vehicle_simulation/vehicle_model/sim_model_delay_steer_map_acc_geared.cpp: validateData", "simulation/simple_sensor_simulator/include/simple_sensor_simulator/vehicle_simulation/vehicle_model/sim_model_delay_steer_map_acc_geared.hpp: getAcceleration", "simulation/simple_sensor_simulator/include/simple_sensor_simulator/vehicle_simulation/vehicle_model/sim_model_delay_steer_map_acc_geared.hpp: readAccelerationMapFromCSV"]}
{"id": "C100", "title": "Brakes, gears and slopes without fall guard", "statement": "With the model without fall guard, a brake that outweighs the slope holds the ego and brings it to rest without turning it back; the accelerator moves it in the direction of its gear; in PARK it stands.", "quantifier": "every state, gear, slope, pedal and step time", "why_tests_cant": "continuous domain, unbounded histories", "anchors": ["simulation/simple_sensor_simulator/src/vehicle_simulation/vehicle_model/sim_model_delay_steer_acc_geared_wo_fall_guard.cpp: calcModel", "simulation/simple_sensor_simulator/src/vehicle_simulation/vehicle_model/sim_model_delay_steer_acc_geared_wo_fall_guard.cpp: update"]}
{"id": "C101", "title": "The ego is on the map where its vehicle model has driven to", "statement": "Seen from above, the ego is where its vehicle model has driven to, counted from the pose of the spawning, after any sequence of updates and overwritings. Off the lanes it is turned by the yaw of the model and keeps its height; on a lane it has the height and orientation of the lane. It never jumps: an update moves it at most as far as its speed allows, and not at all before the scenario starts.", "quantifier": "every vehicle model, road, pose of the spawning and sequence of updates and overwritings", "why_tests_cant": "continuous domain, unbounded histories", "anchors": ["simulation/simple_sensor_simulator/src/vehicle_simulation/ego_entity_simulation.cpp: update", "simulation/simple_sensor_simulator/src/vehicle_simulation/ego_entity_simulation.cpp: updateStatus", "simulation/simple_sensor_simulator/src/vehicle_simulation/ego_entity_simulation.cpp: getCurrentPose", "simulation/simple_sensor_simulator/src/vehicle_simulation/ego_entity_simulation.cpp: setStatus"]}
{"id": "C102", "title": "An overwritten ego is where it is put and moves as it is told", "statement": "After an overwriting the ego is reported with the given position, heading, speed, acceleration and rate of turn; on a lane only its height is that of the lane.", "quantifier": "every vehicle model, state of the ego, road and given status", "why_tests_cant": "continuous domain", "anchors": ["simulation/simple_sensor_simulator/src/vehicle_simulation/ego_entity_simulation.cpp: overwrite", "simulation/simple_sensor_simulator/src/vehicle_simulation/ego_entity_simulation.cpp: updateStatus"]}
{"id": "C103", "title": "How the commands of Autoware move the ego", "statement": "After the start of the scenario each update moves the vehicle model by one step with the gear, the steering angle and the speed or acceleration of the command, the acceleration in the direction of the gear plus gravity on the lane; before the start commands do nothing. An ego with a geared model never moves against its gear. Gravity slows it uphill, speeds it up downhill and is never more than 9.81.", "quantifier": "every vehicle model, state of the ego, road and command", "why_tests_cant": "continuous domain, unbounded histories", "anchors": ["simulation/simple_sensor_simulator/src/vehicle_simulation/ego_entity_simulation.cpp: update", "simulation/simple_sensor_simulator/src/vehicle_simulation/ego_entity_simulation.cpp: calculateAccelerationBySlope", "external/concealer/src/autoware_universe.cpp: getVehicleCommand"]}
{"id": "C104", "title": "The reported motion of the ego is consistent", "statement": "The reported accelerations and jerk are the changes of the reported velocities and accelerations per time, the lateral acceleration is speed times rate of turn, Autoware is told the same pose and motion as is reported, and the status carries the time of the call.", "quantifier": "every vehicle model and sequence of updates and overwritings", "why_tests_cant": "unbounded histories", "anchors": ["simulation/simple_sensor_simulator/src/vehicle_simulation/ego_entity_simulation.cpp: getCurrentTwist", "simulation/simple_sensor_simulator/src/vehicle_simulation/ego_entity_simulation.cpp: getCurrentAccel", "simulation/simple_sensor_simulator/src/vehicle_simulation/ego_entity_simulation.cpp: getLinearJerk", "simulation/simple_sensor_simulator/src/vehicle_simulation/ego_entity_simulation.cpp: setAutowareStatus", "simulation/simple_sensor_simulator/src/vehicle_simulation/ego_entity_simulation.cpp: updateStatus", "simulation/simple_sensor_simulator/src/vehicle_simulation/ego_entity_simulation.cpp: updatePreviousValues"]}
{"id": "C105", "title": "Who moves the ego", "statement": "There is at most one ego in the sensor simulator. An update moves the ego with the command of Autoware, unless the request overwrites the ego or an earlier one has done so and the AUTONOMOUS mode was not requested since; then the ego takes the given status. The answer for the ego is the status of its simulation. The MANUAL mode cannot be requested from outside.", "quantifier": "every sequence of initializations, spawns, despawns, updates and mode requests", "why_tests_cant": "unbounded histories", "anchors": ["simulation/simple_sensor_simulator/src/simple_sensor_simulator.cpp: updateEntityStatus", "simulation/simple_sensor_simulator/src/simple_sensor_simulator.cpp: spawnVehicleEntity", "simulation/simple_sensor_simulator/src/simple_sensor_simulator.cpp: despawnEntity", "external/concealer/src/autoware_universe.cpp: control_mode_request_server"]}
{"id": "C106", "title": "The sensor simulator knows exactly the entities that there are", "statement": "After any requests the sensor simulator knows exactly the entities that were spawned and neither despawned nor forgotten by an initialization, each with the kind it was spawned with. Updates of known entities succeed, answer in the order of the request and store what was sent; updates of unknown ones are errors; despawning succeeds exactly for known ones; frames succeed exactly after an initialization.", "quantifier": "every sequence of requests", "why_tests_cant": "unbounded histories", "anchors": ["simulation/simple_sensor_simulator/src/simple_sensor_simulator.cpp: initialize", "simulation/simple_sensor_simulator/src/simple_sensor_simulator.cpp: updateFrame", "simulation/simple_sensor_simulator/src/simple_sensor_simulator.cpp: updateEntityStatus", "simulation/simple_sensor_simulator/src/simple_sensor_simulator.cpp: spawnVehicleEntity", "simulation/simple_sensor_simulator/src/simple_sensor_simulator.cpp: spawnPedestrianEntity", "simulation/simple_sensor_simulator/src/simple_sensor_simulator.cpp: spawnMiscObjectEntity", "simulation/simple_sensor_simulator/src/simple_sensor_simulator.cpp: despawnEntity", "simulation/simple_sensor_simulator/src/simple_sensor_simulator.cpp: getBoundingBox", "simulation/simple_sensor_simulator/src/simple_sensor_simulator.cpp: insertEntitySpawnedStatus"]}
{"id": "C107", "title": "Messages arrive as they were sent", "statement": "Statuses, updates, parameters, trajectories and gears that the traffic simulator sends to the sensor simulator, and the answers, arrive with the content they were sent with, whatever the receiving object held before.", "quantifier": "all messages", "why_tests_cant": "all values of all members", "anchors": ["simulation/simulation_interface/src/conversions.cpp: toProto, toMsg", "simulation/simulation_interface/include/simulation_interface/conversions.hpp"]}
{"id": "C108", "title": "What is published about traffic lights is their state", "statement": "A traffic light group is published exactly if a light with bulbs belongs to it, and shows colour, state, shape and confidence of these bulbs, those that are set as detected if there are any. Its predictions are those requested for the light, phases apart by more than 10 ms, no state lost and none added.", "quantifier": "every set of lights, detections and requested predictions", "why_tests_cant": "any number of lights, groups and requests", "anchors": ["simulation/traffic_simulator/include/traffic_simulator/traffic_lights/traffic_light.hpp: operator TrafficSignal, operator TrafficLight", "simulation/traffic_simulator/src/traffic_lights/traffic_light_publisher.cpp: generateMessage", "simulation/traffic_simulator/include/traffic_simulator/traffic_lights/traffic_lights.hpp: apply", "simulation/traffic_simulator/src/traffic_lights/traffic_lights.cpp: addTrafficLightsStatePrediction", "simulation/simulation_interface/include/simulation_interface/conversions.hpp: toMsg"]}
{"id": "C109", "title": "A change of speed with limited jerk arrives exactly", "statement": "The acceleration that the controller of trajectories chooses to get from one speed to another with a given rate brings the entity, reduced by the rate in every step, exactly to the other speed after a whole number of steps, never past it, and what is left of the acceleration then is at most one step of the rate.", "quantifier": "all speeds, rates and step times", "why_tests_cant": "continuous domain, unbounded number of steps", "anchors": ["simulation/traffic_simulator/include/traffic_simulator/behavior/follow_waypoint_controller.hpp: accelerationWithJerkConstraint"]}
{"id": "C110", "title": "Entities on trajectories keep their limits", "statement": "The acceleration chosen for an entity that follows a trajectory is within its limits of acceleration and deceleration, changes per step at most by its limits of the rates, and leaves the speed between zero and the target speed.", "quantifier": "all vehicles, speeds, accelerations, distances and times", "why_tests_cant": "continuous domain", "anchors": ["simulation/traffic_simulator/src/behavior/follow_waypoint_controller.cpp: getAccelerationLimits", "simulation/traffic_simulator/src/behavior/follow_waypoint_controller.cpp: getAcceleration", "simulation/traffic_simulator/include/traffic_simulator/behavior/follow_waypoint_controller.hpp: clampAcceleration"]}
{"id": "C111", "title": "The limits can always be kept", "statement": "An entity that follows a trajectory never comes to a speed and acceleration from which the limits cannot be kept: the controller does not fail with contradictory limits, and speed and acceleration stay in their ranges in every step.", "quantifier": "every history of steps with any waypoints and times, all vehicles", "why_tests_cant": "unbounded histories, continuous domain", "anchors": ["simulation/traffic_simulator/src/behavior/follow_waypoint_controller.cpp: getAccelerationLimits", "simulation/traffic_simulator/src/behavior/follow_waypoint_controller.cpp: getAcceleration"]}
{"id": "C112", "title": "The best of the accelerations is chosen", "statement": "Of the accelerations it looks at, the controller chooses one whose predicted stop is best (at the waypoint or before it rather than behind, then nearest), or for a timed waypoint one whose predicted arrival is nearest to the time, and the strongest acceleration or braking if even that is too late or too early; in the last steps before the time the remaining distance is travelled exactly if the limits allow.", "quantifier": "all vehicles, speeds, accelerations, distances and times", "why_tests_cant": "continuous domain, predictions of any number of steps", "anchors": ["simulation/traffic_simulator/src/behavior/follow_waypoint_controller.cpp: getAcceleration", "simulation/traffic_simulator/src/behavior/follow_waypoint_controller.cpp: getPredictedStopEntityStatusWithoutConsideringTime", "simulation/traffic_simulator/src/behavior/follow_waypoint_controller.cpp: getPredictedWaypointArrivalState", "simulation/traffic_simulator/include/traffic_simulator/behavior/follow_waypoint_controller.hpp: roundTimeToFullStepsWithTolerance", "simulation/traffic_simulator/src/behavior/follow_waypoint_controller.cpp: getAnalyticalAccelerationForLastSteps"]}
{"id": "C113", "title": "Waypoints are reached in order, each at its time", "statement": "An entity that follows a trajectory leaves its waypoints behind one after the other, each only when it is reached and its time has come; it moves straight towards the next waypoint by the mean of the old and the new speed, reports the speed, acceleration and heading that belong to this, misses no timed waypoint by more than a step without an error, brakes at the end, waits there for the time, and is done exactly when it stands still at the last waypoint. Every call returns.", "quantifier": "all trajectories, vehicles, speeds, positions, steps and histories of frames", "why_tests_cant": "unbounded lists of waypoints and frames, recursion over reached waypoints, continuous domain", "anchors": ["simulation/traffic_simulator/src/behavior/follow_trajectory.cpp: makeUpdatedStatus"]}
{"id": "C114", "title": "Entities without behaviour are where their trajectory is at every time", "statement": "An entity with the do-nothing behaviour that follows a trajectory is, between the times of two consecutive vertices, at the interpolated place on the line between them with the constant speed that this takes; from the time of the last vertex on it is there and no longer follows; before the first it waits; without a trajectory it stays at rest; trajectories it cannot follow are refused with an error.", "quantifier": "all trajectories with timed vertices, all times and steps, all maps", "why_tests_cant": "continuous time, unbounded lists of vertices", "anchors": ["simulation/do_nothing_plugin/src/plugin.cpp: DoNothingBehavior::update, interpolateEntityStatusFromPolylineTrajectory, checkPolylineTrajectory, getLastVertexTimestamp"]}
{"id": "C115", "title": "Attributes have the value that their text stands for", "statement": "The value of an attribute is its text with all substitutions $(word argument) replaced, innermost first, by the directory of the scenario, the share directory of a package, the output of a ros2 command or a parameter, everything else unchanged; then $name and ${expression} are evaluated. Unknown substitutions, packages and parameters, values that do not fit and missing required attributes are errors; reading always returns.", "quantifier": "all texts with any nesting of substitutions, all parameters", "why_tests_cant": "texts and nestings of any size, a loop over a regular expression", "anchors": ["openscenario/openscenario_interpreter/src/reader/attribute.cpp: substitute", "openscenario/openscenario_interpreter/include/openscenario_interpreter/reader/attribute.hpp: readAttribute"]}
{"id": "C116", "title": "Elements are read as the schema says", "statement": "Elements that may occur several times are all read, in the order of the document, and it is an error if there are too few, too many or one that cannot be read; of alternatives exactly one has to be given, and it is the one that is read; optional elements that are not there have their default; nothing that is written is ignored.", "quantifier": "all documents, bounds and alternatives", "why_tests_cant": "documents of any size", "anchors": ["openscenario/openscenario_interpreter/include/openscenario_interpreter/reader/element.hpp: traverse, readElement, readElements, readGroups", "openscenario/openscenario_interpreter/src/reader/element.cpp: choice", "openscenario/openscenario_interpreter/src/syntax/deterministic.cpp", "openscenario/openscenario_interpreter/src/syntax/deterministic_parameter_distribution.cpp"]}
{"id": "C117", "title": "A line marks the cells it goes through", "statement": "Walking along a line over the occupancy grid always ends. It visits the cells that the line goes through, except the one in which it ends, and only cells that the line touches.", "quantifier": "all lines", "why_tests_cant": "continuous domain, unbounded number of cells", "anchors": ["simulation/simple_sensor_simulator/src/sensor_simulation/occupancy_grid/grid_traversal.cpp: GridTraversal"]}
{"id": "C118", "title": "Cells of the occupancy grid with an object are occupied", "statement": "After any number of frames and objects a cell of the occupancy grid is occupied if a point of an object is in it, else invisible if it is covered by what an object hides, else free; what is drawn is between the outlines of the objects; nothing outside the grid is written and no counter overflows.", "quantifier": "all grids, objects, earlier frames", "why_tests_cant": "continuous domain, any number of objects and cells, histories", "anchors": ["simulation/simple_sensor_simulator/src/sensor_simulation/occupancy_grid/occupancy_grid_builder.cpp: addPolygon, add, build, reset"]}
{"id": "C119", "title": "The occupancy grid shows the detected entities where they are", "statement": "The published occupancy grid shows exactly the entities other than the ego that the lidar has detected, and that are in range if this is asked for, each with its bounding box at its place on the map. Equal names and a missing ego are errors.", "quantifier": "all sets of entities, settings, earlier frames", "why_tests_cant": "any number of entities, continuous domain", "anchors": ["simulation/simple_sensor_simulator/src/sensor_simulation/occupancy_grid/occupancy_grid_sensor.cpp: getOccupancyGrid, getDetectedObjects, getSensorPose", "simulation/simple_sensor_simulator/src/sensor_simulation/occupancy_grid/occupancy_grid_builder.cpp: transformToGrid, transformToPixel, makeOccupiedArea", "simulation/simple_sensor_simulator/src/sensor_simulation/primitives/box.cpp", "simulation/simple_sensor_simulator/src/sensor_simulation/primitives/primitive.cpp: transform"]}
{"id": "C120", "title": "What is behind an object is invisible", "statement": "Every point of the grid that an object hides from the sensor belongs to the area that is made invisible, nothing else does, the area is on the grid, and its computation always ends. If the object surrounds the sensor, the whole grid is invisible.", "quantifier": "all convex polygons on the grid, all grids", "why_tests_cant": "continuous domain", "anchors": ["simulation/simple_sensor_simulator/src/sensor_simulation/occupancy_grid/occupancy_grid_builder.cpp: makeInvisibleArea"]}
{"id": "C121", "title": "Every frame moves a vehicle exactly once", "statement": "In every frame a vehicle that has only its lane to follow is moved exactly once, whatever it did before and whatever is around it; the frame ends and throws nothing of its own.", "quantifier": "every history of frames, requests and changes around the vehicle", "why_tests_cant": "unbounded histories, every combination of what the vehicle sees", "anchors": ["simulation/behavior_tree_plugin/src/vehicle/behavior_tree.cpp: update, tickOnce", "simulation/behavior_tree_plugin/src/action_node.cpp: executeTick", "simulation/behavior_tree_plugin/src/transition_events/transition_event.cpp", "simulation/behavior_tree_plugin/src/transition_events/reset_request_event.cpp", "simulation/behavior_tree_plugin/config/vehicle_entity_behavior.xml"]}
{"id": "C122", "title": "Requests are carried out at once and end when they are done", "statement": "A request to follow a trajectory or to change lanes is carried out in the next frame, whatever the vehicle was doing. When it is done, the request is over and the vehicle follows its lane again; if it cannot be carried out, it is dropped and the vehicle follows its lane in the same frame.", "quantifier": "every history of frames, requests and changes around the vehicle", "why_tests_cant": "unbounded histories", "anchors": ["simulation/behavior_tree_plugin/src/vehicle/behavior_tree.cpp: update", "simulation/behavior_tree_plugin/src/transition_events/reset_request_event.cpp", "simulation/behavior_tree_plugin/src/vehicle/follow_trajectory_sequence/follow_polyline_trajectory_action.cpp: doAction", "simulation/behavior_tree_plugin/src/vehicle/lane_change_action.cpp: doAction"]}
{"id": "C123", "title": "Vehicles slow down for red lights", "statement": "A vehicle that looks out and need not give way slows down for a red light within the way of the next five seconds (at least 20 m, at most 50 m): it keeps its speed as long as there is more way left than it needs to stop, and stops otherwise.", "quantifier": "every history and everything the vehicle can see", "why_tests_cant": "unbounded histories, continuous domain", "anchors": ["simulation/behavior_tree_plugin/src/vehicle/follow_lane_sequence/stop_at_traffic_light_action.cpp: doAction, calculateTargetSpeed", "simulation/behavior_tree_plugin/src/vehicle/follow_lane_sequence/follow_lane_action.cpp: doAction", "simulation/behavior_tree_plugin/src/vehicle/follow_lane_sequence/follow_front_entity_action.cpp: doAction"]}
{"id": "C124", "title": "Vehicles keep their distance", "statement": "A vehicle that looks out and need not give way is not faster than a slower entity close in front of it, and stops if that entity is nearer than the way it needs to stop.", "quantifier": "every history and everything the vehicle can see", "why_tests_cant": "unbounded histories, continuous domain", "anchors": ["simulation/behavior_tree_plugin/src/vehicle/follow_lane_sequence/follow_front_entity_action.cpp: doAction", "simulation/behavior_tree_plugin/src/vehicle/follow_lane_sequence/follow_lane_action.cpp: doAction", "simulation/behavior_tree_plugin/src/action_node.cpp: getDistanceToFrontEntity"]}
{"id": "C125", "title": "Vehicles stop at stop lines and then drive on", "statement": "A vehicle that looks out and need not give way slows down for a stop line in front of it until it stands, and then crosses the line.", "quantifier": "every history and everything the vehicle can see", "why_tests_cant": "unbounded histories, continuous domain", "anchors": ["simulation/behavior_tree_plugin/src/vehicle/follow_lane_sequence/stop_at_stop_line_action.cpp: doAction, calculateTargetSpeed", "simulation/behavior_tree_plugin/src/vehicle/follow_lane_sequence/follow_lane_action.cpp: doAction"]}
{"id": "C126", "title": "Vehicles do not exceed the speed they are to drive at", "statement": "The speed toward which a vehicle is moved on its lane is not negative and at most the speed it is to drive at.", "quantifier": "every history and everything the vehicle can see", "why_tests_cant": "unbounded histories, continuous domain", "anchors": ["simulation/behavior_tree_plugin/src/vehicle/follow_lane_sequence/follow_lane_action.cpp: doAction", "simulation/behavior_tree_plugin/src/vehicle/follow_lane_sequence/follow_front_entity_action.cpp: doAction", "simulation/behavior_tree_plugin/src/vehicle/follow_lane_sequence/stop_at_crossing_entity_action.cpp: doAction", "simulation/behavior_tree_plugin/src/vehicle/follow_lane_sequence/yield_action.cpp: doAction"]}
{"id": "C127", "title": "Lane changes take the time they are to take and end on the target lane", "statement": "A lane change starts in the next frame, takes the time that its constraint asks for, moves the vehicle evenly along the way between the lanes, and ends on the target lane, as far as the vehicle has come then.", "quantifier": "all vehicles, roads, constraints, policies and histories", "why_tests_cant": "unbounded number of frames, continuous domain", "anchors": ["simulation/behavior_tree_plugin/src/vehicle/lane_change_action.cpp: doAction"]}
{"id": "C128", "title": "Distances along and across lanes are those of the road", "statement": "The longitudinal distance of two places is the way along the road from the one to the other, forwards if positive; the distance back is the opposite, distances add up, and if there are two ways, as on a ring, it is the nearer one. There is a distance if there is a route. The lateral distance is that across the road, to the left if positive, and the distance back is the opposite.", "quantifier": "all maps, places and alternative names of a place", "why_tests_cant": "unbounded maps and routes, continuous domain", "anchors": ["simulation/traffic_simulator/src/utils/distance.cpp: longitudinalDistance, lateralDistance", "simulation/traffic_simulator/src/lanelet_wrapper/distance.cpp: longitudinalDistance, lateralDistance", "simulation/traffic_simulator/src/utils/pose.cpp: relativeLaneletPose"]}
{"id": "C129", "title": "The distance of bodies is the space between them", "statement": "The distance of two entities measured between their bounding boxes, along or across the lane, is the space between the edges that face each other, with the sign of the direction in which the other is.", "quantifier": "all maps, places and bounding boxes", "why_tests_cant": "continuous domain", "anchors": ["simulation/traffic_simulator/src/utils/distance.cpp: boundingBoxLaneLongitudinalDistance, boundingBoxLaneLateralDistance"]}
{"id": "C130", "title": "Distance conditions compare the distance", "statement": "A distance or relative distance condition is met exactly if the distance of all (any, none) of the triggering entities to the position or entity, in the requested direction and coordinate system, satisfies the rule. Distances are not negative. What is not there or cannot be reached has none.", "quantifier": "all entities, positions, coordinate systems, directions, routing algorithms and rules", "why_tests_cant": "all combinations, any number of entities", "anchors": ["openscenario/openscenario_interpreter/src/syntax/distance_condition.cpp", "openscenario/openscenario_interpreter/src/syntax/relative_distance_condition.cpp", "openscenario/openscenario_interpreter/include/openscenario_interpreter/simulator_core.hpp: makeNativeRelativeLanePosition, evaluateBoundingBoxEuclideanDistance"]}
{"id": "C131", "title": "A relative clearance condition is met when the space is free", "statement": "A relative clearance condition is met exactly if none of the given entities, or if none is given none of all others, is within the distances ahead and behind and in one of the lanes.", "quantifier": "all entities, distances, lanes and rules for the triggering entities", "why_tests_cant": "any number of entities and lanes", "anchors": ["openscenario/openscenario_interpreter/src/syntax/relative_clearance_condition.cpp", "openscenario/openscenario_interpreter/src/syntax/relative_lane_range.cpp", "openscenario/openscenario_interpreter/include/openscenario_interpreter/simulator_core.hpp: evaluateRelativeHeading"]}
{"id": "C132", "title": "The time to collision is the time until a collision", "statement": "A time to collision condition compares the time after which the entity and its target are at the same place if their speeds do not change. If they never are, no time is less than a given one.", "quantifier": "all entities, positions, speeds, directions and rules", "why_tests_cant": "continuous domain", "anchors": ["openscenario/openscenario_interpreter/include/openscenario_interpreter/syntax/time_to_collision_condition.hpp: evaluate"]}
{"id": "C133", "title": "The nearest stop line and conflict is found, and who gives way stops before the conflict", "statement": "The stop line found on a route, or for the lights on a route, is the nearest one; the conflict found is the nearest one. An entity gives way exactly if another is on a lanelet with priority over one it follows and without priority the other way round, and it stops where the first such lanelet begins.", "quantifier": "all maps, routes, entities and priorities", "why_tests_cant": "any number of lanelets, entities, lights and stop lines", "anchors": ["simulation/traffic_simulator/src/lanelet_wrapper/distance.cpp: distanceToStopLine, distanceToTrafficLightStopLine", "simulation/traffic_simulator/src/utils/distance.cpp: distanceToYieldStop, distanceToNearestConflictingPose", "simulation/traffic_simulator/src/utils/route.cpp: isNeedToRightOfWay"]}
{"id": "C134", "title": "The entity in front is the nearest one on the way", "statement": "The entity in front of a vehicle is, among those that it could meet within the horizon and that are on its way, the one with the least distance, and there is one if there is any. On a trajectory it is the one that intersects the trajectory first.", "quantifier": "all sets of entities, bounding boxes, ways and thresholds", "why_tests_cant": "any number of entities, continuous domain", "anchors": ["simulation/behavior_tree_plugin/src/action_node.cpp: getFrontEntityName, getDistanceToFrontEntity, detectEntityCollisions", "simulation/traffic_simulator/src/utils/distance.cpp: splineDistanceToBoundingBox"]}
{"id": "C135", "title": "The distance from a way is that of the nearest point", "statement": "The computed distance of a bounding box from a way is, up to 2.5 cm along the way, that of the corner and the point of the way, within half of the diagonal of the box, that are nearest to each other. The search ends.", "quantifier": "all ways and bounding boxes", "why_tests_cant": "continuous domain, unbounded number of steps", "anchors": ["simulation/traffic_simulator/src/utils/distance.cpp: distanceToSpline"]}
{"id": "C136", "title": "Function calls are read as they are written", "statement": "A text is read as a call exactly if it is a name, alone or with parameters in parentheses behind it. The parameters that are read are the ones that are written, in order, whatever is in quotation marks, separated by commas or spaces.", "quantifier": "all texts, names and lists of parameters", "why_tests_cant": "texts of any length", "anchors": ["openscenario/openscenario_interpreter/include/openscenario_interpreter/regex/function_call_expression.hpp: pattern, splitParameters"]}
{"id": "C137", "title": "Custom commands do what they say, or fail and do nothing", "statement": "A custom command that is known does what its name says with exactly its parameters; one with wrong parameters ends with an error and has done nothing; what is not known is run as a program with the words of the command as arguments, and its failure is an error; no command ends in undefined behaviour; the simulation exits exactly by the commands for it.", "quantifier": "all texts of commands, parameters, actors", "why_tests_cant": "texts of any length, any number of parameters", "anchors": ["openscenario/openscenario_interpreter/src/syntax/custom_command_action.cpp", "openscenario/openscenario_interpreter/src/posix/fork_exec.cpp", "openscenario/openscenario_interpreter/include/openscenario_interpreter/string/split.hpp"]}
{"id": "C138", "title": "User defined values are those of the ego, a heading or a topic", "statement": "The name of a user defined value stands for a state of an entity, a relative heading or a topic, and everything else is refused. The condition compares the value with the given text; a topic has the value of the last message, and none before the first.", "quantifier": "all names, values, rules and histories of messages", "why_tests_cant": "texts of any length, unbounded histories", "anchors": ["openscenario/openscenario_interpreter/src/syntax/user_defined_value_condition.cpp"]}
{"id": "C139", "title": "Noise depends on where the entity is", "statement": "The value of a noise parameter used for an entity is that of the first ellipse around the ego that contains the entity, with the long axis along the ego, and zero beyond all ellipses. Lists of different sizes are an error.", "quantifier": "all lists of radii and values, ratios of the axes, poses", "why_tests_cant": "continuous domain, lists of any length", "anchors": ["simulation/simple_sensor_simulator/include/simple_sensor_simulator/sensor_simulation/noise_parameter_selector.hpp: createEllipticalParameterSelector", "simulation/simple_sensor_simulator/src/sensor_simulation/detection_sensor/detection_sensor.cpp: noise_v2, noise_v4"]}
{"id": "C140", "title": "Noise configurations apply to the entities they name", "statement": "A noise configuration applies to an entity exactly if a pattern of each of its lists (types, subtypes, names) matches, where * stands for any text and ? for any character. The configuration used is the first one that applies, and none is used exactly if none applies.", "quantifier": "all patterns, texts, lists and sets of configurations", "why_tests_cant": "texts and lists of any length", "anchors": ["simulation/simple_sensor_simulator/include/simple_sensor_simulator/sensor_simulation/noise_parameter_selector.hpp: parseConfigNameFromParameter, findMatchingNoiseConfigForEntity"]}
{"id": "C141", "title": "LiDAR noise is the configured one", "statement": "The noise of a LiDAR point is that configured for the place of its entity: the point is missed at the configured rate, else moved along its ray and at a right angle to it. Points of entities without configuration are not changed, and the order is kept.", "quantifier": "all clouds, configurations, draws and histories", "why_tests_cant": "clouds of any size, continuous domain", "anchors": ["simulation/simple_sensor_simulator/src/sensor_simulation/lidar/lidar_noise_model_v1.cpp: Config, getDistanceBin, getConfigFor, applyNoise", "simulation/simple_sensor_simulator/include/simple_sensor_simulator/sensor_simulation/lidar/lidar_noise_model_v1.hpp: DistanceBin"]}
{"id": "C142", "title": "Noise moves detected entities as documented", "statement": "Noise of version 2 moves a detected entity along the line of sight by the noise, and turns it on the spot. Noise of version 4 turns it about the point of its outline closest to the ego and shifts it away from the ego and to the side. A flipped entity takes up the same box.", "quantifier": "all poses, boxes and noises", "why_tests_cant": "continuous domain", "anchors": ["simulation/simple_sensor_simulator/src/sensor_simulation/detection_sensor/detection_sensor.cpp: noise_v2, noise_v4, apply_yaw_flip"]}
{"id": "C143", "title": "A LiDAR looks all around, and other sensors see what it sees", "statement": "A scan has rays in all directions of the horizon, one per resolution and vertical angle, each once. The cloud has a point for each ray that hits an entity, where the hit is. Other sensors that depend on it are given the entities that a ray hits.", "quantifier": "all resolutions, vertical angles, poses, sets of entities and sequences of frames", "why_tests_cant": "continuous domain, unbounded sequences", "anchors": ["simulation/simple_sensor_simulator/src/sensor_simulation/lidar/raycaster.cpp: getDirections, raycast", "simulation/simple_sensor_simulator/include/simple_sensor_simulator/sensor_simulation/lidar/raycaster.hpp: intersect, getDetectedEntityNames", "simulation/simple_sensor_simulator/include/simple_sensor_simulator/sensor_simulation/lidar/lidar_sensor.hpp: update", "simulation/simple_sensor_simulator/src/sensor_simulation/sensor_simulation.cpp: updateSensorFrame"]}
{"id": "C144", "title": "The inertial measurement unit feels the motion of its entity", "statement": "In each frame one message is published if the entity exists, with its orientation, angular velocity and acceleration, each with the noise configured for it. If asked for, gravity is added to the acceleration as it is felt in the body of the vehicle.", "quantifier": "all attitudes, motions, configurations and draws", "why_tests_cant": "continuous domain", "anchors": ["simulation/simple_sensor_simulator/src/sensor_simulation/imu/imu_sensor.cpp: generateMessage", "simulation/simple_sensor_simulator/include/simple_sensor_simulator/sensor_simulation/imu/imu_sensor.hpp: update"]}
{"id": "C145", "title": "Vehicles stop for those who cross", "statement": "A vehicle that looks out and need not give way slows down for someone who crosses its way, on a lane or a crosswalk, as soon as that place is within its stopping distance, its length and 3 m.", "quantifier": "every history and everything the vehicle can see", "why_tests_cant": "unbounded histories, continuous domain", "anchors": ["simulation/behavior_tree_plugin/src/vehicle/follow_lane_sequence/stop_at_crossing_entity_action.cpp: doAction, calculateTargetSpeed", "simulation/behavior_tree_plugin/src/vehicle/follow_lane_sequence/follow_lane_action.cpp: doAction"]}
{"id": "C146", "title": "A route reaches Autoware as it was given", "statement": "When a scenario gives the ego a route, the old route is cleared and Autoware is told the goal and the points on the way in order. It is told where it is before its first route, once, and to drive for every other route. If lanelets are used, they are a connected way from the lanelet of the ego to that of the goal which visits the lanelets of all points in order.", "quantifier": "all routes, maps, egos and histories of routes", "why_tests_cant": "routes, maps and histories of any size", "anchors": ["simulation/traffic_simulator/src/entity/ego_entity.cpp: requestAssignRoute, requestAcquirePosition, requestReplanRoute", "external/concealer/src/field_operator_application.cpp: plan, clearRoute, initialize, engage"]}
{"id": "C147", "title": "Either Autoware or the simulator controls the ego", "statement": "After a trajectory is requested the simulator moves the ego along it, frame by frame, until it is finished; then Autoware is told to take over, once, and the simulator does not move the ego any more. Routes and limits change nothing about this. The speed can be set until the start only. A respawned ego is at its new pose and under the control of Autoware. No order of requests makes a frame undefined.", "quantifier": "all histories of requests and frames, all trajectories", "why_tests_cant": "unbounded histories", "anchors": ["simulation/traffic_simulator/src/entity/ego_entity.cpp: onUpdate, requestFollowTrajectory, requestSpeedChange, requestLaneChange, setVelocityLimit, setMapPose", "simulation/traffic_simulator/src/api/api.cpp: respawn"]}
{"id": "C148", "title": "A command to cooperate answers one request, once", "statement": "A command to activate or deactivate a module of Autoware goes to its first request to cooperate that is in the other state and is not more than 20 m behind. No request is answered twice in the same state. If there is no such request, or the module or the command is unknown, it is an error.", "quantifier": "all lists of requests and histories of commands", "why_tests_cant": "unbounded histories", "anchors": ["external/concealer/src/field_operator_application.cpp: sendCooperateCommand"]}
{"id": "C149", "title": "Caches do not change what the map says", "statement": "Routes, center points, their splines and lengths are those of the map that was chosen last, whatever was asked before and however many threads ask at the same time. Every query ends after a bounded number of steps of its own thread. Without a map it is an error.", "quantifier": "all maps, histories of queries and choices of maps, and all interleavings of any number of threads", "why_tests_cant": "schedules cannot be enumerated by tests, histories are unbounded", "anchors": ["simulation/traffic_simulator/include/traffic_simulator/lanelet_wrapper/lanelet_wrapper.hpp: RouteCache, CenterPointsCache, LaneletLengthCache", "simulation/traffic_simulator/src/lanelet_wrapper/lanelet_wrapper.cpp: activate, getInstance, routeCache"]}
{"id": "C150", "title": "An entity is put where the scenario says", "statement": "An entity that is added or teleported to a pose on a lane is on that lane with its pose; to a pose in the world, it is at that point, on the lane that is there or, off the lanes, exactly as given; relative to another entity, it is at the point and with the heading that are seen from that entity as given, or along the axes of the world for a relative world position. It stands still after a teleport. What is no pose on a lane, or refers to no entity, is refused.", "quantifier": "all maps, entities, positions and references", "why_tests_cant": "all positions and maps, in exact arithmetic", "anchors": ["simulation/traffic_simulator/src/entity/entity_base.cpp: setStatus", "simulation/traffic_simulator/src/data_type/entity_status.cpp", "simulation/traffic_simulator/src/utils/pose.cpp: toCanonicalizedLaneletPose, transformRelativePoseToGlobal", "openscenario/openscenario_interpreter/src/syntax/teleport_action.cpp", "openscenario/openscenario_interpreter/src/syntax/add_entity_action.cpp"]}
{"id": "C151", "title": "The status of an entity never contradicts itself", "statement": "After any history of teleports and reports of the other simulator an entity has a valid pose on a lane exactly if it is on a lane, that pose is canonical, and its height and heading in the world are those of the lane. What the other simulator reports about the ego replaces what was known. While Autoware drives the ego the scenario cannot set its status.", "quantifier": "all histories of changes of the status", "why_tests_cant": "unbounded histories", "anchors": ["simulation/traffic_simulator/src/data_type/entity_status.cpp: set", "simulation/traffic_simulator/src/entity/ego_entity.cpp: setMapPose", "simulation/traffic_simulator/include/traffic_simulator/entity/ego_entity.hpp: setStatus"]}
{"id": "C152", "title": "The center line of a lanelet is in the middle between its borders", "statement": "When a map is loaded, the center line of a lanelet without one of its own runs in the middle between points of its left and right border that are equally far, in proportion, along the borders, with a point at least every two metres or so. A center line given in the map is used as it is.", "quantifier": "all borders of lanelets", "why_tests_cant": "continuous domain, lines with any number of points", "anchors": ["simulation/traffic_simulator/src/lanelet_wrapper/lanelet_loader.cpp: overwriteLaneletsCenterline, resamplePoints, calculateAccumulatedLengths", "simulation/traffic_simulator/include/traffic_simulator/lanelet_wrapper/lanelet_wrapper.hpp: centerPoints"]}
{"id": "C153", "title": "A lane change goes to the lane asked for", "statement": "A vehicle that is to change lanes relative to an entity goes to the lane that is so many lanes to the left or right of that of the entity, with the offset asked for; if there is no such lane it is an error. Asked to change to a side, it goes to the neighbour on that side. The number of lane changes on a way is counted for each side.", "quantifier": "all maps, entities, numbers of lanes and ways", "why_tests_cant": "maps and ways of any size, all integers", "anchors": ["openscenario/openscenario_interpreter/src/syntax/lane_change_action.cpp", "openscenario/openscenario_interpreter/src/syntax/relative_target_lane.cpp", "simulation/traffic_simulator/src/entity/entity_base.cpp: requestLaneChange", "simulation/traffic_simulator/src/lanelet_wrapper/lane_change.cpp: laneChangeableLaneletId, countLaneChanges"]}
{"id": "C154", "title": "A lane change ends at the best place", "statement": "If the rules of traffic allow a lane change, its curve leads to the target lane with the offset asked for. Without a constraint it leads to the place, of those at whole metres, more than 1 m ahead and reached without too sharp a curve, for which the curve is nearest to 20 m long. With a constraint it leads to the place beside the one that is so far ahead. There is no lane change only if there is no such place.", "quantifier": "all lanes, curves, constraints and offsets", "why_tests_cant": "continuous domain, any number of places", "anchors": ["simulation/traffic_simulator/src/lanelet_wrapper/lane_change.cpp: laneChangeTrajectory", "simulation/traffic_simulator/src/utils/route.cpp: laneChangeTrajectory"]}
{"id": "C155", "title": "Questions about lanelets are answered from the whole map", "statement": "The lanelets within a distance are all those and no others, the nearest first. The direction of a lane is that at the point of its center line nearest to the point asked about. The speed limit of several lanelets is the least of theirs. The center line of several lanelets is that of one after the other without repetitions. The lanelets before or behind several are those of each.", "quantifier": "all maps, points, distances and lists of lanelets", "why_tests_cant": "maps and lists of any size, continuous domain", "anchors": ["simulation/traffic_simulator/src/lanelet_wrapper/lanelet_map.cpp: nearbyLaneletIds, laneletYaw, centerPoints, nextLaneletIds, previousLaneletIds", "simulation/traffic_simulator/src/lanelet_wrapper/route.cpp: speedLimit"]}
{"id": "C156", "title": "Traffic lights are found where the map has them", "statement": "The bulb of a color of a traffic light is where the map says, or else, if that may be guessed, in order along the light. The stop lines of a traffic light are those of all regulatory elements it belongs to. Every traffic light with bulbs is listed, and it is an error to ask for the stop lines of another.", "quantifier": "all maps, ids and colors", "why_tests_cant": "maps of any size", "anchors": ["simulation/traffic_simulator/src/lanelet_wrapper/traffic_lights.cpp: trafficLightIds, trafficLightBulbPosition, toAutowareTrafficLights, trafficLightStopLineIds, trafficLightStopLinesPoints, trafficLightIdsOnPath"]}
{"id": "C157", "title": "The status file tells which threads respond", "statement": "The status that is written about a process lists every thread that was ever active, with the name it gave first, the time since it was active last and the least and the greatest time between two of its activities. It is good exactly if every thread has ended or was active less than the threshold ago. A threshold that is overridden while something is done is the old one afterwards.", "quantifier": "all histories of activities of any number of threads, all clocks and nestings of thresholds", "why_tests_cant": "histories and interleavings of threads are unbounded", "anchors": ["common/status_monitor/src/status_monitor.cpp: write, ~StatusMonitor", "common/status_monitor/include/status_monitor/status_monitor.hpp: touch, overrideThreshold, ScopedExchanger"]}
{"id": "C158", "title": "The process ends when its monitors are destroyed", "statement": "However many monitors a process has and whatever its threads do, the process ends after the last monitor is destroyed, and not before the watchdog has ended.", "quantifier": "all numbers of monitors and all interleavings of the main thread, the watchdog and other threads", "why_tests_cant": "schedules cannot be enumerated by tests", "anchors": ["common/status_monitor/src/status_monitor.cpp: StatusMonitor, ~StatusMonitor, write"]}
{"id": "C159", "title": "Init actions are carried out before the scenario begins", "statement": "Actions of Init that end immediately are started and run exactly once, before the first frame, in the order of the document. Actions that take time are started exactly once, in the first frame, and run in each frame until all have reached their goals; then, and not before, they are complete.", "quantifier": "all documents and sequences of frames", "why_tests_cant": "documents and sequences of frames of any size", "anchors": ["openscenario/openscenario_interpreter/src/syntax/init_actions.cpp", "openscenario/openscenario_interpreter/src/syntax/init.cpp", "openscenario/openscenario_interpreter/src/syntax/private.cpp", "openscenario/openscenario_interpreter/src/syntax/environment_action.cpp", "openscenario/openscenario_interpreter/src/syntax/storyboard.cpp"]}
{"id": "C160", "title": "A pedestrian who walks straight on stops for what is in front, and only for that", "statement": "A pedestrian who walks straight on and looks around is to stop exactly if an entity is in front, not further away than it takes to stop, the length of the pedestrian and two metres together, and in the way, that is in the strip in front of the pedestrian's box; otherwise it is to walk at the speed asked for. A pedestrian who does not look around stops for nobody.", "quantifier": "all poses, boxes and speeds, and any number of other entities", "why_tests_cant": "continuous domain, any number of entities", "anchors": ["simulation/behavior_tree_plugin/src/pedestrian/walk_straight_action.cpp: isPointInFront, isEntityColliding, isObstacleInFront, doAction", "simulation/behavior_tree_plugin/src/pedestrian/pedestrian_action_node.cpp: getBlackBoardValues", "common/math/geometry/src/bounding_box.cpp: toBoostPolygon"]}
{"id": "C161", "title": "A pedestrian who walks straight on walks along a straight line", "statement": "A pedestrian who walks straight on stays on the straight line of its heading, and in no frame goes further than its speed allows, also where one lanelet ends and the next begins.", "quantifier": "all poses, speeds, durations and numbers of frames, all maps", "why_tests_cant": "continuous domain, any number of frames, all maps", "anchors": ["simulation/behavior_tree_plugin/src/action_node.cpp: calculateUpdatedEntityStatusInWorldFrame", "simulation/traffic_simulator/src/utils/pose.cpp: updatePositionForLaneletTransition"]}
{"id": "C162", "title": "A pedestrian who follows a lane stops for an ego in front", "statement": "A pedestrian who follows a lane and looks around is to stop if an ego vehicle is in front, on the lanes ahead and closer than ten metres, and only then; otherwise it is to walk at the speed asked for, or at the speed limit of the lanes. Off the lanes the pedestrian stands still.", "quantifier": "all poses and any number of other entities", "why_tests_cant": "continuous domain, any number of entities", "anchors": ["simulation/behavior_tree_plugin/src/pedestrian/follow_lane_action.cpp: detectObstacleInLane, doAction"]}
{"id": "C163", "title": "Waypoints of a pedestrian go straight ahead to the horizon", "statement": "The waypoints of a pedestrian who walks straight on begin at its position and go on along its heading, a metre apart, up to a horizon of five seconds, at least 20 m and at most 50 m away.", "quantifier": "all poses and speeds", "why_tests_cant": "continuous domain", "anchors": ["simulation/behavior_tree_plugin/src/pedestrian/walk_straight_action.cpp: calculateWaypoints", "simulation/behavior_tree_plugin/src/action_node.cpp: getHorizon"]}
{"id": "C164", "title": "A random test is one that was asked for", "statement": "A test that the random test runner makes up has its start and its goal on the map, the goal being the one asked for, one near it or any place, and a way from the start to the goal. It has as many vehicles as were asked for, with names of their own, at speeds between the least and the greatest, more than five metres from each other, and between the least and the greatest distance from the ego.", "quantifier": "all maps, parameters, seeds and engines of random numbers", "why_tests_cant": "random choices over all maps", "anchors": ["test_runner/random_test_runner/src/test_randomizer.cpp: generate, generateEgoRoute, generateRandomPosition, generatePoseFromLanelets, isFeasibleRoute, generateNpcFromLaneletsWithMinDistanceFromPoses", "test_runner/random_test_runner/src/lanelet_utils.cpp", "test_runner/random_test_runner/include/random_test_runner/randomizers.hpp"]}
{"id": "C165", "title": "The places within a distance are found", "statement": "The parts of lanelets within a distance are exactly the places that are, on the road forwards or backwards from a pose or from the lanes beside it, between the least and the greatest distance away; the search ends, and it is an error if the least distance exceeds the greatest or the pose is not on the map.", "quantifier": "all maps, poses and distances", "why_tests_cant": "maps of any size with cycles, continuous domain", "anchors": ["test_runner/random_test_runner/src/lanelet_utils.cpp: getLanesWithinDistance"]}
{"id": "C166", "title": "Random tests can be repeated", "statement": "A run makes as many tests as were asked for, each from a seed of its own, and saves what they were made from. A run with that file has the same tests and saves the same file.", "quantifier": "all parameters, numbers of tests, seeds and maps", "why_tests_cant": "any number of tests, random choices over all maps", "anchors": ["test_runner/random_test_runner/src/random_test_runner.cpp: RandomTestRunner, validateParameters", "test_runner/random_test_runner/include/random_test_runner/file_interactions/yaml_test_params_saver.hpp"]}
{"id": "C167", "title": "A random test ends, and passes only if the ego reached its goal", "statement": "Every test ends, no later than its timeout. A test in whose results there is no error has reached its goal; an error stays in the results. Tests run one after another in their order, and the results are written once all are over, with an entry for each.", "quantifier": "all sequences of frames, exceptions and refusals, any number of tests", "why_tests_cant": "histories of frames are unbounded", "anchors": ["test_runner/random_test_runner/include/random_test_runner/test_executor.hpp", "test_runner/random_test_runner/src/random_test_runner.cpp: update, start, stop", "test_runner/random_test_runner/include/random_test_runner/metrics/goal_reached_metric.hpp"]}
{"id": "C168", "title": "Collisions and standstills are reported as they happen", "statement": "A collision is reported, with its time, exactly when a vehicle touches the ego that has not touched it within the last half second. A standstill is reported exactly when the ego has not moved for more than ten seconds and is not at its goal. Nothing else is reported before the timeout if nothing else goes wrong.", "quantifier": "all sequences of frames, any number of vehicles", "why_tests_cant": "histories of frames are unbounded", "anchors": ["test_runner/random_test_runner/include/random_test_runner/test_executor.hpp: update", "test_runner/random_test_runner/include/random_test_runner/metrics/ego_collision_metric.hpp", "test_runner/random_test_runner/include/random_test_runner/metrics/almost_standstill_metric.hpp", "simulation/traffic_simulator/src/api/api.cpp: updateFrame, startNpcLogic"]}
{"id": "C169", "title": "The velocity chosen among other entities is the best one allowed", "statement": "The context-aware pedestrian chooses a velocity at most as fast as its limit. If some such velocity is on the allowed side of the lines that all other entities set, the one chosen is allowed by all of them, and no allowed one is nearer to the wish, or, if a direction is asked for, goes further in it. A velocity is always found.", "quantifier": "all limits, wishes and lists of lines", "why_tests_cant": "continuous domain, any number of lines", "anchors": ["simulation/context_gamma_planner/src/orca/solver.cpp: applyConstraintOnLine, solveLinearProgramForConstraints, optimizeVelocityWithConstraints"]}
{"id": "C170", "title": "If nothing is allowed the velocity chosen breaks the rules least", "statement": "If the lines of all other entities allow no velocity within the limit, the velocity chosen is within the limit and the line that it exceeds most is exceeded by no more than by any other velocity.", "quantifier": "all limits, wishes and lists of lines", "why_tests_cant": "continuous domain, any number of lines", "anchors": ["simulation/context_gamma_planner/src/orca/solver.cpp: resolveConstraintViolationViaIntersectionSearch, optimizeVelocityWithConstraints"]}
{"id": "C171", "title": "Pedestrians who keep to their lines do not collide", "statement": "If two entities choose velocities that the lines they set each other allow, they stay apart, and if they overlap they are apart after a frame.", "quantifier": "all positions, velocities, headings and boxes of two entities, and all times", "why_tests_cant": "continuous domain, all times", "anchors": ["simulation/context_gamma_planner/src/orca/orca.cpp: calculateOrcaLine"]}
{"id": "C172", "title": "A context-aware pedestrian moves with the velocity chosen", "statement": "In a frame the pedestrian moves along a straight line in its new heading at the speed that it reports, never faster than planned. Alone it moves straight to its goal. Without a goal to walk to it stays where it is. Two such pedestrians stay apart. Entities marked to be ignored make no difference.", "quantifier": "all pedestrians, goals, speeds, durations of frames, and any number of other entities", "why_tests_cant": "continuous domain, any number of entities", "anchors": ["simulation/context_gamma_planner/src/pedestrian_plugin.cpp: update, updateEgoPose"]}
{"id": "C173", "title": "A context-aware pedestrian follows its route", "statement": "A pedestrian who is to follow the lanes, or has nothing to do, is sent in each frame to a point of its route a little further on, at the speed asked for. Every frame ends.", "quantifier": "all routes, poses, speeds, requests and histories of frames", "why_tests_cant": "unbounded histories, routes of any length", "anchors": ["simulation/context_gamma_planner/src/planner/pedestrian/follow_lane_planner.cpp", "simulation/context_gamma_planner/src/planner/goal_planner_base.cpp", "simulation/context_gamma_planner/src/behavior/pedestrian/follow_lane_action.cpp", "simulation/context_gamma_planner/src/pedestrian_plugin.cpp: update, tickOnce, createBehaviorTree", "simulation/context_gamma_planner/config/pedestrian_behavior.xml"]}
{"id": "C174", "title": "A context-aware pedestrian follows its trajectory in time", "statement": "A pedestrian who is to follow a trajectory is sent to its points one after another, and is at each when it is due. When the last point of an open trajectory is reached the request is over, and a closed one is followed again. A new trajectory replaces the old one.", "quantifier": "all trajectories, poses, times and histories of frames", "why_tests_cant": "unbounded histories, trajectories of any length", "anchors": ["simulation/context_gamma_planner/src/planner/follow_polyline_trajectory_planner_base.cpp", "simulation/context_gamma_planner/src/planner/pedestrian/follow_polyline_trajectory_planner.cpp", "simulation/context_gamma_planner/src/behavior/pedestrian/follow_polyline_trajectory_action.cpp", "simulation/context_gamma_planner/src/transition_events/reset_request_event.cpp"]}
{"id": "C175", "title": "A range of a modifier has the values asked for", "statement": "The values of a scenario modifier given by start, step and stop are start, start + step and so on, in that order, up to and including stop and none beyond it; a step of zero gives start alone.", "quantifier": "all starts, steps and stops", "why_tests_cant": "continuous domain, any number of values", "anchors": ["openscenario/openscenario_utility/openscenario_utility/conversion.py: iota"]}
{"id": "C176", "title": "A scenario with modifiers gives one scenario per combination", "statement": "Converting a scenario written in YAML gives exactly one file for each combination of the values of its modifiers, numbered from zero with the last modifier turning fastest, and nothing else is left in the output directory. Without modifiers it gives one file with the scenario unchanged.", "quantifier": "all lists of modifiers with any numbers of values, all scenarios and all earlier contents of the directory", "why_tests_cant": "any number of modifiers and values", "anchors": ["openscenario/openscenario_utility/openscenario_utility/conversion.py: MacroExpander, convert"]}
{"id": "C177", "title": "The names of modifiers are replaced by their values", "statement": "In each scenario derived every name of a modifier is replaced by the value it has in that combination, a longer name before a shorter one that begins alike, and everything else is as it was.", "quantifier": "all names, values and texts", "why_tests_cant": "texts, names and values are unbounded", "anchors": ["openscenario/openscenario_utility/openscenario_utility/conversion.py: MacroExpander.__call__"]}
{"id": "C178", "title": "Only valid scenarios are converted, and a failure is reported", "statement": "No file is written that the schema does not accept. If a scenario derived is not valid the conversion fails, and its caller can tell.", "quantifier": "all modifiers, scenarios and schemas", "why_tests_cant": "any number of modifiers and values", "anchors": ["openscenario/openscenario_utility/openscenario_utility/conversion.py: MacroExpander.__call__, main"]}
{"id": "C179", "title": "Everything written in a YAML scenario is converted", "statement": "Every entry of a map becomes an attribute if its key begins in lower case, else an element, under the same name and in the same order; every item of a list becomes an element; texts, numbers and booleans are kept; only empty lists are left out.", "quantifier": "all YAML documents", "why_tests_cant": "documents of any size and depth", "anchors": ["openscenario/openscenario_utility/openscenario_utility/conversion.py: from_yaml, normalize_yaml_bools"]}
{"id": "C180", "title": "A catalog reference stands for the entry it names", "statement": "A reference to a catalog is made from the one entry with the name asked for in a catalog with the name asked for. It is an error if there are no catalogs, no catalog of the name, no entry or more than one entry of the name.", "quantifier": "all catalogs and references", "why_tests_cant": "any number of locations, catalogs and entries", "anchors": ["openscenario/openscenario_interpreter/src/syntax/catalog_reference.cpp"]}
{"id": "C181", "title": "Every catalog of a directory is found, in whatever order", "statement": "Each .xosc or .yaml file with a catalog in a directory of CatalogLocations can be referred to by the name of the catalog. Neither the order of the files nor that of the locations makes a difference. It is an error if the directory does not exist or a file cannot be converted.", "quantifier": "all directories, files and orders of them", "why_tests_cant": "the order of a directory and of a hash table is not fixed", "anchors": ["openscenario/openscenario_interpreter/src/syntax/catalog_location.cpp", "openscenario/openscenario_interpreter/src/syntax/catalog_locations.cpp", "openscenario/openscenario_interpreter/src/syntax/catalog_reference.cpp: CatalogReference", "openscenario/openscenario_interpreter/include/openscenario_interpreter/syntax/directory.hpp", "openscenario/openscenario_utility/openscenario_utility/conversion.py: main"]}
{"id": "C182", "title": "A catalog reference sets the parameters of the entry", "statement": "The parameters that a reference assigns have those values in what is made from the entry; the others have the values that the entry declares, or those of the scenario.", "quantifier": "all entries, references and scopes", "why_tests_cant": "any number of parameters", "anchors": ["openscenario/openscenario_interpreter/src/syntax/catalog_reference.cpp", "openscenario/openscenario_interpreter/include/openscenario_interpreter/syntax/parameter_assignments.hpp"]}
{"id": "C183", "title": "A catalog reference gives what its place calls for", "statement": "An entity, a maneuver or a controller that is taken from a catalog is one; an entry of another class is an error, and so are classes that are not supported.", "quantifier": "all catalogs and references", "why_tests_cant": "any number of catalogs and entries", "anchors": ["openscenario/openscenario_interpreter/src/syntax/catalog_reference.cpp: make", "openscenario/openscenario_interpreter/src/syntax/entity_object.cpp", "openscenario/openscenario_interpreter/src/syntax/object_controller.cpp", "openscenario/openscenario_interpreter/src/syntax/assign_controller_action.cpp", "openscenario/openscenario_interpreter/src/syntax/maneuver_group.cpp", "openscenario/openscenario_interpreter/include/openscenario_interpreter/syntax/storyboard_element.hpp: readCatalogedStoryboardElement"]}
{"id": "C184", "title": "A name stands for the entity declared with it", "statement": "A reference to an entity is the object or the selection declared with that name. Entities of one name, references to names not declared, and selections without members are errors.", "quantifier": "all lists of objects and selections", "why_tests_cant": "any number of entities, selections of any depth", "anchors": ["openscenario/openscenario_interpreter/src/syntax/entities.cpp", "openscenario/openscenario_interpreter/src/syntax/entity.cpp", "openscenario/openscenario_interpreter/src/syntax/selected_entities.cpp"]}
{"id": "C185", "title": "A selection stands for its members", "statement": "The objects of a selection are exactly the objects of the entities it names, through selections of any depth, or exactly the objects declared with one of its types.", "quantifier": "all scenarios and selections", "why_tests_cant": "selections of any size and depth", "anchors": ["openscenario/openscenario_interpreter/src/syntax/entity_selection.cpp: objects", "openscenario/openscenario_interpreter/src/syntax/entity.cpp: objects", "openscenario/openscenario_interpreter/src/syntax/by_object_type.cpp: objects"]}
{"id": "C186", "title": "The collision condition tells of collisions", "statement": "A collision condition is true exactly if all, or any, of the triggering entities collide with the entity given, once it has been added, or with some object of the type given. A selection collides when it has objects and each of them does. No entity collides with itself or with one that is not there.", "quantifier": "all scenarios, rules, triggering entities and states of the simulation", "why_tests_cant": "any number of entities, selections of any depth", "anchors": ["openscenario/openscenario_interpreter/src/syntax/collision_condition.cpp: evaluate", "openscenario/openscenario_interpreter/include/openscenario_interpreter/syntax/triggering_entities_rule.hpp: apply", "openscenario/openscenario_interpreter/src/syntax/entities.cpp: isAdded", "simulation/traffic_simulator/src/api/api.cpp: checkCollision"]}
{"id": "C187", "title": "An enumeration is read exactly from the names of its values", "statement": "An attribute that is an enumeration, or the parameter it refers to, is accepted exactly if its text is, to the letter, a name of the standard that is supported, or one of the few names besides, and it has the value of that name. Every other text is an error.", "quantifier": "all texts, 23 enumerations, all parameters", "why_tests_cant": "texts are unbounded", "anchors": ["openscenario/openscenario_interpreter/src/syntax/rule.cpp: operator>>", "openscenario/openscenario_interpreter/src/syntax/priority.cpp: operator>>", "openscenario/openscenario_interpreter/src/syntax/routing_algorithm.cpp: operator>>", "openscenario/openscenario_interpreter/include/openscenario_interpreter/reader/attribute.hpp: readAttribute"]}
{"id": "C188", "title": "What is written of a value reads as that value", "statement": "Every value of an enumeration that was read from a scenario is written as a name from which the same value is read, and different values are written differently.", "quantifier": "all texts, 23 enumerations", "why_tests_cant": "texts are unbounded", "anchors": ["openscenario/openscenario_interpreter/src/syntax/rule.cpp: operator<<", "openscenario/openscenario_interpreter/src/syntax/relative_distance_type.cpp: operator<<", "openscenario/openscenario_interpreter/src/syntax/parameter_type.cpp: operator<<"]}
{"id": "C189", "title": "The last request counts", "statement": "An entity does what it was last asked to do: after any sequence of goals, routes, trajectories, lane changes, walking straight on and cancelling, what it does is what the last call that could be carried out asked for. A call that could not be carried out throws and changes nothing.", "quantifier": "all maps, kinds of entities, histories of calls", "why_tests_cant": "histories are unbounded", "anchors": ["simulation/traffic_simulator/src/entity/vehicle_entity.cpp: requestAcquirePosition, requestAssignRoute, requestFollowTrajectory, requestLaneChange", "simulation/traffic_simulator/src/entity/pedestrian_entity.cpp", "simulation/traffic_simulator/src/entity/entity_base.cpp", "simulation/traffic_simulator/src/behavior/route_planner.cpp: setWaypoints, cancelRoute"]}
{"id": "C190", "title": "Limits on speed and acceleration", "statement": "Each of the five limits of an entity is the last one set that was not negative, or the one it started with; a negative one is refused with an error and changes nothing. A vehicle's greatest acceleration and deceleration are the smaller of the limit and what it is able to, and never negative.", "quantifier": "all histories of calls, all numbers", "why_tests_cant": "histories and numbers are unbounded", "anchors": ["simulation/traffic_simulator/src/entity/vehicle_entity.cpp: setVelocityLimit, getMaxAcceleration", "simulation/traffic_simulator/src/entity/pedestrian_entity.cpp", "simulation/traffic_simulator/src/entity/ego_entity.cpp: setVelocityLimit"]}
{"id": "C191", "title": "Synchronising with another entity", "statement": "An entity that is to arrive together with another one is told to speed up exactly if, changing its speed evenly to the final one while the other one arrives, it would be short of its place, and to slow down exactly if it would be past it; it is never told to change its speed by more than it can in a frame, to go backwards, or to go on faster and faster, and in the end it has the final speed.", "quantifier": "all distances, speeds, numbers of frames", "why_tests_cant": "distances and frames are unbounded", "anchors": ["simulation/traffic_simulator/src/entity/entity_base.cpp: requestSynchronize"]}
{"id": "C192", "title": "Out of range", "statement": "Once ranges are set, a scenario fails in the first frame in which the entity's speed, acceleration or jerk is out of its range by more than a hundredth, naming one that is, and does not fail for that reason if they never are.", "quantifier": "all ranges, all sequences of frames", "why_tests_cant": "sequences of frames are unbounded", "anchors": ["simulation/traffic_simulator/src/entity/entity_base.cpp: activateOutOfRangeJob, stopAtCurrentPosition", "simulation/traffic_simulator/src/entity/vehicle_entity.cpp: onUpdate"]}
{"id": "C193", "title": "The result file tells what happened", "statement": "After any sequence of verdicts the result file has a suite for every directory and a case for every scenario with a verdict, with exactly the failures and errors of that scenario, and numbers of tests, failures and errors that are right for each suite and for the whole; a case without failures and errors is one that passed.", "quantifier": "all sequences of verdicts, all orders of hash maps", "why_tests_cant": "sequences are unbounded", "anchors": ["external/concealer/simple_junit/include/simple_junit/junit5.hpp: SimpleTestSuites, SimpleTestSuite, SimpleTestCase", "openscenario/openscenario_interpreter/include/openscenario_interpreter/openscenario_interpreter.hpp: set"]}
{"id": "C194", "title": "A scenario starts when Autoware is engaged", "statement": "The storyboard is not evaluated before every Autoware is engaged, and from then on in every frame, at times that go up by one step from the start of the scenario, zero.", "quantifier": "all sequences of frames, all entities", "why_tests_cant": "sequences are unbounded", "anchors": ["openscenario/openscenario_interpreter/src/openscenario_interpreter.cpp: on_activate", "simulation/traffic_simulator/src/simulation_clock/simulation_clock.cpp"]}
{"id": "C195", "title": "The statistics of execution times", "statement": "The file of execution times has for each thing timed in a scenario how often it was, and the least, greatest and mean time and the standard deviation of exactly those of this scenario.", "quantifier": "all histories of timing, clearing and saving", "why_tests_cant": "histories are unbounded", "anchors": ["openscenario/openscenario_interpreter/include/openscenario_interpreter/utility/execution_timer.hpp: invoke, save"]}
{"id": "C196", "title": "Simulated and real time", "statement": "With a real time factor of one, and a machine that is fast enough, simulated time goes as fast as real time.", "quantifier": "all frame rates, all numbers of frames", "why_tests_cant": "frame rates and runs are unbounded", "anchors": ["openscenario/openscenario_interpreter/src/openscenario_interpreter.cpp: currentLocalFrameRate", "simulation/traffic_simulator/src/simulation_clock/simulation_clock.cpp: update"]}
{"id": "C197", "title": "A file that distributes parameters is loaded", "statement": "A file that is valid is loaded by the preprocessor: a scenario is handed out, a distribution of parameters is read with the scenario it is for.", "quantifier": "all documents, all distributions of the schema", "why_tests_cant": "documents are unbounded", "anchors": ["openscenario/openscenario_interpreter/src/syntax/open_scenario_category.cpp: OpenScenarioCategory", "openscenario/openscenario_interpreter/src/syntax/parameter_value_distribution_definition.cpp: ParameterValueDistributionDefinition", "openscenario/openscenario_preprocessor/src/openscenario_preprocessor.cpp: preprocessScenario"]}
{"id": "C198", "title": "What is drawn at random is what is written", "statement": "A parameter distributed at random is drawn as the distribution says: sets in the ratio of their weights, normal ones with their variance, histograms by their bins, and never outside of the range written.", "quantifier": "all distributions, all weights, ranges and bins", "why_tests_cant": "distributions are unbounded, and a sample does not show the chances", "anchors": ["openscenario/openscenario_interpreter/src/syntax/probability_distribution_set.cpp: evaluate", "openscenario/openscenario_interpreter/src/syntax/normal_distribution.cpp: NormalDistribution", "openscenario/openscenario_interpreter/include/openscenario_interpreter/syntax/histogram.hpp: BinAdaptor", "openscenario/openscenario_interpreter/src/syntax/uniform_distribution.cpp: UniformDistribution"]}
{"id": "C199", "title": "Runs, seeds and all parameters of a random distribution", "statement": "The number of runs, the seed and the distributions of all parameters are read as they are written, and different seeds give different series.", "quantifier": "all numbers, all lists of distributions", "why_tests_cant": "lists are unbounded", "anchors": ["openscenario/openscenario_interpreter/src/syntax/stochastic.cpp: Stochastic"]}
{"id": "C200", "title": "Distributions that go through values", "statement": "Sets of values, ranges with their step and sets of assignments are read as they are written, in their order.", "quantifier": "all lists of distributions", "why_tests_cant": "lists are unbounded", "anchors": ["openscenario/openscenario_interpreter/src/syntax/deterministic.cpp: Deterministic", "openscenario/openscenario_interpreter/src/syntax/distribution_range.cpp: DistributionRange", "openscenario/openscenario_interpreter/src/syntax/value_set_distribution.cpp: ValueSetDistribution"]}
{"id": "C201", "title": "Whole numbers in scenarios", "statement": "A text is read as a whole number exactly if it is figures with a sign or without and in the range of the type; it then is that number, as an attribute and as the value of a parameter. What is written of a number is read as the same number. No negative number is read as an unsigned one.", "quantifier": "all texts, all numbers", "why_tests_cant": "texts are unbounded", "anchors": ["openscenario/openscenario_interpreter/src/syntax/integer.cpp: Integer, operator>>", "openscenario/openscenario_interpreter/src/syntax/unsigned_integer.cpp: UnsignedInteger", "openscenario/openscenario_interpreter/src/syntax/unsigned_short.cpp: UnsignedShort"]}
{"id": "C202", "title": "Truth values and infinity in scenarios", "statement": "A text is read as a truth value exactly if it is one of the words of the schema, as an attribute and as the value of a parameter. INF, +INF and -INF are infinite.", "quantifier": "all texts", "why_tests_cant": "texts are unbounded", "anchors": ["openscenario/openscenario_interpreter/src/syntax/boolean.cpp: Boolean, operator>>", "openscenario/openscenario_interpreter/src/syntax/double.cpp: operator>>"]}
{"id": "C203", "title": "Declarations of parameters", "statement": "A declared parameter has the value that its text stands for as one of its type. A declaration is an error exactly if its name is not allowed, its text cannot be read as its type, or it has groups of constraints none of which the value fits. All declarations of a list are made, in order.", "quantifier": "all declarations, all texts, all constraint groups", "why_tests_cant": "declarations, texts and groups are unbounded", "anchors": ["openscenario/openscenario_interpreter/src/syntax/parameter_declaration.cpp: checkName, evaluate, ParameterDeclaration", "openscenario/openscenario_interpreter/src/syntax/parameter_declarations.cpp: ParameterDeclarations"]}
{"id": "C204", "title": "Options of requests for routes", "statement": "When an action sends entities somewhere, each of them gets one request with that destination. For an entity driven by Autoware whose controller has the property allowGoalModification, the goal may be modified if that says so; otherwise if the parameter RoutingAction__allow_goal_modification does; otherwise not. Routing is by lanes if RoutingAction__use_lane_ids_for_routing says so. A property or parameter that is no truth value is an error.", "quantifier": "all actors, controllers, properties, scopes", "why_tests_cant": "scopes, actors and properties are unbounded", "anchors": ["openscenario/openscenario_interpreter/src/syntax/acquire_position_action.cpp: start", "openscenario/openscenario_interpreter/src/syntax/assign_route_action.cpp: start", "openscenario/openscenario_interpreter/include/openscenario_interpreter/syntax/properties.hpp: get"]}
{"id": "C205", "title": "Routes that are assigned", "statement": "A route can be assigned to vehicles or to pedestrians, not to both at once. It consists of the positions of its waypoints, at least two, in order; if it is closed it goes back to the first.", "quantifier": "all lists of actors and waypoints", "why_tests_cant": "lists are unbounded", "anchors": ["openscenario/openscenario_interpreter/src/syntax/assign_route_action.cpp: AssignRouteAction", "openscenario/openscenario_interpreter/src/syntax/route.cpp: Route"]}
{"id": "C206", "title": "Vehicles and pedestrians are sent somewhere", "statement": "A vehicle or pedestrian that is sent to a place or along a route follows lanes to it, with exactly these waypoints and goals. A place that is not on a lane is an error and changes nothing.", "quantifier": "all entities, all places and routes, all maps", "why_tests_cant": "routes are unbounded", "anchors": ["simulation/traffic_simulator/src/entity/vehicle_entity.cpp: requestAcquirePosition, requestAssignRoute", "simulation/traffic_simulator/src/entity/pedestrian_entity.cpp: requestAcquirePosition, requestAssignRoute"]}
{"id": "C207", "title": "Two entities collide exactly if their boxes meet", "statement": "checkCollision tells that two entities collide exactly if they are different, both exist, and some point of space is in the boxes of both. It does not matter which one is named first.", "quantifier": "all poses and boxes of entities", "why_tests_cant": "poses and sizes are real numbers", "anchors": ["common/math/geometry/src/intersection/collision.cpp: checkCollision2D", "simulation/traffic_simulator/src/api/api.cpp: checkCollision"]}
{"id": "C208", "title": "The part of a trajectory ahead crosses a polygon", "statement": "The crossing reported for a part of a spline with a polygon is the first one of the part (the last one, if the search is backward), told as the way from the start of the part. A part that ends before it starts is an error.", "quantifier": "all splines, parts, polygons and ranges", "why_tests_cant": "splines and polygons are unbounded", "anchors": ["common/math/geometry/src/spline/catmull_rom_subspline.cpp: getCollisionPointIn2D"]}
{"id": "C209", "title": "Entities at the altitude of the trajectory are looked for", "statement": "An entity whose altitude is that of a point of the part of the trajectory ahead is not left out for its altitude, and one that is more than 1 m above or below all of its points is.", "quantifier": "all splines, parts and altitudes", "why_tests_cant": "splines are unbounded", "anchors": ["common/math/geometry/src/spline/catmull_rom_subspline.cpp: getAltitudeRange", "common/math/geometry/src/spline/catmull_rom_spline.cpp: getAltitudeRange", "simulation/traffic_simulator/src/lanelet_wrapper/pose.cpp: isAltitudeWithinRange", "simulation/traffic_simulator/src/utils/distance.cpp: splineDistanceToBoundingBox"]}
{"id": "C210", "title": "The entity in front along the trajectory", "statement": "With detection by trajectory, an entity that is in the way, within half of the width of the trajectory, is seen, and the distance reported is not past it. What is reported is another entity that is in the way at the altitude of the trajectory, at the piece of it that starts at the distance reported. The order in which entities are kept makes no difference.", "quantifier": "all trajectories, widths, numbers of segments, entities and orders of hash maps", "why_tests_cant": "trajectories and entities are unbounded", "anchors": ["simulation/behavior_tree_plugin/src/action_node.cpp: buildQuadrilateralData, intersectsTrajectory, detectEntityCollisions, getFrontEntityNameAndDistanceByTrajectory"]}
{"id": "C211", "title": "The files of the map", "statement": "A scenario that names a directory gets the lexicographically first .osm file and the first .pcd file in it, whatever order the files are listed in; one that names an .osm file gets that file and the point cloud beside it. An empty path, no directory and no file of a kind are errors.", "quantifier": "all directories, names and orders of listing", "why_tests_cant": "the order of a directory is not fixed, and names are unbounded", "anchors": ["simulation/traffic_simulator/include/traffic_simulator/api/configuration.hpp: Configuration, assertMapPath, findLexicographicallyFirstFilenameOf", "openscenario/openscenario_interpreter/src/openscenario_interpreter.cpp: makeCurrentConfiguration"]}
{"id": "C212", "title": "Errors of the velocity report", "statement": "With errors configured, each number of a velocity report is published with its own proportional and constant error, and reports below the speed threshold as they are. Without errors every report is published as it is.", "quantifier": "all configurations, reports and series of variates", "why_tests_cant": "series of variates are unbounded", "anchors": ["external/concealer/include/concealer/publisher.hpp: NormalDistributionError", "external/concealer/src/publisher.cpp: NormalDistribution<VelocityReport>"]}
{"id": "C213", "title": "Errors of the odometry", "statement": "The odometry is published with a position moved in the axes of the vehicle by the errors, the orientation with the errors on roll, pitch and yaw of the vehicle, and velocities with their own errors; below the speed threshold, and without errors, as it is.", "quantifier": "all configurations, messages and series of variates", "why_tests_cant": "series of variates are unbounded", "anchors": ["external/concealer/src/publisher.cpp: NormalDistribution<Odometry>"]}
{"id": "C214", "title": "Errors of the pose with covariance", "statement": "The pose is published with a position moved in the axes of the vehicle by the errors and roll, pitch and yaw with their additive and multiplicative errors; the diagonal of the covariance is the one configured, the rest is as it was.", "quantifier": "all configurations, messages and series of variates", "why_tests_cant": "series of variates are unbounded", "anchors": ["external/concealer/src/publisher.cpp: NormalDistribution<PoseWithCovarianceStamped>"]}
{"id": "C215", "title": "Seeds of errors", "statement": "With a seed from 1 to 2^32 - 1 the errors are the same in each run; with the seed 0 they are drawn anew; any other seed is refused.", "quantifier": "all seeds", "why_tests_cant": "the range of seeds is large", "anchors": ["external/concealer/src/publisher.cpp: RandomNumberEngine"]}
{"id": "C216", "title": "The inertial measurement unit", "statement": "The unit of an entity reports its orientation, angular velocity and acceleration, with gravity in the axes of the entity if asked for, and the noise of either the legacy configuration or the overriding one, not of both. Without an entity of the name nothing is published.", "quantifier": "all configurations, states of entities and series of variates", "why_tests_cant": "series of variates are unbounded", "anchors": ["simulation/simple_sensor_simulator/src/sensor_simulation/imu/imu_sensor.cpp: generateMessage", "simulation/simple_sensor_simulator/include/simple_sensor_simulator/sensor_simulation/imu/imu_sensor.hpp: update", "external/concealer/src/publisher.cpp: NormalDistribution<Imu>"]}
{"id": "C217", "title": "Angles of an orientation", "statement": "The roll, pitch and yaw that are told of an orientation describe it: turning by them is turning by the orientation, also if the front points straight up or down.", "quantifier": "all orientations", "why_tests_cant": "orientations are real numbers, and the special case is a set of measure zero", "anchors": ["common/math/geometry/include/geometry/quaternion/quaternion_to_euler.hpp: convertQuaternionToEulerAngle", "common/math/geometry/include/geometry/quaternion/euler_to_quaternion.hpp: convertEulerAngleToQuaternion"]}
{"id": "C218", "title": "The place of a pose on a lane", "statement": "A pose has a place on a lane if its line across meets the centre line within the reach, at most a metre above or below it, and it is not turned across the lane by more than 45 degrees. The place has the coordinate of the crossing, the distance from the centre line, positive to the left, and the turn from the lane to the pose.", "quantifier": "all lanes, poses and reaches", "why_tests_cant": "lanes are unbounded and poses are real numbers", "anchors": ["simulation/traffic_simulator/src/lanelet_wrapper/pose.cpp: toLaneletPose", "common/math/geometry/src/spline/catmull_rom_spline.cpp: getPose, getSquaredDistanceIn2D, getSquaredDistanceVector"]}
{"id": "C219", "title": "From the map to a lane and back", "statement": "A pose that is turned into a place on a lane and back keeps its position seen from above and its orientation, and gets the height of the lane.", "quantifier": "all lanes and poses that have a place on them", "why_tests_cant": "lanes are unbounded and poses are real numbers", "anchors": ["simulation/traffic_simulator/src/lanelet_wrapper/pose.cpp: toLaneletPose, toMapPose"]}
{"id": "C220", "title": "The lane of an entity", "statement": "Of the lanes near the outline of an entity it is on the one whose centre line is closest, whatever the order in which the map lists them; if it has no place there, on the first of the lanes before it, after it and near it that has one.", "quantifier": "all maps, poses and boxes", "why_tests_cant": "maps are unbounded", "anchors": ["simulation/traffic_simulator/src/lanelet_wrapper/pose.cpp: findMatchingLanes, matchToLane, toLaneletPose"]}
{"id": "C221", "title": "The lane of an entity with a route, and lanes beside", "statement": "The lanes of the route of an entity come before all others. A pedestrian that has no place is put on a lane near it within two metres, at the end of the road if it is past that. All places about a lane are those on it and on the lanes beside, before and after it, each once. A goal that cannot be reached is moved to the lane at the goal with the shortest route.", "quantifier": "all maps, poses, routes and goals", "why_tests_cant": "maps and routes are unbounded", "anchors": ["simulation/traffic_simulator/src/utils/pose.cpp: toCanonicalizedLaneletPose, transformToCanonicalizedLaneletPose, findRoutableAlternativeLaneletPoseFrom", "simulation/traffic_simulator/src/lanelet_wrapper/pose.cpp: toLaneletPoses"]}
{"id": "C222", "title": "The map pose of a place on a lane", "statement": "The map pose of a place on a lane is beside its centre line by the offset, at the height of the lane beside it. If slopes are considered, an entity stands on the slope whichever way it faces, and the turn that is kept is the one from the lane to its orientation.", "quantifier": "all lanes and places on them", "why_tests_cant": "lanes are unbounded and places are real numbers", "anchors": ["simulation/traffic_simulator/src/data_type/lanelet_pose.cpp: CanonicalizedLaneletPose, adjustOrientationAndOzPosition, alignOrientationToLanelet", "simulation/traffic_simulator/src/lanelet_wrapper/pose.cpp: toMapPose"]}
{"id": "C223", "title": "A change of speed takes the time given", "statement": "An entity asked for a speed in a given time has it in the first frame at or after that time and not before; with a linear transition its speed changes evenly. Then the request is over.", "quantifier": "all speeds, times, lengths of frames, numbers of frames and limits", "why_tests_cant": "speeds and times are real numbers, runs are unbounded", "anchors": ["simulation/traffic_simulator/src/entity/entity_base.cpp: requestSpeedChange, requestSpeedChangeWithTimeConstraint", "simulation/traffic_simulator/src/behavior/longitudinal_speed_planning.cpp: getDynamicStates, planConstraintsFromJerkAndTimeConstraint"]}
{"id": "C224", "title": "A change of speed has the acceleration given", "statement": "An entity asked for a speed with an acceleration does not speed up or slow down more than that until it has the speed; with a linear transition it does so with exactly that acceleration.", "quantifier": "all speeds, accelerations, lengths of frames, numbers of frames and limits", "why_tests_cant": "speeds are real numbers, runs are unbounded", "anchors": ["simulation/traffic_simulator/src/entity/entity_base.cpp: requestSpeedChange, requestSpeedChangeWithConstantAcceleration", "simulation/traffic_simulator/src/behavior/longitudinal_speed_planning.cpp: getDynamicStates"]}
{"id": "C225", "title": "A change of speed in a step is made at once", "statement": "An entity asked for a speed in a step, or in no time, has that speed at once.", "quantifier": "all speeds, constraints and requests under way", "why_tests_cant": "requests under way are unbounded", "anchors": ["simulation/traffic_simulator/src/entity/entity_base.cpp: requestSpeedChange, requestSpeedChangeWithTimeConstraint, requestSpeedChangeWithConstantAcceleration"]}
{"id": "C226", "title": "Speeds relative to another entity", "statement": "A request for a speed relative to another entity is refused if there is no such entity, or if it is continuous and has a time. With a time it is one for the speed the target stands for at the request. With an acceleration the target follows the speed of the other entity, with that acceleration as the limit. If the other entity disappears the request ends.", "quantifier": "all speeds of both entities in all frames", "why_tests_cant": "runs are unbounded", "anchors": ["simulation/traffic_simulator/src/entity/entity_base.cpp: requestSpeedChange, requestSpeedChangeWithTimeConstraint, requestSpeedChangeWithConstantAcceleration", "simulation/traffic_simulator/src/data_type/speed_change.cpp: getAbsoluteValue"]}
{"id": "C227", "title": "Limits after a change of speed", "statement": "While a request with a constraint is under way its limit is in force, and when it has come to its end the limits are those from before.", "quantifier": "all speeds, constraints and histories of requests", "why_tests_cant": "histories are unbounded", "anchors": ["simulation/traffic_simulator/src/entity/entity_base.cpp: resetDynamicConstraints, requestSpeedChangeWithConstantAcceleration", "simulation/traffic_simulator/src/job/job_list.cpp: append"]}
{"id": "C228", "title": "A continuous request keeps the speed", "statement": "After a continuous request, which is what a scenario makes for an absolute speed, the entity gets to the speed and keeps it, whenever the request is made and whatever its constraint.", "quantifier": "all speeds, constraints and numbers of frames", "why_tests_cant": "runs are unbounded", "anchors": ["simulation/traffic_simulator/src/entity/entity_base.cpp: requestSpeedChange, onUpdate", "openscenario/openscenario_interpreter/src/syntax/speed_action.cpp: start"]}
{"id": "C229", "title": "Autoware ends with its ego", "statement": "When an ego is removed, by the scenario, at its end or when the simulator is shut down, its Autoware is asked to end, is killed with everything it has started if it does not do so in time, and is not left behind.", "quantifier": "all machines, histories of calls, and of what processes and signals do meanwhile", "why_tests_cant": "histories are unbounded, and tests start no real Autoware", "anchors": ["external/concealer/src/field_operator_application.cpp: ~FieldOperatorApplication, spinSome", "external/concealer/include/concealer/launch.hpp: ros2_launch", "simulation/traffic_simulator/src/entity/ego_entity.cpp: EgoEntity"]}
{"id": "C230", "title": "Signals go to processes of the simulation only", "statement": "The simulator sends signals to processes it has started and to what descends from them, and to no others, and nothing it does ends a process of others.", "quantifier": "all machines and histories", "why_tests_cant": "histories are unbounded, and a test cannot risk to signal other processes", "anchors": ["external/concealer/src/field_operator_application.cpp: ~FieldOperatorApplication", "openscenario/openscenario_interpreter/src/record.cpp: stop", "openscenario/openscenario_interpreter/include/openscenario_interpreter/record.hpp: start"]}
{"id": "C231", "title": "The end of Autoware is noticed", "statement": "If Autoware ends while its ego is there, this is reported with the exit code or the signal the next time the ego is looked after, and once. An Autoware that runs is not reported.", "quantifier": "all machines, exit codes, signals and histories", "why_tests_cant": "status words are many and histories unbounded", "anchors": ["external/concealer/src/field_operator_application.cpp: spinSome"]}
{"id": "C232", "title": "The recording ends with the scenario", "statement": "When a scenario that is recorded ends, the recorder is told to end and is waited for.", "quantifier": "all machines and histories", "why_tests_cant": "histories are unbounded", "anchors": ["openscenario/openscenario_interpreter/src/record.cpp: stop", "openscenario/openscenario_interpreter/include/openscenario_interpreter/record.hpp: start", "openscenario/openscenario_interpreter/src/openscenario_interpreter.cpp: reset, on_activate, on_shutdown"]}
{"id": "C233", "title": "A command of the scenario is waited for", "statement": "While a command of the scenario runs the simulation waits, even if the command is stopped for a while. Once the command has ended the simulation goes on, and the command is not left behind.", "quantifier": "all machines, commands and histories", "why_tests_cant": "histories are unbounded", "anchors": ["openscenario/openscenario_interpreter/src/posix/fork_exec.cpp: fork_exec"]}
{"id": "C234", "title": "Entities are shown as they are", "statement": "A viewer that follows the markers published for entities shows, from each message about entities until the next one or a tenth of a second, the box, name, direction and action of every entity of the message as the message has them, its path if it has more than two waypoints, and the obstacle if one was found on it, and nothing older of these.", "quantifier": "all histories of messages, entities and contents", "why_tests_cant": "histories are unbounded", "anchors": ["simulation/traffic_simulator/src/visualization/visualization_component.cpp: entityStatusCallback, generateMarker"]}
{"id": "C235", "title": "Entities that are gone are not shown", "statement": "Of an entity that is not in the messages any more nothing is shown; goals disappear within a tenth of a second.", "quantifier": "all histories of messages", "why_tests_cant": "histories are unbounded", "anchors": ["simulation/traffic_simulator/src/visualization/visualization_component.cpp: entityStatusCallback, generateDeleteMarker"]}
{"id": "C236", "title": "Goals are shown", "statement": "Each goal of an entity is shown with its number as long as it has not been reached, and no goal longer than a tenth of a second after the last message that has it.", "quantifier": "all histories of messages, all numbers of goals", "why_tests_cant": "histories and numbers of goals are unbounded", "anchors": ["simulation/traffic_simulator/src/visualization/visualization_component.cpp: generateMarker"]}
{"id": "C237", "title": "The viewer follows the simulation", "statement": "After any frames of a simulation the entities shown are those of the last frame. As long as entities are not driven no paths and obstacles are shown, and then those that they have.", "quantifier": "all histories of frames", "why_tests_cant": "histories are unbounded", "anchors": ["simulation/traffic_simulator/src/entity/entity_manager.cpp: update", "simulation/traffic_simulator/src/visualization/visualization_component.cpp: entityStatusCallback"]}
{"id": "C238", "title": "The outline of a box", "statement": "The lines that are drawn for the box of an entity are the twelve edges of the box at its pose, each once.", "quantifier": "all boxes and poses", "why_tests_cant": "boxes are real numbers", "anchors": ["simulation/traffic_simulator/src/visualization/visualization_component.cpp: generateMarker"]}
{"id": "C239", "title": "Conditions about traffic lights", "statement": "A condition that a traffic light, or each light of a regulatory element, is in a state holds exactly if each of these lights shows it; the state \"none\" or an empty one means that no bulb is shown. A light that has been set to a state is in that state. A text that names no bulb and an id that is no light are errors.", "quantifier": "all maps, histories of changes and questions, ids and texts", "why_tests_cant": "texts and histories are unbounded", "anchors": ["openscenario/openscenario_interpreter/src/syntax/traffic_signal_condition.cpp: evaluate", "simulation/traffic_simulator/src/traffic_lights/traffic_lights_base.cpp: compareTrafficLightsState, getTrafficLightsComposedState"]}
{"id": "C240", "title": "Messages about traffic lights", "statement": "A message about traffic lights has one signal for each light that has been changed or asked for, with all its bulbs and the confidence set last, which is one at first, and nothing else. Operations leave lights they are not about as they were, and asking about lights changes nothing of what is published.", "quantifier": "all maps and histories of changes and questions", "why_tests_cant": "histories are unbounded", "anchors": ["simulation/traffic_simulator/src/traffic_lights/traffic_lights_base.cpp: generateUpdateTrafficLightsRequest, getTrafficLight, getTrafficLights, setTrafficLightsConfidence", "simulation/traffic_simulator/include/traffic_simulator/traffic_lights/traffic_light.hpp: TrafficLight"]}
{"id": "C241", "title": "Traffic lights are shown", "statement": "After any updates a viewer shows for each traffic light one sphere for each colour the light has a bulb of, at the place of the bulb, opaque if the light shows a round bulb of that colour and faint if not, and nothing else.", "quantifier": "all maps, lights and histories of updates of conventional and V2I lights", "why_tests_cant": "histories are unbounded, and so are ids", "anchors": ["simulation/traffic_simulator/include/traffic_simulator/traffic_lights/traffic_light.hpp: draw", "simulation/traffic_simulator/src/traffic_lights/traffic_light_marker_publisher.cpp: deleteMarkers, drawMarkers", "simulation/traffic_simulator/include/traffic_simulator/traffic_lights/traffic_lights.hpp: update"]}
{"id": "C242", "title": "The rate at which traffic lights are published", "statement": "Traffic lights of a kind are published at the rate asked for last, be it before or after the simulation was started, and if none was, at the configured rate from the first frame after the start. Before that they are not published. A rate of which no timer can be made is an error, does not touch lights of the other kind, and is replaced by the configured one in the next frame.", "quantifier": "all histories of starts, frames and rates", "why_tests_cant": "histories are unbounded", "anchors": ["simulation/traffic_simulator/src/traffic_lights/configurable_rate_updater.cpp: startTimer, resetTimer", "simulation/traffic_simulator/src/traffic_lights/traffic_lights.cpp: startTrafficLightsUpdate", "simulation/traffic_simulator/src/entity/entity_manager.cpp: update, startNpcLogic"]}
{"id": "C243", "title": "Frames of coordinates of the entities", "statement": "In every frame of a simulation a frame of coordinates named \"ego\" is published if there is an Ego, and lies where the Ego is, and one named \"entities\" if there are entities, and no others. The latter stays where it is put when there are entities for the first time: at the Ego or, without one, in the centre of the entities.", "quantifier": "all histories of entities and their poses", "why_tests_cant": "histories are unbounded", "anchors": ["simulation/traffic_simulator/src/entity/entity_manager.cpp: broadcastEntityTransform, broadcastTransform, getFirstEgoName"]}
{"id": "C244", "title": "Being in a lanelet", "statement": "An entity is in a lanelet if it is on it or if it is, along the lanes, no further before its start or behind its end than a tolerance. One beside it is not, and one off the lanes is in no lanelet.", "quantifier": "all maps, places, lanelets and tolerances", "why_tests_cant": "maps and tolerances are unbounded", "anchors": ["simulation/traffic_simulator/src/utils/pose.cpp: isInLanelet", "simulation/traffic_simulator/src/entity/entity_base.cpp: isInLanelet, getDefaultMatchingDistanceForLaneletPoseCalculation"]}
{"id": "C245", "title": "The end of the road", "statement": "An entity that reaches the end of a lanelet that no other lanelet follows stands still there, for ever, unless it goes backwards. Anywhere else it moves as its behaviour wants. It never leaves the road.", "quantifier": "all roads, routes and histories of movements", "why_tests_cant": "histories are unbounded, and so are roads", "anchors": ["simulation/traffic_simulator/src/utils/pose.cpp: isAtEndOfLanelets", "simulation/traffic_simulator/src/entity/vehicle_entity.cpp: onUpdate", "simulation/traffic_simulator/src/entity/pedestrian_entity.cpp: onUpdate", "simulation/traffic_simulator/src/entity/entity_base.cpp: stopAtCurrentPosition"]}
{"id": "C246", "title": "Where a lane change is measured", "statement": "The place in its own lane from which the lateral way of a lane change is measured is as far ahead of the entity as the curve of the lane change reaches, whatever constraint the lane change has.", "quantifier": "all roads, places, constraints and values", "why_tests_cant": "roads and values are unbounded", "anchors": ["simulation/traffic_simulator/src/utils/route.cpp: laneChangeAlongLaneletPose, laneChangeTrajectory", "simulation/behavior_tree_plugin/src/vehicle/lane_change_action.cpp: doAction"]}
{"id": "C247", "title": "Releases are told apart by their dates", "statement": "For an architecture \"awf/universe/YYYYMMDD\" the message in which the lights of infrastructure are published and the detector of traffic lights depend on the date only: the older message up to 6 September 2023, the newer one from 5 June 2024 on, none in between; for the detector the older one on that day only. A release that needs a message the simulator was built without is refused, and so is \"awf/universe\" without a date.", "quantifier": "all dates and all sets of messages the simulator was built with", "why_tests_cant": "there are a hundred million texts of this form", "anchors": ["simulation/traffic_simulator/include/traffic_simulator/traffic_lights/traffic_lights.hpp: makePublisher", "simulation/simple_sensor_simulator/include/simple_sensor_simulator/sensor_simulation/traffic_lights/traffic_lights_detector.hpp: makePublisher"]}
{"id": "C248", "title": "The parts of the simulator agree on a release", "statement": "An architecture that one part of the simulator accepts - the lights of infrastructure, their detector, the sensors, the Ego - is accepted by all of them, and they use the same message for lights.", "quantifier": "all texts for the architecture", "why_tests_cant": "texts are unbounded", "anchors": ["simulation/traffic_simulator/include/traffic_simulator/traffic_lights/traffic_lights.hpp: makePublisher", "simulation/simple_sensor_simulator/include/simple_sensor_simulator/sensor_simulation/traffic_lights/traffic_lights_detector.hpp: makePublisher", "simulation/simple_sensor_simulator/include/simple_sensor_simulator/sensor_simulation/sensor_simulation.hpp: attachLidarSensor, attachDetectionSensor, attachOccupancyGridSensor", "simulation/traffic_simulator/src/entity/ego_entity.cpp: EgoEntity"]}
{"id": "C249", "title": "The planned path", "statement": "The path planned by Autoware is the last one it sent with the message of its release - the newer one from 30 January 2025 on - with all its points, lanes and bounds, and a blank one before the first. There is exactly one subscription for every architecture that contains \"awf/universe\", and the others are refused.", "quantifier": "all texts for the architecture, all sequences of messages", "why_tests_cant": "sequences of messages are unbounded", "anchors": ["external/concealer/src/path_with_lane_id.cpp: available, convert", "external/concealer/include/concealer/subscriber.hpp: Subscriber"]}
{"id": "C250", "title": "The arguments Autoware is launched with", "statement": "Autoware is launched exactly if it is to be and the architecture contains \"awf/universe\"; otherwise nothing happens or the Ego is refused. The map, models and modes of the scenario are its arguments whatever further arguments the user gives, and those further arguments reach Autoware. The id of the vehicle is one of them unless it is \"default\" or empty. Traffic lights are recognised for the releases from 6 September 2023 on.", "quantifier": "all settings, all lists of further arguments", "why_tests_cant": "lists of arguments are unbounded", "anchors": ["simulation/traffic_simulator/src/entity/ego_entity.cpp: EgoEntity", "external/concealer/include/concealer/launch.hpp: ros2_launch"]}
{"id": "C251", "title": "Where traffic sources place entities", "statement": "A traffic source places each entity, with the behaviour and model of one entry of its distribution, in its area: on the map if entities may be off the lanes, and otherwise along a lane, where its footprint fits into the lanelets near the source if it has to; crosswalks count for pedestrians only. An entity on the map is turned as the source or at random, as configured, and at the altitude of a lanelet near it if there is one. The source gives up exactly if none of as many poses as it may try can be used.", "quantifier": "all maps, sources, distributions and sequences of random numbers", "why_tests_cant": "random numbers and maps are unbounded", "anchors": ["simulation/traffic_simulator/src/traffic/traffic_source.cpp: execute, makeRandomPose, isPoseValid, Validator"]}
{"id": "C252", "title": "Stop lines, rights of way and conflicts along a route", "statement": "The stop lines along a route are the lines of the stop signs of its lanelets, in the order of the route; those of the map are the lines of all stop signs of its lanelets. Lanelets are filtered by their kind in their order. A lanelet has to give way to the lanelets of its rights of way other than itself. What is in conflict with a route is what is in conflict with one of its lanelets, and an entity is in conflict with it exactly if it is on such a crosswalk or lane. A lanelet that is not in the map is an error, and nothing else is.", "quantifier": "all maps and routes", "why_tests_cant": "maps and routes are unbounded", "anchors": ["simulation/traffic_simulator/src/lanelet_wrapper/lanelet_map.cpp: stopLineIdsOnPath, stopLineIds, filterLaneletIds, rightOfWayLaneletIds, conflictingCrosswalkIds, conflictingLaneIds, trafficSignsOnPath", "simulation/traffic_simulator/src/utils/route.cpp: isAnyConflictingEntity"]}
{"id": "C253", "title": "The distance to the bounds of lanes", "statement": "The distance of an entity to the left or the right bounds of some lanelets is the least of the distances to the bounds of each of them, and that to their bounds the least of those to both sides. It is an error exactly if there are no lanelets, or one of them is not in the map or has no such bound.", "quantifier": "all maps, entities and lists of lanelets", "why_tests_cant": "lists of lanelets are unbounded", "anchors": ["simulation/traffic_simulator/src/utils/distance.cpp: distanceToLeftLaneBound, distanceToRightLaneBound, distanceToLaneBound"]}
{"id": "C254", "title": "The ends of the road shown", "statement": "The markers of the traffic controller show each end of the road at which it removes entities, and nothing else, whenever they are published.", "quantifier": "all maps, all histories of scenarios, defined sources and published markers in a process", "why_tests_cant": "what is shown depends on everything that happened in the process before", "anchors": ["simulation/traffic_simulator/src/traffic/traffic_controller.cpp: TrafficController, appendAutoSinks, makeDebugMarker", "simulation/traffic_simulator/src/traffic/traffic_sink.cpp: appendDebugMarker"]}
