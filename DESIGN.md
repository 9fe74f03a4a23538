# Formal model of tier4/scenario_simulator_v2 in Lean 4

The code in `/repo` (C++, a little Python) is read as text and transcribed, function by function, into
Lean functions. Theorems are about those functions. Every definition of a model cites the file and
lines it models and names its simplifications.

## 1. Layout

Each area `X` of the code has modules under `lean/Verif/X/`:

| file | content |
|---|---|
| `Model.lean` (and `Watch.lean`, `Distances.lean`, ...) | the transcription of the code, with citations |
| `Spec.lean`, `ReactSpec.lean` | the independent vocabulary in which properties are stated |
| `Lemmas.lean` and others | helper lemmas and invariants |
| `*Theorems.lean` | the property theorems and, beside each, a non-vacuity `example` |

`properties.jsonl` lists the properties, `MANIFEST.json` the theorems claimed for each,
`seeded/LOG.jsonl` the wrong programs the theorems were tried on, `AXIOMS.md` the axioms of every
claimed theorem.

## 2. Conventions

* Virtual calls, conditions, actions, other threads, Autoware, the environment simulator and the random
  generator are *oracles*: universally quantified functions of the observable history, or arbitrary inputs.
* `double` is an arbitrary type with arbitrary operations, an arbitrary linear order, `Rat`, or an
  arbitrary ordered field, as each file says. In the latter two rounding, overflow, NaN and infinities
  are not modelled.
* Undefined behaviour, exceptions and loops that do not end are distinct outcomes (`none`,
  `Except.error`, or a named constructor). Loops without an evident bound are `partial_fixpoint`
  functions into `Option`.
* When the code violates the property as stated, the violation is proved on a concrete witness (theorem name
  contains `_violated` or `_not_`), and the provable part is a theorem with suffix `_partial` whose comment says
  what is missing.
* After `lake build`, theorems are tested by editing the models as a realistic bug would (see
  `seeded/LOG.jsonl`); statements that survived a wrong program were tightened.

## 3. Properties

| id | property | model | proof | status | what is proved, what is missing |
|---|---|---|---|---|---|
| C01 | Storyboard element life cycle | `Storyboard` | invariants of the generic element kept by every hook and by the dispatch loop, lifted level by level through the tree and over any number of frames | proved | heap model of the whole storyboard tree, arbitrary environment |
| C02 | maximumExecutionCount bounds executions | `Storyboard` | invariants of the generic element kept by every hook and by the dispatch loop, lifted level by level through the tree and over any number of frames | proved |  |
| C03 | A completed event never acts again | `Storyboard` | invariants of the generic element kept by every hook and by the dispatch loop, lifted level by level through the tree and over any number of frames | proved |  |
| C04 | Override priority | `Storyboard` | invariants of the generic element kept by every hook and by the dispatch loop, lifted level by level through the tree and over any number of frames | proved |  |
| C05 | Skip priority | `Storyboard` | invariants of the generic element kept by every hook and by the dispatch loop, lifted level by level through the tree and over any number of frames | proved |  |
| C06 | Parent completes only after its children | `Storyboard` | invariants of the generic element kept by every hook and by the dispatch loop, lifted level by level through the tree and over any number of frames | proved |  |
| C07 | Stop trigger stops the whole subtree | `Storyboard` | invariants of the generic element kept by every hook and by the dispatch loop, lifted level by level through the tree and over any number of frames | partial | the stopped element completes (proved); its descendants are at rest only if no start trigger fires below an element being stopped; the unrestricted claim is refuted |
| C08 | Children are evaluated once per frame in document order | `Storyboard` | invariants of the generic element kept by every hook and by the dispatch loop, lifted level by level through the tree and over any number of frames | proved |  |
| C09 | Condition edge semantics without delay | `Condition` | induction over the samples: the pruned history refines the full one | proved |  |
| C10 | Condition delay semantics | `Condition` | induction over the samples: the pruned history refines the full one | proved | any monotone now - delay, times in any linear order |
| C11 | Condition history does not leak | `Condition` | induction over the samples: the pruned history refines the full one | proved |  |
| C12 | Trigger is a disjunction of conjunctions and samples every condition | `Condition` | induction over groups and evaluations | proved |  |
| C13 | Reported active condition group | `Condition` | induction over groups and evaluations | proved |  |
| C14 | StoryboardElementStateCondition latches | `Condition` | induction over transitions and evaluations | partial | violated for a condition watching startTransition of a vetoed skip event |
| C15 | Signal phases cycle in declared order and honour durations | `Signal` | invariant over all evaluations and commands, stated on the log of phase changes | proved | times of an arbitrary type with arbitrary arithmetic; other controllers, actions on them and changes of lights interleaved arbitrarily |
| C16 | Referenced controller starts after the delay | `Signal` | invariant over all evaluations and commands, stated on the log of phase changes | partial | proved for the latest begin of the reference; refuted if the reference begins again within the delay, which replaces the pending start |
| C17 | Signal states never leak across phases | `Signal` | effect of clearing and adding states by induction over the states | proved | all four kinds of lights, way and regulatory element ids, with the V2I mirror |
| C18 | Phase predictions | `Signal` | induction over the prediction loop | partial | exact characterisation of the predictions of every change that does not end in undefined behaviour; the cycle time computed in int makes it undefined for some phase lists with an unbounded phase |
| C19 | Bulb identity | `Light` | injectivity of the hash; reading of texts characterised by a grammar | proved |  |
| C20 | Bulb text round-trip | `Light` | injectivity of the hash; reading of texts characterised by a grammar | proved | all 176 bulbs by cases; lights of any size by induction |
| C21 | Setting a traffic light | `Light` | induction over described bulbs, lights and operations | partial | a described text replaces the bulbs exactly and any other text is rejected, but a rejected text has cleared or overwritten the light already (refuted half) |
| C22 | V2I mirror | `Light` | induction over described bulbs, lights and operations | partial | proved for lights addressed by their own id and successful calls; refuted for regulatory element ids |
| C23 | Variable lookup | `Scope` | breadth first search by induction over levels; the store by induction over declarations | proved | frame trees of any depth |
| C24 | Expression evaluation | `Expr` | parser sound and complete for the grammar, by induction over derivations and over the input | partial | token level grammar; precedence, associativity and rejection of everything else proved for all inputs; typing refuted for / (and sqrt, unsigned) |
| C25 | Entity registry | `Registry` | invariant over request histories | proved | for every request history; after the connection is closed a spawn that throws is registered nevertheless (refuted corner) |
| C26 | Pairwise distances | `Registry` | invariant over request histories | proved | any iteration order of the hash table |
| C27 | Exclusive jobs | `Job` | induction over job lists | proved |  |
| C28 | A new speed request replaces the old one | `Entity` | invariant over requests and frames | partial | from the end of the first frame on, for every history; refuted between the request and the end of that frame while an older request is active, and for requests for the current speed |
| C29 | Stand-still duration and travelled distance | `Entity` | invariant over requests and frames | partial | exact for every history without a frame at the end of the lanelets; the stand-still duration is refuted there |
| C30 | Simulation clock | `Clock` | induction over frames | proved |  |
| C31 | Traffic source spawn count | `Traffic` | arithmetic and induction over polls | proved | for positive rates; a negative rate makes the first execution loop for ever |
| C32 | Traffic sink | `Traffic` | arithmetic and induction over polls | proved |  |
| C33 | Speed planning respects limits | `Speed` | inequalities in an ordered field, well-founded descent | partial | speed limit and target are always respected; the limits on acceleration and jerk are not when the entity is beyond its speed limit or its acceleration points away from the target (refuted) |
| C34 | Speed planning converges | `Speed` | inequalities in an ordered field, well-founded descent | proved | over every archimedean ordered field, without rounding |
| C35 | Route waypoints are consumed in order | `Route` | invariant over operations | proved |  |
| C36 | Task queue order | `TaskQueue` | inductive invariant over all interleavings | proved | every interleaving of the dispatcher and any number of clients, at the level of single accesses to shared data |
| C37 | Task queue failure | `TaskQueue` | inductive invariant over all interleavings | proved | from the moment the dispatcher has caught the error; the unsynchronised access to the stored exception is treated as atomic |
| C38 | Exhausted means finished | `TaskQueue` | inductive invariant over all interleavings | proved |  |
| C39 | Autoware state classification | `Autoware` | case analysis and induction over attempts | proved | all codes, including those without a name |
| C40 | Bounded service retries | `Autoware` | case analysis and induction over attempts | proved |  |
| C41 | Detection delay queue | `Detection` | invariant over updates | proved | every schedule; with a constant period the delay is exact |
| C42 | Detected entities are in range | `Detection` | invariant over updates | partial | proved for the noise models 1 and 2; with the models 3 and 4 an entity is missing in the first frame in which it is seen (refuted) |
| C43 | Scenario verdict | `Interpreter` | invariant over histories of callbacks | partial | exactly one correct verdict for every scenario that ends by itself; a scenario that runs into the time limit gets no recorded verdict (refuted) |
| C44 | Preprocessor queue | `Preprocessor` | refinement to a first-in first-out queue | partial | proved while no load fails; a failing load discards scenarios loaded before (refuted) |
| C45 | Triggering entities rule | `Condition` | induction over the list of entities | proved |  |
| C46 | Parameter arithmetic | `Parameter` | case analysis on types and rules | partial | exact for integer parameters while double arithmetic is exact, refuted for unsigned ones, whose operand is truncated first; the rules are consistent for parameters, refuted for measurements of entities, where equality alone is approximate |
| C47 | Qualified references | `Scope` | induction over the path | partial | existing paths resolve to the named scope; refuted for unknown qualifiers, which are ignored |
| C48 | Environment simulator mirrors the registry | `Registry` | invariant over request histories | partial | proved for every request history with an open connection; refuted for standalone mode, where frames are sent to a simulator that was told of no entity |
| C49 | Resetting a behaviour plugin | `Registry` | invariant over request histories | partial | no other entity is affected; the entity itself is read after it was destroyed |
| C50 | Spawning area of a traffic source | `Traffic` | triangle inequality on squared distances | partial | corners are within twice the radius; refuted for the radius itself (a parameter shadows the member holding the centre) |
| C51 | Requests wait for the right Autoware state | `Autoware` | induction over polls | partial | proved while the state of Autoware does not fall back; refuted if it does, and for a route sent right after arrival |
| C52 | Entities below the ego vehicle | `Detection` | case analysis | partial | proved when the plane is made anew; refuted otherwise, because the plane is remembered by orientation only |
| C53 | Configured autocorrelation is used | `Detection` | case analysis | partial | the range is proved; the configured values are never read, because the key built lacks a dot (refuted for every configuration) |
| C54 | Overriding of parameters | `Preprocessor` | refinement to a first-in first-out queue | proved |  |
| C55 | The result checker reports success only if every scenario succeeded | `Interpreter` | invariant over histories of callbacks | partial | proved if all scenarios are accepted and end by themselves; refuted for time-outs, invalid scenarios and results left by an earlier run |
| C56 | Constraint groups of parameters | `Parameter` | case analysis on types and rules | proved |  |
| C57 | Stopping distance | `Speed` | algebra in an ordered field | partial | ends whenever braking is possible; refuted for the value, which can be negative, and for entities that cannot brake |
| C58 | Estimated duration of a speed change | `Speed` | algebra in an ordered field | partial | correct for accelerations that reach the acceleration limit; refuted for braking and for short accelerations |
| C59 | Speed change in a given time | `Speed` | algebra in an ordered field | partial | correct for accelerations; refuted for braking, where the planned deceleration limit is negative |
| C60 | Canonical lanelet poses | `Lanelet` | induction over walks on the map | partial | complete without a route; with a route refuted when a lanelet has two successors in it |
| C61 | Movement along lanelets | `Lanelet` | induction over walks on the map | partial | complete without a route; with a route only if no lanelet has two successors in it |
| C62 | Lanelets ahead and behind | `Lanelet` | induction over walks on the map | proved |  |
| C63 | Alternative lanelet poses | `Lanelet` | induction over walks on the map | partial | same place; refuted for on the road: alternatives beyond the end of a dead end are returned |
| C64 | Waypoints are dropped only when passed | `Route` | induction over histories | partial | refuted for several waypoints in one lanelet and for unreachable waypoints; holds on the route otherwise |
| C65 | The lanelets ahead lead to the next waypoint | `Route` | induction over histories | partial | refuted while an earlier route is in force |
| C66 | Routes use the routing graph of the entity | `Route` | induction over histories | partial | refuted when entities of several types plan routes: the configuration is static |
| C67 | Shortest alternative pose | `Route` | induction over histories | partial | refuted when some alternative is unreachable |
| C68 | Detection noise is an autocorrelated process | `Detection` | induction over the frames | partial | for noise model 2; the other models are not stated |
| C69 | Elements react to their triggers, and only to them | `Storyboard` | progress lemmas per level, lifted through the tree | proved |  |
| C70 | SpeedAction ends when its actors have reached the target speed | `Action` | frames as a list of speeds; induction over the frames with the list of accomplished actors | partial | exact for one actor; refuted for several, which are looked at one after the other: the exact condition is proved instead |
| C71 | SpeedProfileAction goes through its entries in order | `Action` | independence of the actors, then induction over the frames for one | proved |  |
| C72 | Lane change and trajectory actions end when all have finished | `Action` | as C70, with an arbitrary predicate | partial | exact conditions proved; refuted: a lane change action ends in its first frame, a selection counts as finished with its first member, without actors a trajectory action never ends |
| C73 | Each entity follows the trajectory it was given | `Action` | memory model of shared trajectory objects; induction over members and actors | partial | holds for actors that are single objects; refuted for selections, whose members share one trajectory object |
| C74 | Entities can be added when they are not in the simulation | `Action` | state machine of flag and existence; invariant by induction over the actions | partial | holds for scenarios without deletions and actors that are entirely in the simulation or not at all; refuted otherwise |
| C75 | Conditions on entities that are not in the simulation | `Action` | case analysis over kinds of condition and rule | partial | refuted for acceleration and stand still, for deleted entities and for notEqualTo; holds otherwise |
| C76 | Time headway | `Action` | arithmetic over the rationals | partial | refuted for reversing entities |
| C77 | Two line segments intersect exactly if they have a common point | `Geometry` | signed areas and convexity over the reals | partial | exact unless an end is off the other line by less than the tolerance; refuted for short segments, for which the unscaled tolerance is too large |
| C78 | The intersection point is on both segments | `Geometry` | signed areas over the reals | partial | for segments that are not parallel; refuted for segments on one line that touch in one point |
| C79 | Positions along a segment | `Geometry` | algebra over the reals | proved |  |
| C80 | Sides, slopes and sides of polygons | `Geometry` | algebra over the reals, lists by induction | partial | refuted: the sign of relativePointPosition2D is the opposite of the documented one, slope refuses segments that lead to smaller x |
| C81 | The closest point of a polygon is the closest point | `Geometry` | convexity: the distance along a segment is a quadratic function | proved |  |
| C82 | Relative position of two bounding boxes | `Geometry` | two disjoint segments have a closest pair with an end of one of them (leaving the unit square along a direction that does not increase the distance); fold over all pairs | partial | the distance is right; refuted for the direction, which is reversed depending on which of the boxes has the closest corner |
| C83 | Transformations of poses are rigid and invertible | `Geometry` | polynomial identities of quaternions | partial | refuted for the variant with a sensor pose that is turned and for quaternions that are not of length one |
| C84 | Orientations from angles and directions | `Geometry` | trigonometric identities | proved | setRPY of tf2 is transcribed from its documentation |
| C85 | Interpolation between orientations | `Geometry` | trigonometric identities | partial | refuted: the interpolation depends on the sign of the quaternion and may go the long way round |
| C86 | Polynomial equations are solved | `Geometry` | factorisation of the depressed cubic by trigonometric identities and by Cardano; case analysis over the branches | partial | exact when discriminant and leading coefficient are clear of the tolerance; refuted otherwise: roots are lost, moved or refused |
| C87 | A Hermite curve has the ends and tangents it is made of | `Geometry` | ring identities and derivatives | proved |  |
| C88 | A spline goes through its control points without jumps | `Geometry` | recursion over the chain of curves; positive length because 100 zero samples of a quadratic make it zero; continuity of a piecewise function by induction | proved | checkConnection, which can only fail by rounding, is left out |
| C89 | Places on a spline and on its curves correspond | `Geometry` | induction over the curves | proved |  |
| C90 | Trajectories are sampled evenly from start to end | `Geometry` | functional induction over the sampling loop (it ends because the rest shrinks by the resolution); mirroring for the other direction | proved | orientation of the sampled poses not modelled |
| C91 | Crossings of a curve with lines and polygons | `Geometry` | roots of the cubic from C86, then the test between the ends | partial | exact strictly between the ends if the solver is (C86); refuted for a curve that runs along the line without meeting its ends |
| C92 | Crossings of a spline and the place of a pose on it | `Geometry` | induction over the curves and the sides of the polygon | partial | for three or more control points under the conditions of C91; refuted: a range of places is not respected, splines of two control points never cross a line and do not see the closing side of a polygon |
| C93 | Offsets and bounds of a spline are on the right side | `Geometry` | identities of cosine and sine of the angle of a vector | partial | refuted: the left and right bounds are exchanged |
| C94 | The ego moves in the direction of its gear | `Vehicle` | case distinction on the gear after the step of integration | proved |  |
| C95 | Limits of velocity, acceleration and steering rate are kept | `Vehicle` | bounds on the four slopes of a Runge-Kutta step; invariants by induction over histories; violations by computed steps and an induction | partial | refuted: a wrong gear stops the ego at once, with any deceleration; DELAY_STEER_VEL exceeds its limit when a step is longer than the time constant |
| C96 | The ego approaches what is commanded | `Vehicle` | the stages of a Runge-Kutta step stay between the state and the goal; the sum of the stages is the Taylor polynomial of the exponential function, whose error Mathlib bounds; induction over histories | partial | for steps not longer than the time constants; the acceleration only for scaling factors up to one: refuted for greater ones |
| C97 | Commands take effect after the configured delay | `Vehicle` | simulation between the model with queues and the one without, by induction over the sequence of commands | proved |  |
| C98 | The pose of the ego follows from its velocity and steering | `Vehicle` | closed form of the four stages; triangle inequality for the sum of the displacements | proved | exact positions are claimed for straight wheels only |
| C99 | The acceleration map is followed | `Vehicle` | induction over the keys of the table; weighted means | partial | refuted for the check of the file: tables that make every step throw are accepted, unreadable ones mean no map |
| C100 | Brakes, gears and slopes without fall guard | `Vehicle` | case distinction on pedal, velocity and gear; induction over the steps for rolling in PARK | partial | refuted for PARK and for the release of the brake near standstill |
| C101 | The ego is on the map where its vehicle model has driven to | `Ego` | invariant relating the reported position to the state of the model, by induction over the calls; C95 and C98 for the length of a step | partial | refuted for an ego spawned tilted, and for overwritings before the start, which the next update undoes |
| C102 | An overwritten ego is where it is put and moves as it is told | `Ego` | unfolding of one overwriting; rotation algebra for the heading | partial | refuted for the speed of IDEAL_STEER_VEL, the turn of the ideal models and the pitch; the pedal state of the model without fall guard is not assigned |
| C103 | How the commands of Autoware move the ego | `Ego` | the input of the model equals a separately stated table; C94 and C98 | proved |  |
| C104 | The reported motion of the ego is consistent | `Ego` | induction over the calls: the remembered values are the reported ones | partial | refuted for the jerk, which is an acceleration |
| C105 | Who moves the ego | `Server` | invariant over the requests relating the control mode to the history | proved | requests of the control mode come between requests of the simulator |
| C106 | The sensor simulator knows exactly the entities that there are | `Server` | invariant over the requests relating lists and statuses to the history; induction over the statuses of an update | partial | as long as no name is spawned while it is in use; refuted otherwise |
| C107 | Messages arrive as they were sent | `Convert` | case analysis of the conversions; induction over lists | partial | refuted for the subtype of parameters, which is lost, and for unknown gears, which leave the gear of the receiving object |
| C108 | What is published about traffic lights is their state | `Convert` | tables by cases; membership in the request by induction over the detected lights; invariants of the phases by induction over the requests | partial | refuted for arrows to the upper left and right, which are published as unknown, and for ids beyond 32 bits, which are cut |
| C109 | A change of speed with limited jerk arrives exactly | `Follow` | closed form of the speed after n steps; case split of the rounded number of steps | partial | what is left is at most 9/8 of one step of the rate; refuted for one step |
| C110 | Entities on trajectories keep their limits | `Follow` | hull of the candidates; case analysis of the limits | partial | for entities whose speed is in the range of the limits; refuted above the target speed, for different rates, and for target speeds above the maximum speed |
| C111 | The limits can always be kept | `Follow` | invariant over every run of the controller; counterexamples as explicit runs | partial | for equal rates from a speed below the target; refuted for a slower target and for different rates |
| C112 | The best of the accelerations is chosen | `Follow` | induction over the folded candidates; fixpoint induction for the predictions; exact solution of the last steps | partial | when the predictions end; a waypoint that is late by one step is undefined behaviour |
| C113 | Waypoints are reached in order, each at its time | `Follow` | fixpoint induction over the recursion, case analysis of each branch, induction over frames; world distances and lanes are parameters | partial | refuted for closed trajectories, whose recursion may not end or which end, and for trajectories of fewer than two waypoints, which are undefined behaviour |
| C114 | Entities without behaviour are where their trajectory is at every time | `Follow` | induction over the vertices before the pair that is found; case analysis of the three times; induction over frames for absolute times | partial | for times relative to a base time; refuted for absolute times, which are never followed, and for the reported acceleration, the start and trajectories of one vertex |
| C115 | Attributes have the value that their text stands for | `Reader` | the search for the last match is shown sound and complete for a specification of occurrences; induction over the nesting of substitutions; the number of $ decreases | partial | for substituted values on one line without $; refuted for empty values, texts with line breaks, ros2 commands without output and parameters whose value is the beginning of a substitution, for which reading may not end |
| C116 | Elements are read as the schema says | `Reader` | a recursive specification of the children of a name; induction over lists; case analysis | partial | refuted for elements of unknown names and repeated single elements, which are ignored, and for deterministic distributions, of which none is ever read |
| C117 | A line marks the cells it goes through | `Grid` | fixpoint induction for the walk with an invariant of the times of the next borders; termination by the number of borders | partial | for lines that do not start at a whole coordinate in the direction of which they go up; refuted for those, which are shifted by a cell |
| C118 | Cells of the occupancy grid with an object are occupied | `Grid` | difference counters: the sum along a row equals the number of covering polygons, by induction over polygons, rows and columns; crossing edges for the inside of convex polygons | partial | for objects whose corners are neither all in one cell nor on cell borders; refuted for those, of which nothing or not all is drawn. Convex hull and clipping are parameters |
| C119 | The occupancy grid shows the detected entities where they are | `Grid` | case analysis; induction over the entities for unique names; linear algebra for the place | partial | the place is right for square grids and refuted for all others. Convex hull and clipping are parameters |
| C120 | What is behind an object is invisible | `Grid` | angles lifted by whole turns; the sine of their differences gives the sides of points; convex hulls | partial | for objects that do not surround the sensor; refuted for those that do |
| C121 | Every frame moves a vehicle exactly once | `Behavior` | the tree refines a chain of actions from the running one on, by an invariant of the states of all nodes; then case analysis per action | partial | for vehicles that go forward on a lane; refuted for the first frame of moving backward, which moves twice, and for vehicles that are taken off the lane |
| C122 | Requests are carried out at once and end when they are done | `Behavior` | the same refinement: which action comes first for each request and each running action; induction over frames for the violation | partial | for trajectories that take at least two frames; refuted for others, whose request never ends |
| C123 | Vehicles slow down for red lights | `Behavior` | the same refinement with the actions that decide | partial | with nothing in front of the vehicle, and when it does not already wait for something else; refuted otherwise |
| C124 | Vehicles keep their distance | `Behavior` | the same refinement with the actions that decide | partial | when the vehicle does not already slow down for something else; refuted otherwise |
| C125 | Vehicles stop at stop lines and then drive on | `Behavior` | the same refinement; the violation is a cycle of four states of the speed planner, by induction over frames | partial | the stop; refuted that the vehicle crosses the line afterwards, and for conflicts as far away as the line |
| C126 | Vehicles do not exceed the speed they are to drive at | `Behavior` | the same refinement: each action keeps the bound | partial | for vehicles that need not give way; refuted for those that have to |
| C127 | Lane changes take the time they are to take and end on the target lane | `Behavior` | induction over frames with the way gone so far as invariant | partial | for the policy FORCE and lane changes of more than one frame; refuted for the policy BEST_EFFORT, for lane changes of one frame, and after a lane change that failed |
| C128 | Distances along and across lanes are those of the road | `Distance` | a map laid out along a line or a ring, by a homomorphism to it; induction over routes | partial | for maps whose lanelets are laid out along a line or ring; refuted for lateral distances back, for places opposite on a ring, and for the existence of distances of places with two names |
| C129 | The distance of bodies is the space between them | `Distance` | arithmetic on the edges of the boxes | partial | for bodies that do not overlap, laterally for bodies with the reference point in the middle; refuted otherwise |
| C130 | Distance conditions compare the distance | `Distance` | a table of all combinations against the separation of the two | partial | refuted for positions behind or to the right, and for entities along or across the lane without a routing algorithm, whose distances are negative |
| C131 | A relative clearance condition is met when the space is free | `Distance` | decision logic over the lists of entities, ranges as a separate specification | partial | for given entities, and for all entities with the rule all; refuted for the rule any, where entities see themselves, and for overlapping bodies |
| C132 | The time to collision is the time until a collision | `Distance` | linear motion on a line as the specification | partial | for a target ahead that is approached; refuted for targets behind, standing entities and the Euclidean distance. When no collision is ahead the time is infinite, so that greaterThan is met |
| C133 | The nearest stop line and conflict is found, and who gives way stops before the conflict | `Distance` | folds that compute a minimum, against a specification of the minimum | partial | for lights with one stop line; refuted for lights with two, and for the place of the stop when an earlier lanelet has mutual priority |
| C134 | The entity in front is the nearest one on the way | `Distance` | the invariant of the sorted map and of the loop that keeps the best | partial | when no two entities are equally far away; refuted for those, for overlapping bodies and for a lateral threshold that is not half of the width. The geometry of splines and boxes is a parameter |
| C135 | The distance from a way is that of the nearest point | `Distance` | halving an interval over an Archimedean field, with the interval that contains the nearest point as invariant | partial | nearest on straight ways, never too small on any; refuted for ways that turn |
| C136 | Function calls are read as they are written | `Command` | the language of the regular expression as an inductive specification; recognizer and specification agree, by induction over the length | partial | refuted for a space behind the parenthesis or before a comma: the text is then no call at all |
| C137 | Custom commands do what they say, or fail and do nothing | `Command` | decision logic over the commands, from the text to the effects, with the specification of calls of C136; induction over lists of words | partial | refuted: misspelled commands and failing programs go unnoticed, some failing commands have done part of their work, missing parameters of a fault are undefined behaviour, two spaces give an empty argument |
| C138 | User defined values are those of the ego, a heading or a topic | `Command` | decision logic over texts, with inductive specifications of calls and topics; histories of messages | partial | refuted for headings with a decimal point, which are refused, and for a wrong number of parameters, which is not |
| C139 | Noise depends on where the entity is | `Sensing` | decision logic over lists of radii by induction, real arithmetic; the documented choice is a separate specification | partial | along the ego only for circles or an ego that looks along the x axis; refuted otherwise, as the ellipses have the axes of the map. A missing ratio means no noise |
| C140 | Noise configurations apply to the entities they name | `Sensing` | patterns as lists of pieces, matching as a recursive function; equivalence with an inductive specification of wildcards, search over lists of parameter names | partial | for patterns without characters that are special in regular expressions; refuted for the dot |
| C141 | LiDAR noise is the configured one | `Sensing` | the configuration, the choice of parameters and the noise of each point as functions with arbitrary draws; induction over clouds and histories, real arithmetic | partial | refuted: radii act as their squares, the last values are used beyond the last radius, most ratios are not read, short lists are undefined behaviour, tangential noise is horizontal and shrinks with the elevation |
| C142 | Noise moves detected entities as documented | `Sensing` | flat poses over the reals; algebra of rotations | partial | refuted for version 2 and boxes whose centre is not the reference point, which are moved when flipped. Upright entities; the closest point is a parameter |
| C143 | A LiDAR looks all around, and other sensors see what it sees | `Sensing` | the scan as a loop that may not end (partial_fixpoint), solved in closed form; induction over rays and frames | partial | refuted: the first direction is scanned twice if the resolution divides the circle, sensors out of phase are told that nothing is seen, a resolution of zero hangs. The intersection of rays and boxes is a parameter |
| C144 | The inertial measurement unit feels the motion of its entity | `Sensing` | decision logic with arbitrary draws; algebra of rotations by roll, pitch and yaw | partial | gravity on level ground; refuted on slopes, where it is turned the wrong way |
| C145 | Vehicles stop for those who cross | `Behavior` | the refinement of C121 and C123: which action of the tree moves the vehicle | partial | without stop lines, entities and red lights before; refuted for a vehicle that gave way in the frame before |
| C146 | A route reaches Autoware as it was given | `Operator` | tasks sent to Autoware as a list; ways over lanelets by induction over the points, without doubled lanelets | partial | with lanelets if each point can be reached from the one before; refuted for unreachable points, poses off the lanes, round courses and new routes of more than one pose |
| C147 | Either Autoware or the simulator controls the ego | `Operator` | a state machine of requests and frames; invariant: under control of the simulator there is a trajectory; induction over frames | partial | refuted for the time of the ego in the last frame of a trajectory |
| C148 | A command to cooperate answers one request, once | `Operator` | the first request found by the predicate; invariant over histories that the used requests are pairwise different | partial | refuted for a request that comes back to a state in which it was answered |
| C149 | Caches do not change what the map says | `Cache` | threads as a transition system whose steps are the locked sections; invariant that tables hold what the computation gives; the static wrapper as a state machine that refines answers without caches | partial | refuted for data races of center points, and for maps chosen while another thread uses the one before |
| C150 | An entity is put where the scenario says | `Place` | positions, statuses and the map as parameters with the laws of canonical poses; decision logic of teleport and add, geometry over any field | partial | refuted for entities on a lane that are teleported to a pose in the world, relative world positions, and the heading of entities added relative to others |
| C151 | The status of an entity never contradicts itself | `Place` | invariant over any list of changes of the status | partial | refuted: a teleport in the scenario passes by the guard of the ego |
| C152 | The center line of a lanelet is in the middle between its borders | `Lanes` | points in a normed space; induction over the points of the borders | partial | refuted for borders that begin with the same point twice and borders of one point |
| C153 | A lane change goes to the lane asked for | `Lanes` | the neighbour relation iterated; induction over the number of lanes and over the way | partial | for less than 256 lanes; refuted for more, for pedestrians, and for changes to a side without a lane, which are ignored |
| C154 | A lane change ends at the best place | `Lanes` | the candidates as a list; induction over them, least element | partial | refuted for the offset of changes without a constraint |
| C155 | Questions about lanelets are answered from the whole map | `Lanes` | sorted lists, induction over lists of lanelets and points | partial | refuted if more lanelets are near than are looked at, for lanelets without a subtype, and for points nearest to the end of a lane |
| C156 | Traffic lights are found where the map has them | `Lanes` | regulatory elements as lists; case analysis and induction over them | partial | refuted: the lists of ids and of points of stop lines do not go together |
| C157 | The status file tells which threads respond | `Monitor` | statuses as a map over threads that is folded over events; invariant that ties each status to the times of its thread; nesting as an inductive predicate | partial | if the clock stands still while a report is written and one thread overrides the threshold; refuted otherwise, and for threads that end without telling the monitor |
| C158 | The process ends when its monitors are destroyed | `Monitor` | main thread, watchdog and other threads as a transition system with one lock; invariant, stuck states, and a bound on the steps to the end | partial | refuted: the last monitor waits for the watchdog with the lock that the watchdog waits for; proved that this is the only such state and that the process ends otherwise |
| C159 | Init actions are carried out before the scenario begins | `Init` | the document as a list of nodes; what is done as a list of operations; induction over documents and frames | partial | refuted for actions that change the environment, for documents in another order, and for children that are not known |
| C160 | A pedestrian who walks straight on stops for what is in front, and only for that | `Pedestrian` | entities as upright boxes in the plane over the reals; Boost as a parameter; the angle test by the argument of complex numbers; the ring of the area in closed form; a concrete post for the refutation | partial | what is decided is proved exactly; refuted that it is right: the area in front is a ring that crosses itself, something narrow straight ahead is not in it, and for an entity at the same place the direction on the map decides |
| C161 | A pedestrian who walks straight on walks along a straight line | `Pedestrian` | the frame as a function of the map and of the speed planner of the area Speed; induction over frames; a concrete map with overlapping lanelets for the refutation | partial | as long as no frame goes beyond the end of a lanelet; refuted where lanelets overlap |
| C162 | A pedestrian who follows a lane stops for an ego in front | `Pedestrian` | the decision as an exact condition on coordinates; concrete pedestrians for the refutations | partial | refuted: in front means to the north on the map; true for pedestrians who walk to the north |
| C163 | Waypoints of a pedestrian go straight ahead to the horizon | `Pedestrian` | the loop by induction over its rounds; the list of distances in closed form | proved |  |
| C164 | A random test is one that was asked for | `RandomTest` | the engine of random numbers as a parameter with laws; the loops with their attempts by induction; a round course and a dead end for the refutations | partial | refuted: the goal may be behind the start where no way leads to, and on a round course a vehicle may be put onto the ego |
| C165 | The places within a distance are found | `RandomTest` | the search as a worklist over the routing graph; soundness by an invariant of the items, completeness by induction over ways, an end by a measure of the distance left | partial | refuted for round courses, where a place found may also be nearer, and for lanes beside that are shorter than the pose is far |
| C166 | Random tests can be repeated | `RandomTest` | the file as a tree of named values; reading what was written; the list of tests by induction | partial | refuted for a seed of one's own, with which all tests are the same, for runs without tests, and if one of the tests cannot be made |
| C167 | A random test ends, and passes only if the ego reached its goal | `RandomTest` | the executor and the runner as state machines over frames; invariants over any sequence of frames and calls; sequences without end for the refutations | partial | refuted for an ego that cannot be put on the map, one that is never engaged, and a simulator that refuses to go on |
| C168 | Collisions and standstills are reported as they happen | `RandomTest` | an invariant that states all of the reports of a sequence of frames in terms of the frames; concrete sequences for the refutations | partial | for an ego that is engaged from the first frame; refuted for an ego that is engaged later and never moves, for contacts before that, and for an ego that drives backwards |
| C169 | The velocity chosen among other entities is the best one allowed | `Orca` | the incremental linear program as written, over the reals; induction over the lines with the invariant that the velocity is optimal for those seen, through convexity | partial | for lines of which every two are parallel or clearly not so; refuted for nearly parallel lines and for a tiny wish |
| C170 | If nothing is allowed the velocity chosen breaks the rules least | `Orca` | the fallback as written; lines projected onto each other, optimality by induction through the theorem for the program on one line | partial | for lines of which every two, and the differences of their directions, are parallel or clearly not so |
| C171 | Pedestrians who keep to their lines do not collide | `Orca` | the line that is set, in closed form for the two sides; each of the two takes half of the change, so that the relative velocity is beyond the side of the cone; concrete carts for the refutations | partial | refuted at the near end of the velocities that lead to a collision, for boxes across each other and for entities at one place |
| C172 | A context-aware pedestrian moves with the velocity chosen | `Orca` | the motion of a frame as a function of the velocity chosen; C169 and C171 combined for two pedestrians | partial | on one level; refuted for a trajectory without times, on which there is no limit |
| C173 | A context-aware pedestrian follows its route | `Orca` | the tree of actions as a state machine over ticks, a frame as ticks until one ends; an invariant over all requests and frames | partial | refuted for a pedestrian off its route, for which the frame never ends, for requests it does not know and for routes that come back near themselves |
| C174 | A context-aware pedestrian follows its trajectory in time | `Orca` | the planner as written over the queue of points left; the invariant of C173; speeds in closed form | partial | refuted for the last vertex, for trajectories without times, for a new trajectory on the way along another, and for small closed ones |
| C175 | A range of a modifier has the values asked for | `Modify` | the loop over exact numbers; its values in closed form by induction, with a bound on the rounds | partial | refuted for stops a thousand million times as great as the step, which are passed |
| C176 | A scenario with modifiers gives one scenario per combination | `Modify` | the product of lists and the loop over files as functions on a directory; the combination of a number by its digits | partial | for modifiers whose scenarios are all valid; a modifier without values gives no scenario and no error |
| C177 | The names of modifiers are replaced by their values | `Modify` | replacement of plain names in lists of characters; induction over the words of a text and the names by length | partial | where names stand alone and are in no value; refuted for values in which another name occurs and for names within words |
| C178 | Only valid scenarios are converted, and a failure is reported | `Modify` | induction over the loop that writes the files | partial | refuted that the caller can tell: the status is zero |
| C179 | Everything written in a YAML scenario is converted | `Modify` | YAML and trees as inductive types; induction over entries and over documents | partial | refuted for numbers that are the content of an element, which are lost |
| C180 | A catalog reference stands for the entry it names | `Catalog` | locations as lists of catalogs in any order; reading and dispatch as functions that may end in an error | proved |  |
| C181 | Every catalog of a directory is found, in whatever order | `Catalog` | files with what they hold, the conversion of C176; induction over the files, permutations for their order | partial | for catalogs with names of their own; refuted for two of one name, and for an invalid one in YAML, which is passed over |
| C182 | A catalog reference sets the parameters of the entry | `Catalog` | attributes that are values or names of parameters, resolved in the entry and then in the scope | partial | for references that assign nothing; assignments have no effect |
| C183 | A catalog reference gives what its place calls for | `Catalog` | each place as a decision on what was made | partial | for entities and maneuvers; refuted for controllers, where another class is accepted and not used |
| C184 | A name stands for the entity declared with it | `Select` | the table of entities built from the document in order; induction over the declarations | partial | with names all different; refuted for two entities of one name, of which the second is dropped without an error |
| C185 | A selection stands for its members | `Select` | entities as a tree; membership as an inductive predicate, induction over the tree | partial | the objects of any entity are characterised; related to the declarations with names all different |
| C186 | The collision condition tells of collisions | `Select` | the evaluation with exceptions as outcomes, over any relation of overlap; characterised by quantifiers over the objects that belong to an entity | partial | refuted for selections without objects, which collide with everything, and for selections as the entity given, for which the evaluation throws |
| C187 | An enumeration is read exactly from the names of its values | `Enum` | the stream and lexical_cast over all texts, with the tables of each enumeration; the tables are compared with those of the schema by the kernel, the texts by lemmas on streams | partial | for texts that are not empty; refuted for the empty text, which gives the first value of any enumeration, even one that is not supported |
| C188 | What is written of a value reads as that value | `Enum` | the tables of both operators, by cases over the enumerations and lemmas on streams | proved |  |
| C189 | The last request counts | `Request` | a state machine of calls on an entity; a relation saying what each call asks; the last call counts by induction over the history | partial | A goal off the lanes throws but ends what the entity was doing. Off the lanes a route is lost and a goal has the old route followed, both without an error. A lane change asked of a pedestrian, or to where there is no lane, is ignored without an error. A pedestrian with a trajectory keeps the old goals. |
| C190 | Limits on speed and acceleration | `Request` | induction over the history of setters; order arguments for the clamp | partial | The ego accepts a negative speed limit; a misc object ignores limits without an error. |
| C191 | Synchronising with another entity | `Request` | the decision of the job compared with the distance covered at constant acceleration; induction over frames for staying in step and for the runaway | partial | A slow entity may be told to go backwards; if the other one stands the entity is told to go faster and faster; when the job is over the speed is not the final one asked for. |
| C192 | Out of range | `Request` | decision logic against a range predicate; induction over the frames for the first complaint | partial | At the end of the lanes nothing is checked. |
| C193 | The result file tells what happened | `Report` | maps as lists with distinct names; lookups and sums after every history by induction from its end; orders of hash maps as permutations | partial | Scenarios whose directories and files have the same names are one case. |
| C194 | A scenario starts when Autoware is engaged | `Report` | induction over the frames | partial | The first evaluation is at one step, not at zero. |
| C195 | The statistics of execution times | `Report` | induction from the end of the history; a sum of squares for the variance | partial | A scenario that cannot be configured gets the statistics of the one before it. |
| C196 | Simulated and real time | `Report` | properties of the floor | partial | The period is cut down to whole milliseconds: at 30 frames a second simulated time runs ahead. |
| C197 | A file that distributes parameters is loaded | `Distribution` | documents as trees with attributes, the schema as a rendering; evaluation of the readers on rendered documents | partial | Scenarios are; refuted for every distribution of the schema, because the element is looked for inside of itself. |
| C198 | What is drawn at random is what is written | `Distribution` | laws of the C++ library as data; sums of lists for the ratio of weights, lengths of lists for histograms | partial | Sets are drawn from in the ratio of weights; refuted for ranges, variances, uniform distributions and histograms. |
| C199 | Runs, seeds and all parameters of a random distribution | `Distribution` | evaluation of the readers on rendered documents; floor of the seed | partial | For one parameter and whole seeds of 32 bits. |
| C200 | Distributions that go through values | `Distribution` | induction on the lists rendered | partial | For the elements by themselves, but for the step; refuted for the element that contains them. |
| C201 | Whole numbers in scenarios | `Literal` | induction on the figures from the right; case analysis of signs; strong induction for printing | partial | A negative number is read as an unsigned one modulo the range. |
| C202 | Truth values and infinity in scenarios | `Literal` | case analysis of the text; induction on white space | partial | The words 1 and 0 of the schema are refused; the value of a parameter may have white space before it and anything after it. |
| C203 | Declarations of parameters | `Literal` | case analysis of types and groups; induction on the list | partial | Values as in C201 and C202; names with forbidden symbols are accepted, and dates are not looked at. |
| C204 | Options of requests for routes | `Routing` | case analysis of properties and of the result of the lookup; induction on the actors | partial | Parameters of another type and ambiguous ones are passed over in silence. |
| C205 | Routes that are assigned | `Routing` | list lemmas | partial | A closed route is as an open one, and strategies are not looked at. |
| C206 | Vehicles and pedestrians are sent somewhere | `Routing` | case analysis; induction on the waypoints | partial | An entity that is not on a lane passes over a route in silence; the order is replaced although there is an error. |
| C207 | Two entities collide exactly if their boxes meet | `Contact` | real numbers: the outline of an upright box as a set of means of its corners; overlap of intervals | partial | Boxes that are tilted meet without a collision. boost::geometry::intersects is a parameter, with what it promises as a hypothesis. |
| C208 | The part of a trajectory ahead crosses a polygon | `Contact` | sorted lists; C92 for the crossings of the whole spline | partial | What C92 lacks; a range may be passed over. |
| C209 | Entities at the altitude of the trajectory are looked for | `Contact` | induction on the control points; concrete splines for the cases in which it fails | partial | Only the control points in the part count: entities on a slope or between control points are left out, and splines of two points are an error. |
| C210 | The entity in front along the trajectory | `Contact` | bound points and quadrilaterals in real numbers; induction on the entities | partial | Altitudes are not looked at, and of entities in one piece the first of the hash map is named. Entities are seen for sure only at the ends of the pieces. boost::geometry::intersects is a parameter, with what it promises as a hypothesis. |
| C211 | The files of the map | `Maps` | lists of characters; induction on the listing; the dictionary order as a specification of its own | partial | The last file is taken, not the first; an .osm file named without a directory is refused. |
| C212 | Errors of the velocity report | `Noise` | real numbers; the variates as any function of their number | proved |  |
| C213 | Errors of the odometry | `Noise` | as C212; turns about axes as a specification of their own | partial | An error of the roll turns the vehicle about an axis of the map. That the angles taken by Eigen describe the orientation is a hypothesis. |
| C214 | Errors of the pose with covariance | `Noise` | as C213; products of quaternions | partial | Multiplicative errors have no effect. |
| C215 | Seeds of errors | `Noise` | integers modulo 2^32 | partial | No seed is refused: one out of range is taken modulo 2^32. |
| C216 | The inertial measurement unit | `Noise` | as C213 | partial | Gravity is turned the wrong way: it moves with the heading of the vehicle. |
| C217 | Angles of an orientation | `Matching` | tf2 getRPY as formulas on the axes of the orientation; the matrix of the angles is compared with that of the orientation entry by entry | proved |  |
| C218 | The place of a pose on a lane | `Matching` | the test of the yaw is turned into one of the heading and the direction of the lane; the offset from the sign of the cross product; the crossing from C92 | partial | That the crossing is found is shown for level poses and lanes of three or more points, without crossings at joints (C92) and for two points in C79. |
| C219 | From the map to a lane and back | `Matching` | C218 and the unit normal; counterexamples on straight lanes of two points | partial | The position is kept exactly if the centre line is met at right angles; without the pitch of the road the orientation is lost on a slope. |
| C220 | The lane of an entity | `Matching` | the sets as sorted lists; induction on the lanes found; the first lane with a place as a specification of its own | partial | The outline that is matched is only a diagonal of the box. |
| C221 | The lane of an entity with a route, and lanes beside | `Matching` | the same; lists of lanes by induction | proved | Lanelet2 is a parameter, and so is making places canonical, which is modelled in other areas. |
| C222 | The map pose of a place on a lane | `Matching` | C217 and the formulas of C219 | partial | An entity that faces backwards on a slope gets the pitch of the lane with the wrong sign. |
| C223 | A change of speed takes the time given | `Pace` | the requests as functions on the job list and the entity, the frame with the speed planner of C33; induction over the frames with the speed, the limits and the two jobs as the invariant; a counterexample for a second request | partial | Said up to the frame in which the target is nearly reached. A request made while another one is under way loses its limit; braking with the automatic transition gives a negative limit. |
| C224 | A change of speed has the acceleration given | `Pace` | the same; the limits by the invariant that the watching job is active | partial | A rate without a sign, as scenarios have it, makes the entity start to brake late. |
| C225 | A change of speed in a step is made at once | `Pace` | case analysis over all transitions and constraints | partial | Without a constraint a step changes nothing at once. |
| C226 | Speeds relative to another entity | `Pace` | the same with relative targets; induction over the frames | partial | The limit is not in force in the first frame, and the frame in which the other entity has disappeared fails. |
| C227 | Limits after a change of speed | `Pace` | the end of C223, and the clean-up of the jobs | partial | The limits after a change are the default ones, whatever they were before; a second request has no limit of its own. |
| C228 | A continuous request keeps the speed | `Pace` | the invariant of C224 with a continuous request; the planner as a flag of the entity | partial | With a time the speed is not kept; before the first frame the request is undefined behaviour. |
| C229 | Autoware ends with its ego | `Process` | a table of processes with groups, `fork`, `kill`, `killpg`, `waitpid` and `sigtimedwait`, and histories of calls of the simulator and of events; an invariant of the roles processes have, induction over the history; counterexamples for groups, interrupted waits, ended launches and pending signals | partial | Nothing puts Autoware in a group of its own, so that the kill reaches nothing and the removal waits for ever for an Autoware that does not end. An interrupted wait leaves Autoware running. Nodes of a launch that has ended are left. In a later scenario the end of the recorder is taken for that of Autoware. |
| C230 | Signals go to processes of the simulation only | `Process` | the invariant of C229 says that the numbers the simulator keeps are those of its children; a counterexample for a recorder that cannot be started | partial | If the recorder cannot be started, every process is sent the signal. |
| C231 | The end of Autoware is noticed | `Process` | the words of `bits/waitstatus.h` as arithmetic; the invariant of C229 | proved |  |
| C232 | The recording ends with the scenario | `Process` | induction over the history with the recorder as a role; a counterexample for `on_shutdown` | partial | At a shutdown the recorder is neither told to end nor waited for. |
| C233 | A command of the scenario is waited for | `Process` | induction over the history with the command as a role; a counterexample for an interrupted wait | partial | An interrupted wait ends while the command runs. |
| C234 | Entities are shown as they are | `Markers` | invariant over histories of messages: the six fixed markers of an entity are settled by the end of its block, all others are goals or blank | proved | Said of all but the goals, which C236 is about. |
| C235 | Entities that are gone are not shown | `Markers` | invariant: every one of the six fixed markers a viewer has belongs to an entity the component remembers, whose block has all six; a counterexample for blank markers | partial | Blank markers, which the component adds by mistake for goals that have been reached, can stay for ever. |
| C236 | Goals are shown | `Markers` | induction over the loop for goals; goals in the viewer carry the time of a message; a counterexample where a goal is deleted in the message that adds it | partial | Said of an entity that has as many goals as any has had, and at most 90. When some goals have been reached the markers of the next ones can be deleted together with those. |
| C237 | The viewer follows the simulation | `Markers` | the messages of frames composed with C234 and C235 | proved |  |
| C238 | The outline of a box | `Markers` | cases on the signs of corners, for all boxes and poses | proved |  |
| C239 | Conditions about traffic lights | `Lamps` | what a condition answers for all histories of operations on the map of lights; setting followed by asking; counterexamples for the text none and for lists | partial | A light set to "none" shows a green bulb that is off and does not meet the condition "none". A text of several bulbs can be set but is an error in a condition. |
| C240 | Messages about traffic lights | `Lamps` | invariant of the map of lights over all histories: keys are the lights operations were about, absent ones are as new; then the message by its keys | partial | A condition about a light that was not known makes it appear in the message without bulbs. |
| C241 | Traffic lights are shown | `Lamps` | membership in the list of markers, injectivity of their numbers below 2^30, fold of a viewer over all updates | partial | Numbers of markers are cut to 32 bits, so lights whose ids agree below 2^30 hide each other. Conventional and V2I lights share the topic and each update removes the markers of the other kind. |
| C242 | The rate at which traffic lights are published | `Lamps` | invariant over all histories of starts, frames and rates, by induction from the end | proved | Which periods a timer can have is a parameter, since timers are not in this repository. When a timer is called is not modelled. |
| C243 | Frames of coordinates of the entities | `Reach` | function of the kept pose and the entities of a frame; one place for all frames of all histories by induction, and histories in which it is not at the Ego | partial | The frames stay where the first one was, so the frame "ego" does not follow the Ego, and it is in the centre of the others if the Ego was added later. |
| C244 | Being in a lanelet | `Reach` | decision over the model of longitudinal distances; equivalences on roads that lie on a line | proved | Said of roads on a line, and for the ways the map finds. |
| C245 | The end of the road | `Reach` | the end is characterised by the model of lanelets ahead; histories of frames by induction | partial | That the entity is on the road is said of routes in which no lanelet has two successors. |
| C246 | Where a lane change is measured | `Reach` | the place ahead compared with the distance in the model of curves; a road on which seconds taken for metres are an error | partial | With a constraint of time the seconds are taken for metres, which is an error if the road ends before. |
| C247 | Releases are told apart by their dates | `Release` | the order of texts as of std::string, dates written with digits; induction over the digits shows that the order is that of days | proved | Months and days are any numbers of two digits. |
| C248 | The parts of the simulator agree on a release | `Release` | the choices of the parts compared for every text by the laws of the order; texts on which they differ | partial | Releases before 6 September 2023 have no detector although everything else accepts them; texts are compared as a whole, so some that name no release are accepted for lights. |
| C249 | The planned path | `Release` | the two subscriptions as a state machine; induction over the messages sent | proved | For a build with both messages. Threads are not modelled: a message is kept in one step. |
| C250 | The arguments Autoware is launched with | `Release` | the list of arguments as it is made; the last argument with a name is looked up | proved | Which of two arguments of the same name counts is decided by the launcher, which is not in this repository: taken to be the last one. Parameters that cannot be read are not modelled. |
| C251 | Where traffic sources place entities | `Spawn` | the random engine and the map as parameters with laws; induction over the attempts | proved | The area is that of the pose drawn: that corners of the box may be outside of it is shown in Traffic. Laws of cosine and sine and the range of the radius are assumed. Matching to lanes is in Matching. |
| C252 | Stop lines, rights of way and conflicts along a route | `Spawn` | a map as a list of lanelets; induction over the route, compared with filters and concatenations | proved | Which lanelets are in conflict is decided by Lanelet2. Ids of lanelets in a map are different. |
| C253 | The distance to the bounds of lanes | `Spawn` | induction over the lanelets; the distance of lines and the bounds of lanelets are parameters | proved | The distance of two lines is a parameter; distances are at most the largest number. An entity has an outline. |
| C254 | The ends of the road shown | `Spawn` | a process with a static variable and the modules of its controller; induction over the history of events | partial | Proved for the controllers made before markers were first published in a process. The markers are kept in a static variable, so any later controller in the same process shows the ends of the road of the first: proved as C254_second_violated. Colours and heights of markers are left out. |

## 4. Trusted base

* Lean 4.33.0's kernel.
* The axioms `propext`, `Classical.choice` and `Quot.sound`, and no others. `Verif/Audit.lean` prints the axioms of
  every claimed theorem during `lake build`; `AXIOMS.md` is its output.
* The fidelity of the transcription in the models to the cited lines of C++. There is no mechanical link between them.
* The C++ compiler and standard library, ROS 2, Boost, lanelet2, pugixml, ZeroMQ, protobuf and Autoware are not
  modelled; what the code asks of them is an oracle or an input.

## 5. What is modelled and what is not

| area | modelled | not modelled |
|---|---|---|
| `Storyboard` | `StoryboardElement::evaluate`, transitions, override, Event, Maneuver, ManeuverGroup, Act, Story, Storyboard, Action, Init actions | the bodies of actions and conditions (oracles), exceptions |
| `Condition` | Condition with edge and delay, ConditionGroup, Trigger, StoryboardElementStateCondition, TriggeringEntitiesRule | what conditions measure; NaN times |
| `Signal` | TrafficSignalController(s), phases, references and delays, predictions, controller actions | resolution of names of controllers |
| `Light` | bulbs, texts, conventional, V2I and detected registries, V2I feature | confidence, markers, messages, publishing |
| `Scope` | frames, declaration, search, qualified names | the types of objects (a predicate) |
| `Expr` | grammar and operators of `${...}` | splitting the text into tokens, printing of the result |
| `Job`, `Entity` | job lists; speed requests, stand-still duration, travelled distance | Ego and misc objects; the behaviour plugin (an arbitrary speed) |
| `Registry` | spawn, despawn, reset of plugins, update frame, environment simulator behind its socket, distances | everything about an entity but name, kind, pose |
| `Clock` | SimulationClock and its callers in API | ROS time |
| `Traffic` | sources, sinks, poll schedule | lanelet geometry (parameters) |
| `TaskQueue`, `Autoware` | dispatcher and client threads; service calls, waiting for states, state names | the network, the data race on `thrown` |
| `Detection` | schedules, delays, selection, noise models 1, 2 (exact), 3, 4 (who is dropped), parameters | positions and covariances of messages |
| `Preprocessor`, `Interpreter` | request histories; life cycle, verdicts, runner, checker | XML, files, publishers |
| `Parameter` | modification, comparison, constraints | declaration syntax |
| `Speed` | longitudinal planner: limits, planning, distances, durations | other components of the twist, rounding |
| `Action` | speed, speed profile, lane change and trajectory actions over frames; adding, deleting and moving entities; conditions on entities that may be missing | the behaviour of the entities (given per frame), other actions, positions other than as values |
| `Lanelet`, `Route` | canonicalization, movement, lanelets ahead and behind, alternatives; waypoints and routes | geometry of centre lines, lanelet2's routing (given) |
| `Geometry` | vectors, quaternions, poses, line segments, bounding boxes, closest points, slerp, polynomial solver, Hermite curves and Catmull-Rom splines, over the real numbers | rounding, NaN and overflow; boost, tf2 and Eigen (transcribed where used) |
| `Vehicle` | the eight vehicle models of the ego with their integration, limits, delays, gears, slopes and the acceleration map, over the real numbers | rounding, NaN and overflow; splitting the file of the map into cells |
| `Ego` | EgoEntitySimulation: update, overwrite, pose, reported motion, slope, what Autoware is told | matching of the pose to a lane (a function of the pose), the messages |
| `Server` | handlers of the sensor simulator for initialization, spawn, despawn, update and frame; control mode of the ego | sensors, bounding boxes and poses as such, the threads of the control mode server |
| `Convert` | conversions between ROS 2 messages and the protocol; published traffic lights and predictions | conversion of control commands (not used), stamps and frames of messages |
| `Follow` | the controller for entities that follow trajectories; `makeUpdatedStatus` with its recursion over reached waypoints; the do-nothing plugin; over the real numbers | rounding and overflow; the texts of errors; the distance along lanes and the matching to lanes, which are parameters; the angular acceleration |
| `Reader` | the reading of attributes with `$(...)` substitutions, of elements, repeated elements, groups and alternatives | pugixml; `std::regex` except for the one pattern; the effects of constructors on the scope; the evaluation of expressions (C24) and the lookup of parameters (C23), which are parameters |
| `Grid` | the occupancy grid of the sensor simulator: walking along lines, marking of polygons, hidden areas, choice of entities, message | convex hull, clipping by boost, the lidar, `float` vertices, 32-bit overflow of cell numbers |
| `Behavior` | the behaviour tree of vehicles with the status of its nodes, the memory of fallbacks, the events that reset requests and the loop of `update`; all actions of vehicles, with what they read as one record; a whole frame | how the distances, lights, entities in front and ways are found (parameters of the model, arbitrary); waypoints and obstacles for display; BehaviorTree.CPP, which is not in the sandbox and whose `Fallback` of version 3 is modelled from memory |
| `Distance` | distances along and across lanes, of places with alternative names and of bounding boxes; the conditions on distances, relative distances, clearance and time to collision; stop lines, right of way, conflicts, the entity in front; the search for the distance from a spline | the routing graph, the shape of lanelets, splines and polygons (parameters of the model); rounding; the distances to lane bounds |
| `Command` | reading of function calls, custom commands and their parameters, words of command lines, names of user defined values, the condition on them | the regular expression engine (the language and the greedy choice are modelled), locales; what a program or the simulation does with a command; quotation by `std::quoted` and readers of numbers (parameters of the model); threads of the subscription |
| `Sensing` | selection of noise parameters by place and by entity, wildcards, LiDAR noise, rays and frames, poses of detected entities under noise, the inertial measurement unit | random engines (draws are arbitrary), distributions, single precision of points, Embree (an arbitrary answer for each ray), regular expressions with other operators, the closest point of an outline, roll and pitch of detected entities, quaternions (roll, pitch and yaw instead), the parameter server |
| `Operator` | routes, trajectories, speeds, respawning and commands to cooperate of the ego, as the tasks that are queued for Autoware | services and topics of Autoware and their failures (only what is queued), the search for routes (an arbitrary function with what the theorem assumes), trajectory following (C62-C66), poses |
| `Cache` | the caches of routes, center points, splines and lengths with any number of threads, and the choice of the map | what is computed (arbitrary functions of the map), the memory model (locked sections are steps; a data race is two steps that are enabled at once), loading of maps, hashing |
| `Place` | the status of entities, teleporting and adding them at all kinds of positions, reports about the ego | roll and pitch, matching to lanes (a parameter with the laws of canonical poses), names and types of entities, relative lane positions |
| `Lanes` | center lines of lanelets when a map is loaded, targets of lane changes and the place where they end, lanelets nearby, direction of lanes, speed limits, center lines of several lanelets, bulbs and stop lines of traffic lights | rounding, the curves themselves, the routing graph and the rules of traffic (parameters), attributes other than those named |
| `Monitor` | the status of threads, the report, overridden thresholds, the end of the process | the format of the file, the clock (a parameter), exceptions |
| `Init` | actions of `Init`: reading, starting, running and completion | what each action does, errors they throw, the triggers of the storyboard (see `Storyboard`) |
| `Pedestrian` | walking straight on and following a lane: who is in front, target speed, movement in the world, correction at the end of a lanelet, waypoints | slopes, Boost.Geometry (a parameter), waypoints on a lane, matching to lanes (see `Place`), trajectories (see `Follow`) |
| `RandomTest` | the random test runner: making up tests, lanelets within a distance, saving and repeating, the executor with its metrics, the order of tests | the opposite lane (a parameter), texts of messages, the file format below named values, sensors attached to the ego, launching Autoware |
| `Orca` | the context-aware pedestrian: the lines other entities set, the choice of a velocity, the planners of goals, the tree of actions, the motion of a frame | slopes (one level in most theorems), the blackboard below named values, the library of behavior trees beyond the nodes used, logging |
| `Modify` | `conversion.py`: scenario modifiers, the files derived, replacement of names, what is read from YAML | floating point of ranges, the encoding as XML and the schema, names that are regular expressions, backslashes in values |
| `Catalog` | catalogs in directories, references to them, the places that take a reference | the parsing of XML, the content of entries beyond parameters and attributes, the text of errors |
| `Select` | declarations of entities and selections, their objects, the collision condition | empty references, the shape of bodies, the order of a set of addresses |
| `Enum` | operator>> and operator<< of 23 enumerations, attributes of those types | expressions and substitutions, texts of errors, values outside of an enumeration |
| `Request` | requests to vehicles, pedestrians and misc objects, limits, synchronising, ranges | the ego, goal poses of plugins, floating point, logging |
| `Report` | the result file, the start of a scenario, execution times, the frame rate | the file format, clocks, square roots |
| `Distribution` | reading of parameter value distributions, their laws, seeds, loading by the preprocessor | random engines, expressions in attributes, infinite numbers, floating point |
| `Literal` | texts of whole numbers, truth values and infinity; declarations of parameters | how floating point numbers are read (a parameter); references and expressions (see `Reader`, `Expr`) |
| `Routing` | options of requests for routes, checks of routes, requests to vehicles and pedestrians | what the entity does with it (see `Operator`, `Route`); matching of poses with lanes (a parameter) |
| `Contact` | collision of two entities, parts of splines (crossings, altitudes), detection of the entity in front by trajectory | `boost::geometry::intersects` (a parameter with what it promises), rounding |
| `Maps` | choice of the files of the map, the file named by the scenario | loading the map, characters outside ASCII |
| `Noise` | errors of velocity report, odometry, pose with covariance and inertial measurement unit, seeds | the generators of random numbers (any series of variates), the angles that Eigen and tf2 take from an orientation (a parameter with what it promises), rounding |
| `Matching` | place of a pose on a lane and back, lane of an entity with a box, a route or a goal, map pose of a place, angles of an orientation | Lanelet2 (a parameter), rounding, quaternions not of length one |
| `Pace` | requests for absolute and relative speeds with their transitions and constraints, the jobs they leave, frames of an entity on a free lane | ego and misc objects, ends of lanelets, obstacles, rounding |
| `Process` | processes the simulator starts: Autoware, the recorder, commands; signals, waiting and reaping | POSIX itself (a model of it), threads, time, several egos with Autoware, a transition of the node that fails with an exception |
| `Markers` | markers published for entities, a viewer that follows them, the messages about entities | colours, scales and texts, the shape of paths, delays between messages and viewer |
| `Lamps` | questions and conditions about traffic lights, lights added when they are looked for, confidences, messages of signals, markers of lights, rates and timers of publishing | callbacks between kinds of lights (see `Light`), when timers are called, the order of unordered maps |
| `Reach` | frames of coordinates published for entities, being in a lanelet with a tolerance, the end of the road, the place in the own lane a lane change is measured from | time stamps, jobs at the end of the road (see `Entity`), exceptions for lanelets that are not in the map |
| `Release` | what depends on `architecture_type`: publishers of traffic lights, their detector, sensors, the subscription to the planned path, the arguments Autoware is launched with | reading of parameters, topics and publishers, the process that is launched (see `Process`), threads |
| `Spawn` | where traffic sources place entities: poses drawn, the check of places, attempts; stop lines, signs, rights of way and conflicts along routes; distances to the bounds of lanes; what is shown of the sinks at the ends of the road | the random engine itself, conflicts in the graphs of Lanelet2, when entities are made and their names (see `Traffic`) |

Not modelled at all: behaviour trees, lidar and
occupancy grid, colours and texts of markers, random test runner, CPP mock scenarios.

## 6. Findings

Behaviour of the code that contradicts the property a user would rely on. Those with a theorem name are proved of the model.

* **Storyboard.** Stopping an element evaluates standby children, which may start and be left running (`C07_violated`). A watcher of
  `startTransition` of a skip event that was refused forgets what it saw (`C14_violated`). `maximumExecutionCount` 0 executes once.
* **Traffic signals.** A new begin of a reference controller replaces a pending start, so a follower with a delay longer than the
  cycle never starts (`C16_violated`). The cycle time is accumulated in an `int`: undefined for an unbounded phase (`C18_violated`),
  zero for phases under a second (`C18_short_phases_not_predicted`). Publishing predictions of one controller clears those of all.
* **Traffic lights.** A malformed text leaves the light changed (`C21_violated`). The V2I feature enabled for a regulatory element is not
  honoured when the state is set for that element (`C22_violated`).
* **Names and expressions.** An unknown first qualifier is ignored instead of reported (`C47_violated`). `/`, `pow` and the rounding functions accept
  booleans (`C24_violated`); `sqrt` yields an integer (`C24_sqrt_not_real`); unsigned parameters wrap around
  (`C24_unsigned_wraps_violated`); the empty expression is 0.
* **Entities.** A spawn after the connection was closed throws but registers the entity (`C25_after_close_violated`). Resetting a behaviour plugin
  uses the entity after it was destroyed (C49). In standalone mode frames are sent to the environment simulator (C48). Requests for the
  current speed are ignored and an older request stays in force (`C28_ignored_violated`). At the end of the lanelets the stand-still duration is
  wrong (`C29_violated`).
* **Traffic sources.** A parameter shadows the member with the centre, so entities may be placed up to twice the radius away (C50). A negative rate
  never returns, rate 0 never spawns.
* **Autoware.** Waiting for `waiting_for_route` right after arrival does not wait, and a falling back state ends `engage` successfully (C51). The
  stored exception of the task queue is accessed by two threads without synchronisation. An empty list of cooperation responses counts as success.
* **Detection.** The key for autocorrelation coefficients lacks a dot, so configured values are never read (C53). The ego plane is remembered by
  orientation only (C52). With noise models 3 and 4 an entity is missing in the first frame it is seen (C42).
* **Runner.** A scenario that runs into the time limit gets no recorded verdict (C43). An invalid scenario and results of an earlier run are
  not noticed by the result checker (C55). A failing load of the preprocessor discards queued scenarios (C44).
* **Parameters.** For unsigned parameters the operand is truncated before the operation (10 times 0.5 is 0), negative operands are undefined (C46).
  Constraints are checked at declaration only.
* **Speed.** Acceleration away from the target is dropped in one step, without respecting jerk (C33). The stopping distance can be negative and
  its loop need not end (C57); its error is proved exactly. Estimated durations are negative for braking (C58). Braking in a given time plans a
  negative deceleration limit and clamps with swapped bounds (C59).
* **Road network.** Canonicalization along a route lacks a `break` (C60); alternatives beyond a dead end are returned (C63).
* **Actions.** A LaneChangeAction ends in the frame in which it starts unless the entity is changing lanes already (C72). Actions of several actors
  look at an actor only after those before it have finished (C70); a selection has finished a lane change or trajectory with its first member
  (C72), and its members share one trajectory object, to which each puts its own pose in front (C73). Deleted entities can be neither
  added again nor measured (C74, C75).
* **Routes.** Two waypoints in one lanelet are dropped together, and stale routes are followed (C64, C65); the first planner decides the routing graph of
  all (C66); unreachable alternatives are preferred (C67).
* **Geometry.** The test for intersection of segments has a fixed tolerance that is an area, so short segments far apart intersect (C77).
  Collinear segments that touch in a point throw (C78). The sign of the relative position of a point is the opposite of the documented
  one, and segments leading to smaller x have no slope (C80). The relative pose of two bounding boxes is reversed when the closest corner
  belongs to the first box: a wider vehicle ahead is reported behind (C82). Points seen from a turned sensor are not turned (C83).
  Interpolation of orientations may go the long way round (C85). The solver for cubic equations loses a triple root, loses the only root of
  (x - 1/2)³ + 0.003 (x - 1/2), and reports 0 for the root 0.08 of x³ - 0.000512; equations with small coefficients are refused (C86).
  A curve along a line segment misses it unless it starts or ends on it (C91). Searches for crossings in a range of places report places outside of it;
  splines of two control points never report the crossing with a line and do not see the closing side of a polygon (C92). The left and right
  bounds of a spline are exchanged (C93).
* **Vehicle models.** A gear that does not fit the velocity, or PARK, stops the ego within one step from any speed (C95). DELAY_STEER_VEL
  overshoots when a step is longer than its time constant (C95). With an acceleration scaling factor above one the reported
  acceleration grows without bound (C96). Without fall guard the ego rolls on in PARK for ever, rolls down a slope in PARK when the brake
  is pressed slightly, and goes backward in DRIVE when the brake is released near standstill (C100). A map with one velocity makes every
  step throw, and a map that cannot be read means no map (C99).
* **Ego simulation.** An ego that is spawned tilted and drives on level ground moves further than its speed allows, and an overwriting before the
  start is undone by the next update (C101). After an overwriting, IDEAL_STEER_VEL reports the speed of the last command, the ideal models its
  steering; the pitch is lost; the model without fall guard drives with an acceleration that was never assigned (C102). The reported jerk is an
  acceleration (C104).
* **Sensor simulator.** A name used by two entities of different kinds is despawned by halves, and an entity spawned with a name in use starts with the status of the
  other one (C106). An initialization forgets the entities but keeps the simulation of the ego and the sensors.
* **Messages.** The subtype of entity parameters is lost on the way to the sensor simulator; a gear that the conversion does not know leaves the gear of the receiving object
  (C107). Arrows to the upper left and right are published as an unknown shape; ids of lights are cut to 32 bits (C108).
* **Trajectories.** An entity on a trajectory that is above its target speed may brake harder than it can, and a target speed that is lower than the current
  speed makes the controller fail with contradictory limits (C110, C111). Unequal limits for the rates of acceleration and deceleration
  lead beyond the target speed and into contradictory limits. A target speed above the maximum speed of the vehicle is accepted (C110). A
  waypoint whose time is past by one step converts a negative number to an unsigned one (C112). `makeUpdatedStatus` reads the first two
  waypoints before it checks that they are there, recurses for ever when three waypoints of a closed trajectory are within one step, and
  ends a closed trajectory of two waypoints (C113). The do-nothing plugin never follows trajectories with absolute times, reports the
  acceleration with the wrong sign, jumps to the first timed vertex, and reports a speed that is not a number at the end of a trajectory
  of one vertex (C114); it takes the old angular velocity from the x component, which is always zero. A desired speed below zero
  is reported as a positive speed (C113). Relative times count from the previous timed waypoint in `makeUpdatedStatus`, which says so, and
  from the start of the action in the do-nothing plugin.
* **Reading scenarios.** An attribute that is empty, or becomes empty, is read as zero, false or an empty text instead of being refused; a text with a line break
  is not searched for substitutions; a `ros2` command that prints nothing is undefined behaviour; a parameter that holds the beginning of
  a substitution may make reading run for ever (C115). Elements with unknown names, a misspelt optional one for example, and the second of
  an element that is allowed once are silently ignored, as are groups that cannot be read. A `Deterministic` element looks for its
  distributions one level too deep, so that none is ever read (C116).

* **Occupancy grid.** The origin of the published grid mixes up height and width, so that on every grid that is not square everything is found at
  a wrong place (C119). An object whose corners are all in one cell, such as a pedestrian on a coarse grid, is not drawn; of an object that is
  clipped at the left or lower border, cells are left out, because a line that starts on a cell border is shifted by one cell (C117, C118). The
  check for objects that surround the sensor never succeeds for closed rings, which is what the geometry library returns (C120).

* **Behaviour of vehicles.** The tree remembers the action that ran last and does not look at earlier ones: a vehicle that slows down for a red light does
  not see another one that cuts in (C124), and one that slows down for a stop line does not see a red light; one that follows another vehicle
  follows it across a red light (C123). After a stop at a stop line a vehicle that has set off is told to stop again as soon as it is
  faster than 1 mm/s, so that it creeps over the line at 4 mm/s (C125). A conflict at the distance of the stop line makes it ignore both (C125).
  A trajectory that is finished in its first frame leaves its request for ever, and the vehicle stays where it is; the same holds for lane changes of one
  frame, which are begun again (C122, C127). With the policy BEST_EFFORT and no target speed a vehicle never accelerates for a lane change (C127).
  In the first frame after it gave way a vehicle is moved toward its full speed whatever crosses its way (C145).
  A lane change that failed leaves its curve to the next one (C127). A vehicle that begins to move backward is moved twice (C121).

* **Commands and user defined values.** A space behind the opening parenthesis or before a comma makes a command something else than a call (C136); it is then run
  as a program whose failure nobody notices, as is every misspelled command (C137). `RelativeHeadingCondition` with a decimal point is refused, because the point is
  taken for the separator of entity and value (C138).
* **Sensors.** The ellipses of noise parameters lie along the axes of the map, not along the ego (C139), and a dot in a pattern matches any character (C140). The radii of the LiDAR noise are squared twice, so 10 m acts as 100 m; most of its ratios are not read, lists that are too short are read beyond their end, and the tangential noise is not in a random direction (C141). Flipped entities of noise version 2 jump by twice the offset of their centre (C142). A LiDAR scans its first direction twice if its resolution divides the circle, hangs for a resolution of zero, and other sensors out of phase with it see nothing (C143). Gravity is rotated by the attitude instead of its inverse (C144).
* **Markers of sinks.** They are kept in a static variable: in a process that runs several scenarios the ends of the road of the first are shown for all (`C254_second_violated`).
* **Distances and conditions on them.** As soon as two bodies overlap, the distance between them along the lane changes its sign: the entity ahead is reported behind (C129),
  is not seen as the entity in front any more (C134), and a clearance condition that looks ahead is met (C131). Distance conditions to positions behind are
  met for every `lessThan`, because the distance is negative (C130). The time to collision is computed as if the target was ahead: for a target behind it is finite when the
  entities move apart and infinite when they approach (C132). A clearance condition with the rule `any` lets the second triggering entity see itself (C131).
  The stop to give way is at the first lanelet with any occupied priority lanelet, also if priority is mutual and nobody gives way there (C133). Of two entities equally
  far away, one is not looked at (C134). The search for the distance from a curved way may go to the wrong half (C135).

### Proved violations

Each theorem with the comment it carries in the sources.

* `C07_violated`: **C07 is false of the code**: the act's stop trigger fires in frame 2 while the act is running, the act is complete at the end of the frame, and its descendant event 1 is running.
* `C100_drive_backward_violated`: C100 is violated when the brake is released near standstill: in DRIVE on level ground the ego goes backward.
* `C100_park_rolls_violated`: C100 is violated in PARK: an ego that rolls with 10 m/s on level ground when it is put into PARK rolls on with 10 m/s for ever.
* `C100_park_slope_violated`: C100 is violated in PARK on a slope: with a slight brake the ego rolls off, although with no pedal at all it would stay.
* `C101_early_violated`: C101 fails for an overwriting before the start of the scenario: the ego is reported where it was put, and the next update reports it back where it was spawned.
* `C101_tilted_violated`: C101 fails for an ego that is spawned tilted, as on a slope, and then drives on level ground: with the wheels straight and the reported speed 1, one update moves it over the map by more than the speed times the step.
* `C102_junk_violated`: C102 fails for the model without fall guard: how fast it drives after the next update depends on what happened to be in the memory of the new state, as its pedal acceleration is not assigned.
* `C102_speed_violated`: C102 fails for IDEAL_STEER_VEL: the speed reported after an overwriting is that of the last command, not the given one.
* `C102_tilt_violated`: C102 fails for a pose that is not upright: off the lanes the pitch is lost. The nose of the given pose points up, that of the reported one is level.
* `C102_turn_violated`: C102 fails for the ideal models: the rate of turn reported after an overwriting is that of the last steering command.
* `C104_jerk_violated`: C104 fails for the jerk: an ego that is driven with a constant acceleration reports, from the second update on, that acceleration as its jerk.
* `C106_same_name_violated`: C106 fails for names that are not fresh: a vehicle and a pedestrian of one name are despawned by halves. The pedestrian is still there, but an update of it throws.
* `C106_stale_status_violated`: C106 fails for names that are not fresh: an entity spawned with the name of another one starts with the status of that one.
* `C107_gear_violated`: C107 fails for a gear that does not exist: instead of an error, the gear of an earlier message arrives.
* `C107_subtype_violated`: C107 fails for the subtype of parameters: the message that arrives has the subtype its target had.
* `C108_id_violated`: The id of a light beyond 32 bits is published as another id, that of a different light: here the bulbs of the light 2^32 + 7 are published for 7, and what is detected for it is published as a third light.
* `C108_upper_violated`: An arrow to the upper left is published as an unknown shape.
* `C109_violated`: C109 is violated as documented ("while respecting a maximum jerk constraint"): with rate 1 and step 1, a speed lower by 1.1 than the wanted speed is left with the acceleration 1.1, at the wanted speed, which the rate does not allow to be zero in the next step.
* `C110_deceleration_violated`: C110 is violated for a vehicle that is faster than its target speed: whatever its maximum deceleration, from a high enough speed the controller brakes harder than that.
* `C110_max_speed_violated`: C110 is violated for the maximum speed: with a target speed of 50, a vehicle with the maximum speed 30 may accelerate at the speed 40.
* `C110_target_violated`: C110 is violated for a vehicle whose rate for braking is lower than the one for accelerating: in reach of its target speed 15 it accelerates to 18.
* `C111_rates_violated`: C111 is violated for different rates: a vehicle that starts at rest, with the rates 4 and 1, comes by the decisions of the controller into a state in which every decision is an error.
* `C111_slow_down_violated`: C111 is violated for a vehicle that is faster than its target speed: with the default parameters, slowing down from 10 to 1 ends with an error after 48 steps, whatever the remaining times and distances.
* `C112_late_violated`: C112 is violated for a waypoint that is late by a step or more: the number of steps left is undefined.
* `C113_closed_violated`: C113 is violated by closed trajectories: with three or more waypoints where the entity is, the recursion never ends.
* `C113_pair_violated`: C113 is violated by closed trajectories of two waypoints: they end at the second one instead of going on for ever.
* `C113_short_violated`: C113 is violated by trajectories of fewer than two waypoints: instead of the error that the function has for them, they are read beyond their end.
* `C114_absolute_violated`: C114 is violated for absolute times: the entity never moves and never ends following, however many updates there are.
* `C114_acceleration_violated`: C114 is violated by the acceleration: an entity that gets faster is reported with a negative acceleration.
* `C114_jump_violated`: C114 is violated at the start: an entity that follows a trajectory as the interpreter makes it, with its own pose in front, waits for the time of the first vertex and then jumps there, however far away it is.
* `C114_single_violated`: C114 is violated by a trajectory of one vertex, as the interpreter makes it: at its end the entity has a speed that is not a number.
* `C115_empty_violated`: C115 is violated by attributes with a value that is empty: they are read as zero, false or nothing, although this is not how such a value is written.
* `C115_lines_violated`: C115 is violated by attributes of more than one line: the substitutions in front of the last line break are not replaced, if there are none behind it.
* `C115_returns_violated`: C115 is violated by values with parentheses and references that are not closed: reading an attribute that refers to one need not end.
* `C115_ros2_violated`: C115 is violated by `ros2` commands that print nothing but line ends: the last character of an empty text is looked at, which is undefined behaviour.
* `C116_deterministic_violated`: C116 is violated by distributions in a `Deterministic` element as the standard has them: none is read, and there is no error, whatever they are.
* `C116_twice_violated`: C116 is violated by elements that are allowed once and occur more often: the others are ignored.
* `C116_unknown_violated`: C116 is violated by elements that the schema does not have: they are ignored, whatever is in them, so that a misspelt optional element is silently left out.
* `C117_border_violated`: C117 is violated by lines that go up from a whole coordinate, as on the border of the grid: the cells are shifted by one, so that cells the line goes through are left out and others are visited that it does not touch.
* `C118_border_violated`: C118 is violated by objects at the left or lower border of the grid: cells that the object covers are left out, because the way along its edge is shifted by one cell.
* `C118_small_violated`: C118 is violated by objects that are inside one cell: nothing is marked.
* `C119_place_violated`: C119 is violated by every grid that is not square: everything on it is found at a wrong place of the map, off by half of the difference of the sides in both directions.
* `C119_turned_violated`: C119 would be violated if the grid was turned with the ego vehicle, as the interface of the builder allows: the vehicle is then not in the middle of its own grid.
* `C120_surrounded_violated`: C120 is violated by objects that surround the sensor: the check for them never succeeds for a polygon whose first point is repeated at its end, as it is in the rings of the geometry library.
* `C121_backward_violated`: C121 does not hold of a vehicle that begins to move backward: the first frame moves it twice.
* `C121_off_lane_violated`: C121 does not hold of a vehicle that is taken off the lane while it follows another one: the next frame throws. (While it follows its lane, it stops instead.)
* `C122_at_once_violated`: C122 does not hold if the trajectory is finished in the first frame: the request stays for ever, and the vehicle does not move any more, although it is to drive at 12 m/s on an empty road.
* `C123_front_violated`: C123 does not hold if another vehicle drives on behind the light: the vehicle follows that one across the stop line.
* `C123_memory_violated`: C123 does not hold of a vehicle that has just slowed down for a stop line: as long as it sees one, it does not look at lights.
* `C124_cut_in_violated`: C124 does not hold if the vehicle slows down for a red light and another one comes between: as long as the light is red, it does not look at that one, and keeps its speed with 1 m left.
* `C125_creep_violated`: C125 does not hold of a vehicle that stands before the line on an otherwise empty road, with its usual limits and 10 m/s to drive: as soon as it has set off, it has to stop again. After more than eight minutes (10000 frames) it has come no further than 1.9 m, and was never faster than 7.5 mm/s.
* `C125_tie_violated`: C125 does not hold if a conflict is exactly as far away as the stop line: the vehicle slows down for neither and drives on.
* `C126_yield_violated`: C126 does not hold of a vehicle that gives way: it keeps its speed although it is to drive slower.
* `C127_best_effort_violated`: C127 does not hold for a vehicle that stands, with the policy to do the best and no speed to drive at: it is to change lanes within 2 s, but stays where it is for ever.
* `C127_left_over_violated`: C127 does not hold after a lane change that failed because the vehicle moved backward: the next one is made on the way of the old one, although the vehicle is elsewhere and is to go to another lane.
* `C127_one_frame_violated`: C127 does not hold for a lane change that takes one frame only: after the vehicle was put on the target lane, it is moved once more in the same frame.
* `C128_lateral_one_way_violated`: There is a lateral distance from one lanelet to the next, but none back.
* `C128_opposite_violated`: On a ring, two places opposite each other are both ahead of the other.
* `C128_two_names_violated`: The distance to a place with two names may be found although the distance from it is not, and although no name of the place is missing: the nearest name is taken by the number of lanelets in the route, and no route at all counts as the shortest.
* `C129_edges_violated`: For other bodies the lateral distance is measured between the edges that are away from each other: here 2.5 m are reported as 3.5 m.
* `C129_overlap_violated`: When two bodies overlap, the free space has the sign opposite to the distance, except if the distance is zero: an entity ahead is reported behind, the farther the more the bodies overlap, and entities at the same place touch.
* `C130_behind_violated`: A position behind or to the right is nearer than any distance, however far it is; for an entity so it is along or across the lane.
* `C131_any_violated`: With the rule any, only the first of several triggering entities is left out: if each of the others is within its own range, as it is at a distance of zero, then the condition is not met although there is nobody else.
* `C131_overlap_violated`: Two cars in one lane whose bodies overlap: with free space and only the space ahead of interest, the one behind reports clearance.
* `C132_ahead_violated`: If the reference entity is behind, it is the other way round: when it catches up, the time to collision is infinite, and when it falls behind, it is finite.
* `C132_apart_violated`: Entities that move apart, or do not approach, have an infinite time to collision, so the rule `greaterThan` is met for every value.
* `C132_euclidean_violated`: The Euclidean time to collision with a position is the distance divided by the speed, whichever way the entity moves.
* `C132_standing_violated`: Along the lane, without a routing algorithm, something behind is about to collide with an entity that stands: the time is minus infinity, and less than every value.
* `C133_light_violated`: A traffic light with two stop lines that the spline crosses: the first in the map counts, although the other is nearer.
* `C133_yield_violated`: Lanelet 2 and lanelet 7 have priority over each other, so nobody gives way there; the entity has to give way to lanelet 8 at lanelet 3. It stops at lanelet 2.
* `C134_overlap_violated`: An entity ahead in the same lane is not seen as soon as its body overlaps that of the entity: nobody is in front then.
* `C134_threshold_violated`: The entity in front is chosen with half of the own width, but its distance is measured with the lateral collision threshold of the entity. With a smaller threshold, an entity that is beside the way hides the one that is on it.
* `C134_tie_violated`: Of two entities equally far away only the first in the hash table is looked at. Here it is one in the next lane, and the one ahead in the same lane is not seen.
* `C135_turn_violated`: The point is half a metre from the way, but the search, which starts with the nearer end, finds at least a metre and a half.
* `C136_space_violated`: **C136** A space behind the opening parenthesis, or a space before a comma, makes a text something else than a call.
* `C137_arguments_violated`: **C137** Two spaces, a line break before the first argument or quotation marks give arguments nobody wrote.
* `C137_failed_violated`: **C137** A command that ends with an error has done part of its work: the rate is set although the signal is not, and the signals before the wrong one are switched.
* `C137_fault_arguments_violated`: **C137** The second version of faults without a name of a fault is undefined behaviour, unless its level is wrong.
* `C137_misspelled_violated`: **C137** A misspelled command, and a program that fails or does not exist, go unnoticed: whatever is not known is run as a program, and the action ends as if all were well.
* `C138_count_violated`: **C138** A relative heading with two parameters, or more than three, is no error: it is a value that is not a number, and differs from every number.
* `C138_empty_violated`: **C138** An empty text, and a type that is not known, make the condition false for every rule, also for `notEqualTo`.
* `C138_heading_violated`: **C138** A relative heading with a decimal point is an error: the text behind the point is taken for the name of a value.
* `C139_longitudinal_violated`: **C139, violated.** An ego that looks along the y axis and has an entity 15 m ahead: the place seen from the ego is within the first ellipse (20 m by 10 m) and its value is 3, but the value used is 4.
* `C139_ratio_violated`: **C139, violated.** A ratio that is missing is not an error: it is zero, and then there is no noise anywhere, even for entities next to the ego.
* `C140_dot_violated`: **C140, violated.** A dot in a pattern stands for any character.
* `C141_beyond_violated`: **C141, violated.** Beyond the last ellipse the noise of the last one is applied, at any distance; the documentation referred to says that there is none.
* `C141_radius_violated`: **C141, violated.** An entity 50 m away lies outside of the only ellipse, of 10 m, but gets its noise: the radius is squared twice.
* `C141_ratios_violated`: **C141, violated.** The ratios of the axes of the four distributions of distances are documented but not read: two sets of parameters that differ in them only give the same configuration.
* `C141_sizes_violated`: **C141, violated.** A list of values that is shorter than the list of radii is not an error: it is read beyond its end.
* `C141_tangential_violated`: **C141, violated.** The documentation has the tangential move in a random direction around the ray. A ray straight up, or down, gets no tangential noise at all, and a ray of elevation with cosine 0.6 gets 0.6 of it.
* `C142_spot_violated`: **C142, violated.** With version 2, the box of an entity with its centre one metre ahead of its reference point is moved by two metres when it is flipped.
* `C143_ahead_violated`: **C143, violated.** A LiDAR with a resolution of one radian does not look straight ahead.
* `C143_once_violated`: **C143, violated.** A resolution that divides the full circle looks twice in its first direction: with rays every 90 degrees there are five of them, and the last one repeats the first.
* `C143_phase_violated`: **C143, violated.** A sensor that works twice as often as the LiDAR, or half a period later, is told in between that nothing is seen: an entity that never moves is there in every second frame only.
* `C143_resolution_violated`: **C143, violated.** With a resolution that is not positive the simulator hangs when the sensor is attached.
* `C144_heading_violated`: **C144, violated.** What the sensor feels on a slope depends on the direction on the map: a vehicle of the same pitch that heads the other way gets the opposite.
* `C144_slope_violated`: **C144, violated.** Gravity is turned the wrong way, from the body to the map: on a slope the sensor feels it as if the slope were the opposite one, for a vehicle that heads along the x axis, whatever the pitch.
* `C145_memory_violated`: C145 does not hold of a vehicle that gave way in the frame before: in the first frame in which it need not, it is moved toward the speed it is to drive at, although someone crosses its way 3 m in front of it.
* `C146_loop_violated`: C146 does not hold on round courses: the lanelet 0 comes twice, which Autoware does not accept according to the comment in the code.
* `C146_off_lane_undefined_violated`: If the only pose is off the lanes, it is even undefined what happens.
* `C146_off_lane_violated`: C146 does not hold if a pose is off the lanes and lanelets are used: it is silently left out, and if it was the goal, the point before becomes the goal.
* `C146_replan_violated`: C146 does not hold of new routes with points on the way: they are written behind the end of an empty vector.
* `C146_unreachable_violated`: C146 does not hold if a point cannot be reached: it is silently left out, and the lanelets that are sent do not lead to the goal that is sent.
* `C147_time_violated`: C147 does not hold of the time: in the frame that finds the trajectory finished the time of the ego is not updated.
* `C148_again_violated`: C148 does not hold of requests that come back to a state: after a request was activated and deactivated again it cannot be activated any more, although it is valid.
* `C149_activate_violated`: C149 does not hold if a map is chosen while another thread uses the one before: it is destroyed under its hands.
* `C149_race_violated`: C149 does not hold without data races: center points are copied from the cache without its lock, and another thread that did not find them may assign them at the same time.
* `C149_stale_violated`: Whatever the other threads do, also if they use the new map.
* `C14_violated`: **C14 is violated** for a condition watching startTransition of a skip event: after the element entered startTransition and the condition was true, a later vetoed start makes it false again.
* `C150_add_relative_object_violated`: C150 fails for an entity that is added relative to another one: it is matched to the lanes with the heading of the world. Added in front of a vehicle with its heading, which is across lanelet 1, it is said to be on lanelet 1 with the heading of that lane, though no lane matches the heading that the scenario gives.
* `C150_add_relative_world_violated`: No entity can be added at a `RelativeWorldPosition`, though it can be teleported there.
* `C150_relative_object_violated`: The pose in the world of a `RelativeObjectPosition`, which conditions compare with, forgets the orientation.
* `C150_relative_world_violated`: A `RelativeWorldPosition` is along the axes of the world. It is taken along those of the reference: from a reference that is turned to the left, 10 m along the first axis of the world become 10 m along the second.
* `C150_world_violated`: C150 fails for an entity that is on a lane: put onto lanelet 2 by a pose in the world, it is said to be on lanelet 1, where it was, 96 m away, with the height and the heading of lanelet 1.
* `C151_guard_violated`: Once the scenario runs and the ego is driven by Autoware, its status may not be set: the ego refuses it. A teleport in the scenario sets it all the same.
* `C152_point_violated`: A border of one point makes the loading of the map fail.
* `C152_repeated_violated`: A border that begins with the same point twice gives a center line that begins with no point: its coordinates are NaN.
* `C153_direction_violated`: If there is no lane on that side, or the vehicle is not on a lane, it goes on as before, and nothing says so.
* `C153_pedestrian_violated`: A pedestrian may be asked to change lanes, and does not. Nothing says so.
* `C153_wrapped_violated`: The number of lanes counts modulo 256: a change by 256 lanes is one to the lane of the entity itself.
* `C154_offset_violated`: Without a constraint the curve leads to the middle of the lane, although an offset is asked for and a curve to it exists.
* `C155_nearby_violated`: With the default of five lanelets to look at, a road that is near enough is not found: five crosswalks are nearer, and they are not to be found either.
* `C155_subtype_violated`: A lanelet without a subtype is not found when crosswalks are not to be found.
* `C155_yaw_violated`: If the nearest center point is the last one, the direction cannot be told: `std::out_of_range` is thrown.
* `C156_together_violated`: The ids and the points of the stop lines do not go together: an element without a stop line has points, none, but no id.
* `C157_clock_violated`: It may say that something is wrong, and that every thread is well.
* `C157_ended_violated`: A thread that has ended, but not with the destructor of a monitor, is soon said to be unresponsive, for ever.
* `C157_restored_violated`: Two threads that override it at the same time may leave the threshold of one of them behind.
* `C158_deadlock_violated`: The state can be reached, with any number of monitors: the process never ends.
* `C159_environment_violated`: With an action that changes the environment they are never complete, and so the storyboard is not.
* `C159_ignored_violated`: Children with other names are ignored.
* `C159_order_violated`: A document in another order is not refused, and its order is not kept.
* `C160_area_violated`: **C160 is violated** for the shape of the area: whatever the pedestrian, the second and the fourth side of the ring cross each other in the middle of the strip in front.
* `C160_narrow_violated`: **C160 is violated** for something narrow: a post straight ahead, all of it in the strip in front of the pedestrian, is not seen, and the pedestrian walks on, however rings that cross themselves are treated by Boost, as long as it finds no intersection where there is no common point.
* `C160_same_place_violated`: **C160 is violated** for an entity at the same place: whether it counts as in front depends on the direction in which the pedestrian looks on the map.
* `C161_jump_violated`: **C161 is violated** where lanelets overlap: the lanelet that is found at the new place need not begin where the old one ends, and the pedestrian, who walks forward at 1 m/s, is put back by 4.8 m in a frame of 0.2 s.
* `C162_ahead_violated`: **C162 is violated** for pedestrians who walk to the south: an ego on the lane, three metres straight ahead, is not seen.
* `C162_behind_violated`: **C162 is violated** the other way round too: the pedestrian stops for an ego three metres behind.
* `C164_behind_violated`: The goal of a test may be behind its start, where no way leads to.
* `C164_ego_violated`: A vehicle can be put where the ego starts, although it is to be at least ten metres away.
* `C165_ring_violated`: A place at least ten metres away may be the place itself, after one round.
* `C165_short_violated`: On a lane besides, places are found that are not on it: a short lanelet is searched as if it were as long as that of the pose.
* `C166_fixed_violated`: With a seed of one's own, all tests of a run are the same test.
* `C166_none_violated`: Without tests the runner does not end at once: it goes on with a test that does not exist, unless its parameters are refused.
* `C166_one_violated`: If one of the tests cannot be made, there are no tests at all.
* `C167_refused_violated`: A test whose simulator refuses to go on does not end either: the executor does not look at that.
* `C167_silent_violated`: If the ego of the first test cannot be put on the map, the test is over without an error.
* `C167_waits_violated`: A test whose ego is never engaged does not end, whatever its timeout is.
* `C168_backwards_violated`: An ego that drives backwards is reported as standing still.
* `C168_before_violated`: A collision is not reported if the vehicle has touched the ego before it was engaged, even seconds after that.
* `C168_never_violated`: If the ego is not engaged yet in the first frame, and never moves, then its standstill is not reported, however long the test takes.
* `C169_parallel_violated`: **C169** With two lines that are nearly parallel, the velocity chosen can break one of them although both allow standing still.
* `C169_thrown_violated`: **C169** A wish that is not zero, but shorter than the rounding unit of a `double`, ends in an exception if the limit is zero.
* `C16_violated`: **C16 is false of the code if the reference begins again before the delay has passed**: every begin replaces the pending one. The reference began at 0 s, the delay is 5 s, the follower has been evaluated every half second up to 10 s and is still in no phase.
* `C171_across_violated`: **C171 is violated** for boxes across each other: the ellipses reach only as far as half of the corner of the boxes would need, so two boxes that overlap count as apart, and the lines allow both to stand so forever.
* `C171_end_not_avoided`: **C171 does not hold** at the near end: whenever the relative velocity is nearest to it, the lines of both entities allow the velocities that they have, whether these lead to a collision or not.
* `C171_end_violated`: **C171 is violated** at the near end: 10 m apart, one stands and the other moves towards it with 1.5 m/s. The lines allow both to go on, and after 5 s they overlap.
* `C171_same_violated`: **C171 is violated** for two entities at one place with one velocity: there is no line at all.
* `C172_unlimited_violated`: **C172 is violated** on a trajectory without times, where the speed planned is not a number: whatever the speed asked for, the pedestrian moves as if to be at the goal in one second.
* `C173_back_violated`: **C173 is violated** on a route that comes back within three metres of itself: near its end the pedestrian is sent back to its beginning.
* `C173_lost_violated`: **C173 is violated** for a pedestrian who is not near any point of its route, and whose tree of actions is not running, as at the start: the frame never ends, the action is ticked again and again.
* `C173_other_violated`: **C173 is violated** for a request that no action knows, as to walk straight on: the frame never ends.
* `C174_endless_violated`: **C174 is violated** on a closed trajectory all of whose points are reached at once: the search for the next never ends.
* `C174_last_violated`: **C174 is violated** for the last vertex: with it in front the pedestrian always goes at its highest speed, however much time is left.
* `C174_replace_violated`: **C174 is violated** for a new trajectory on the way along another: the pedestrian goes on along the old one.
* `C174_untimed_violated`: **C174 is violated** without times: the speed is not a number.
* `C175_past_violated`: C175 (violated): values go past `stop` when it is great. From ten thousand million to itself by ones there are further values after it.
* `C176_none_violated`: C176 (violated): A modifier without values is not an error: nothing is converted, and the list of paths is empty, as if there were nothing to test.
* `C177_again_violated`: C177 (violated): A value in which the name of another modifier occurs is changed in turn. The value of `_from` is `_to`, that of `_to` is `2`, and the scenario derived has `2` for both.
* `C177_within_violated`: C177 (violated): A name is replaced within a longer word also.
* `C178_silent_violated`: C178 (violated): The status says success although the scenario is not valid and there is no file.
* `C179_number_violated`: C179 (violated): A number that is the content of an element is lost: whatever it is, the element is read as an empty one.
* `C181_invalid_violated`: C181 (violated): A catalog written in YAML that is not valid under the schema is passed over: the converter ends with status zero, the file it should have written is not there, and reading it is not checked.
* `C181_locations_violated`: C181 (violated): A catalog of the name in two locations: the one used depends on the order of the hash table, not on what the reference is for.
* `C181_order_violated`: C181 (violated): If two files of a directory have catalogs of one name, the one used depends on the order the file system lists them in, and nothing is said.
* `C182_assigned_violated`: C182 (violated): so a value that is assigned is not the value used.
* `C182_ignored_violated`: C182 (violated): The assignments of a reference have no effect: whatever they are, the same is made.
* `C183_silent_violated`: C183 (violated): A reference for a controller that names a vehicle is accepted, and the entity has no controller.
* `C184_twice_violated`: **C184, not so.** Two entities of one name are both read without complaint, and the name stands for the first: the second can not be referred to, not even as one of a type.
* `C186_nothing_violated`: **C186, not so.** A selection without objects collides with everything, itself no less: the condition "does any of these collide with the car" is true in a scenario where nothing overlaps anything.
* `C186_selection_violated`: **C186, not so.** A condition that asks for a collision with a selection is read, and then throws as soon as all objects of the selection are added, for any first triggering entity that has an object.
* `C187_empty_violated`: **C187, not so.** Every enumeration accepts the empty text, as a value that nobody wrote: a condition without a rule asks for equality, an event without a priority is skipped.
* `C187_refused_violated`: **C187, not so.** The value may even be one that is refused when it is written out.
* `C189_off_lane_violated`: **C189.** A route given to an entity that is on no lane is lost, without an error; a goal makes it follow the route it had.
* `C189_pedestrian_goals_violated`: **C189.** A pedestrian who is given a trajectory keeps the goals it had: they are not those of the trajectory.
* `C189_refused_violated`: **C189.** A goal that cannot be reached does change what the entity does: a vehicle in the middle of a lane change gives it up, although the call throws.
* `C189_silent_violated`: **C189.** A lane change asked of a pedestrian, or to a side where there is no lane, is ignored without an error.
* `C18_short_phases_not_predicted`: The same accumulation rounds every partial sum down to whole seconds: for phases of half a second the computed cycle time is zero and there are never any predictions.
* `C18_violated`: **C18 is false of the code for a controller with an unbounded phase that is not the current or the next one**: the cycle time is accumulated in an `int`, and converting infinity to `int` is undefined.
* `C190_ego_violated`: **C190.** The ego accepts a negative speed limit.
* `C190_misc_violated`: **C190.** A limit set for a misc object is lost, without an error.
* `C191_backwards_violated`: **C191.** A slow entity that is too early is asked to go backwards.
* `C191_final_speed_violated`: **C191.** When the job is over the target speed is the last one it asked for, not the final speed of the request.
* `C191_standing_violated`: **C191.** If the other one stands still, the entity, however fast and however near, is asked to go faster and faster: after `n` frames in each of which it did what it was asked, it is at `n` times what it can gain in a frame, whatever final speed was asked for.
* `C192_end_violated`: **C192.** At the end of the lanes the entity stops and nothing is looked at: neither that it was out of range before it was stopped, nor that it now is, at speed zero, below the least speed.
* `C193_same_name_violated`: **C193.** Two scenarios whose directories and files are called the same are one case: if one passes and the other one does not, the file does not say which.
* `C194_zero_violated`: **C194.** The storyboard is never evaluated at time zero.
* `C195_stale_violated`: **C195.** The statistics are not cleared before the next scenario is activated: the file of one that could not be configured has the times of the scenario before it.
* `C196_drift_violated`: **C196.** At 30 frames a second, which is the default, the simulated time runs away from the real time even on a machine that is fast enough: for any time there is a number of frames after which it is ahead by more.
* `C196_fast_violated`: **C196.** Above a thousand frames a second there is no time between two frames.
* `C197_handed_violated`: **C197, not so.** A file the program does read as a distribution is handed out as if it were a scenario: no parameter gets a value, and the interpreter refuses it.
* `C197_load_violated`: **C197, not so.** So the preprocessor does not load it, although it is valid.
* `C197_rejected_violated`: **C197, not so.** No file of the schema is read, whatever distributions it has: it is an error.
* `C198_bins_violated`: **C198, not so.** And if they were found: the limits have the lower one of the first bin twice, so the first interval is empty, every weight belongs to the bin before it, and a weight after the last is read.
* `C198_histogram_violated`: **C198, not so.** Nor can a histogram: the ranges of its bins are not found.
* `C198_logNormal_violated`: **C198, not so.** A logarithmic normal distribution is an error, although the schema has it.
* `C198_range_violated`: **C198, not so.** The range written for a normal or a Poisson distribution is not kept: whatever the range is, numbers outside of it may be drawn.
* `C198_uniform_violated`: **C198, not so.** A uniform distribution cannot be drawn from: the range written is not found, and the one that stands in for it goes from plus to minus infinity.
* `C198_variance_violated`: **C198, not so.** A normal distribution gets the variance written as its standard deviation: the variance drawn with is right only if it is one.
* `C199_others_violated`: **C199, not so.** All parameters but the first are passed over without a word.
* `C199_seed_violated`: **C199, not so.** Seeds that differ after the point, or by 2^32, start it alike; with a seed of minus one or less what happens is not defined.
* `C200_found_violated`: **C200, not so.** In a `Deterministic` element of the schema no distribution is found, whatever is written; there is no error.
* `C200_step_violated`: **C200, not so.** The width of the steps is not read: ranges that differ in it are read alike.
* `C201_negative_violated`: **C201, not so.** A negative number is read as an unsigned one, without an error: minus one is the greatest of the type.
* `C202_figures_violated`: **C202, not so.** The schema has also `1` and `0` as truth values; they are errors.
* `C202_rest_violated`: **C202, not so.** A parameter has a truth value also if more than the word is written: white space before it and anything after it.
* `C203_date_violated`: **C203, not so.** A date is accepted whatever it says.
* `C203_names_violated`: **C203, not so.** Names with symbols that the standard does not allow are accepted, whatever they are.
* `C204_ambiguous_violated`: **C204, not so.** In general: with more than one, whatever they say, the goal may not be modified.
* `C204_silent_violated`: **C204, not so.** A parameter of that name that is a text, even `true`, is passed over in silence, and so are two that are truth values: the default is taken.
* `C205_closed_violated`: **C205, not so.** A closed route is the same as an open one, and it is the same whatever its strategies say: the requests made do not depend on it.
* `C206_offLane_violated`: **C206, not so.** An entity that is not on a lane passes over a route in silence; if it is sent to a place it follows lanes to it, with the waypoints that it had.
* `C206_order_violated`: **C206, not so.** A place that is not on a lane is an error, and yet the order has been replaced.
* `C207_tilted_violated`: **C207** fails for entities that are tilted: a long box that points steeply down has a point in the box of another entity that stands upright on the ground far below, but the two do not collide, whatever is said about their outlines.
* `C208_range_violated`: **C208** fails for a range: the part from 0 to 2 reports the crossing at 1/4, although places from 1/2 to 3/4 are asked for.
* `C209_between_violated`: **C209** fails for a part that holds no point of the spline, at an altitude below 0: an entity that is on the part itself is not looked for.
* `C209_slope_violated`: **C209** fails on a slope: an entity on the part itself, beyond the only point that the part holds, is not looked for.
* `C209_two_violated`: **C209** fails for splines of two points: the question for the altitudes of a part of it is an error, wherever the part is.
* `C210_altitude_violated`: **C210** fails for bridges: an entity a hundred metres above a trajectory on the ground is reported as the entity in front.
* `C210_side_violated`: **C210** fails for entities side by side: which of two entities is reported depends on the order in which they are kept.
* `C211_bare_violated`: C211 does not hold as stated: a map in the current directory, named without a directory, is refused, for want of a path, whatever there is.
* `C211_first_violated`: C211 does not hold as stated: of `a.osm` and `b.osm` the second one is taken.
* `C213_roll_violated`: C213 does not hold as stated: an error of the roll of a vehicle that heads along the second axis of the map does not turn it about its own first axis; by `C213_roll` it is an error of its pitch.
* `C214_multiplicative_violated`: C214 does not hold as stated: multiplicative errors have no effect, on the angles and on everything else.
* `C215_range_violated`: C215 does not hold as stated: no seed is refused; one that is out of range is taken modulo 2^32.
* `C216_gravity_violated`: C216 does not hold as stated: gravity, in the axes of the vehicle, is the vertical vector turned back by the orientation, and that turned by the orientation is what is added. For a vehicle at rest whose front points straight down the acceleration has the wrong sign, -9.81 m/s² instead of +9.81 m/s² along its first axis.
* `C216_heading_violated`: C216: what is reported of gravity depends on the heading: for a vehicle that is pitched, it moves with the yaw of the vehicle, which an acceleration in the axes of the vehicle would not.
* `C219_pitch_violated`: **C219** Without the pitch of the road the orientation is not kept on a slope: a level pose on a rising lane comes back with its front turned down.
* `C219_skew_violated`: **C219** The position is not kept by an entity turned against its lane: five metres along a lane of ten metres, a metre to its left, turned to the left by 37 degrees, it comes back with another position.
* `C21_violated`: **C21, second half, is false of the code**: a malformed text does not leave the light unchanged; here a light showing red is left showing green although the call failed.
* `C220_outline_violated`: **C220** The front right corner is not in the outline that is matched, for every box with a length and a width: the outline is a diagonal.
* `C222_reverse_violated`: **C222** An entity that faces backwards on a lane that rises has its front turned down at first, but the map pose turns it up: for every such lane.
* `C223_auto_violated`: C223 is false for braking with the automatic transition: asked, at a steady speed, for a lower speed in a given time that the limits allow, the entity gets a negative limit, with which the next frame is undefined.
* `C223_superseded_violated`: C223 is false while another request is under way: a car with 1 m/s, on its way to 10 m/s, is asked to have 21 m/s in ten seconds. One second later it should have 3 m/s and has 6 m/s: the end of the earlier request has taken the new limit away.
* `C224_rate_violated`: C224 is false for slowing down when the acceleration is given without a sign, as the rate of a scenario is: in the first frame the entity does not slow down at all.
* `C225_no_constraint_violated`: C225 is false without a constraint: a step leaves the speed as it is.
* `C226_disappears_violated`: C226 is false when the reference entity disappears: a request with an acceleration then makes the next frame fail, and with it the whole simulation.
* `C226_first_frame_violated`: C226 is false in the first frame: the limit is only set at its end. The car above speeds up by 3 m/s² where 2 m/s² have been asked for.
* `C227_set_before_violated`: C227 is false for limits that were set before: they are lost with the first change of speed.
* `C227_superseded_violated`: C227 is false for a request made while another one is under way: its limit is taken away by the end of the other one, and the default one is in force from the start.
* `C228_first_frame_violated`: C228 is false before the first frame: no planner has been made yet and every request calls a function of it.
* `C228_time_violated`: C228 is false with a time: the request of a scenario for 10 m/s in two seconds is continuous. The car has 10 m/s after two frames of one second and then goes on to speed up.
* `C229_hangs_violated`: C229 is false for an Autoware that does not end when it is asked to: it is in the group of the simulator, so that there is no group with its number, and the removal of the ego waits for ever, whatever the time limit.
* `C229_interrupted_violated`: C229 is false if the wait for Autoware is interrupted by a signal: the ego is removed, and its Autoware runs on.
* `C229_left_violated`: C229 is false for the processes Autoware's launch has started, if the launch itself ends before the ego is removed: the ego is removed, and nothing is told to end.
* `C229_stale_violated`: C229 is false in a later scenario even for an Autoware that leads a group of its own: the end of the recorder of the first scenario is taken for the end of Autoware, so that it is not killed, and the removal of the ego waits for ever.
* `C22_violated`: **C22 is false of the code for regulatory element ids**: the feature is enabled for regulatory element 10 and a state is set for it, the conventional lights of the element show it, the V2I lights show nothing.
* `C230_broadcast_violated`: C230 is false if the recorder cannot be started: minus one, which tells so, is then used as the number of a process, and the signal goes to every process there is.
* `C232_shutdown_violated`: C232 is false when the simulator is shut down: the recorder is neither told to end nor waited for.
* `C233_interrupted_violated`: C233 is false if the wait is interrupted by a signal: the simulation goes on while the command runs.
* `C235_gone_violated`: C235 does not hold of blank markers: an entity reaches its goals one after the other and is removed; a marker of it stays for ever.
* `C236_next_goal_violated`: C236 does not hold of an entity that has had more goals: when the first of three goals has been reached the next one is not shown.
* `C239_list_violated`: **C239 is false of the code** for texts of several bulbs: a light may be set to one, but the condition with the same text is an error.
* `C239_none_violated`: **C239 is false of the code** for the text "none": a light that has been set to "none" shows a bulb (green and off), so the condition that it is "none" does not hold.
* `C240_look_violated`: **C240 is false of the code** in that questions change what is published: a light of which nothing was in the message is in it, without bulbs, once a condition has asked about it.
* `C241_ids_violated`: **C241 is false of the code** for lights whose ids agree below 2^30: of two such lights only one is shown.
* `C241_kinds_violated`: **C241 is false of the code** when both kinds of lights are published: a red conventional light, shown as such, is gone from the screen as soon as the V2I lights (here none) are updated.
* `C243_follows_violated`: C243 does not hold for the frame of the Ego: it does not follow the Ego.
* `C243_late_violated`: C243 does not hold for an Ego that is added after other entities: its frame was never where any Ego has been.
* `C246_time_violated`: C246 does not hold for lane changes in a given time: the seconds are taken for metres. The curve ends on a road that goes on for it, but the place ahead is sought beyond the end of the road, which is an error.
* `C248_foreign_violated`: C248 does not hold for every text: "z" names no release, and the sensors are refused; the lights of infrastructure and their detector are there nevertheless.
* `C248_older_violated`: C248 does not hold for every release: for one of before 6 September 2023 the lights of infrastructure are published and there are sensors, but a detector of traffic lights is refused.
* `C24_sqrt_not_real`: C24 is violated: `sqrt` yields an integer whatever its argument is: `sqrt(2.0)` is 1.
* `C24_unsigned_wraps_violated`: C24 is violated: an `unsigned` parameter makes a negative difference wrap around: `$n - 2` with `n = 1` is 4294967295.
* `C24_violated`: C24 is violated: ill-typed operands of `/` give a value, `true / 2`.
* `C254_second_violated`: C254 is violated: for any first map and any second one to be shown differently, the controller of the second shows the ends of the road of the first.
* `C25_after_close_violated`: C25 fails once the connection is closed: the spawn request throws, but the entity exists.
* `C28_ignored_violated`: C28 is violated: a request for the current speed is ignored even if another request is active: the entity goes on to the speed requested before.
* `C28_violated`: C28 is violated: a request made while an earlier one is active leaves no target speed at all: the clean-up of the earlier request runs after the target speed has been set.
* `C29_violated`: C29 is violated: an entity that has come to rest at the end of the lanelets stands still for ever, but its stand-still duration does not grow.
* `C31_negative_rate_violated`: Without that, for a negative rate: entity `k` is due at `-k` seconds, execution never ends.
* `C33_beyond_limit_violated`: C33 is false for the acceleration when the entity is faster than its limit: it is slowed to the limit at once, here with 100 m/s² where 10 m/s² is the limit.
* `C33_jerk_violated`: C33 is false for the jerk when the present acceleration points away from the target: braking at 5 m/s² ends within one step, a jerk of 50 m/s³ where 3 m/s³ is the limit.
* `C42_first_frame_violated`: C42 is false for the models 3 and 4: an entity in range and without any noise is not in the first message although it is in the recorded frame; it appears from the second on.
* `C43_timeout_violated`: C43 is false for the time limit: a scenario that runs into it leaves no verdict, neither in the records nor in the file.
* `C44_distribution_violated`: Loading a parameter value distribution succeeds and yields no scenario.
* `C44_violated`: C44 is false if a load fails: the scenario loaded before it is never handed out.
* `C46_large_integer_violated`: C46 is not true where the conversion of the integer to a double is not exact: adding zero to 2^53 + 1 changes it.
* `C46_measured_violated`: C46 is false for measurements: two values closer than epsilon are at once less, equal and not equal; and of two equal infinities neither "equal" nor "not equal" holds.
* `C46_unsigned_violated`: C46 is false for unsigned parameters: the operand is truncated before the operation, so that half of ten is zero, one and a half times ten is ten, and subtracting one is undefined.
* `C47_violated`: C47 is violated: a reference qualified with a name that no scope has finds the global `x`, and so does `event::x`, although scope "event" does not declare `x`; and from the outermost scope the first qualifier is dropped even if there is such a scope.
* `C48_standalone_violated`: C48 in standalone mode: nothing is mirrored, but `updateFrame` still asks the environment simulator for the states of all entities: with an entity in the registry a frame never returns.
* `C49_violated`: C49 is violated: resetting the behaviour plugin of a vehicle or pedestrian always has undefined behaviour: the state of the entity is read after the entity has been destroyed.
* `C50_violated`: C50 is violated: a pose is accepted although a corner is outside the circle around the centre of the source: on a line, centre 0, radius 10, an entity of length 4 at 9.
* `C51_engage_violated`: C51 is violated: if Autoware falls back to planning after the engage request, the task ends without an error although Autoware is not driving.
* `C51_plan_violated`: C51 is violated: a route sent after arrival does not wait until Autoware is waiting for a route, since the wait from `arrived_goal` to the smaller `waiting_for_route` never waits.
* `C52_violated`: C52 is false: the ego vehicle is at the height 10 when the plane is made; without turning it then is at the height 20, and the entity at the height 12, eight metres below it and below its plane, is detected.
* `C53_violated`: C53 is false: whatever is configured, the coefficient used does not depend on the configured amplitude, decay and offset (two configurations that agree on all other keys give the same coefficient).
* `C53_zero_violated`: With nothing but the documented keys set, the coefficient is zero.
* `C55_invalid_violated`: C55 is false: with a scenario that is not valid beside one that succeeds, the checker reports success.
* `C55_stale_violated`: C55 is false: if the directory holds the result of an earlier, successful run, the checker reports success although the only scenario of this run ran into the time limit.
* `C55_timeout_violated`: C55 is false: with a scenario that runs into the time limit beside one that succeeds, the checker reports success.
* `C57_distance_violated`: C57 is false: for an entity that stops within one frame the computed stopping distance is negative, although it moves forward.
* `C57_no_braking_violated`: C57 is false for an entity which cannot brake: the computation never ends.
* `C58_violated`: C58 is false for braking, where the estimate is negative, here for braking from 10 m/s to a stop; and for short accelerations, where the speed limit is used in place of the target: gaining 1 m/s with a jerk of 2 m/s³ takes one second, the estimate is 2.6.
* `C59_braking_violated`: C59 is false for braking: planned from a steady speed, the limit on deceleration is negative for every target, duration and constraint. The planner is then undefined.
* `C60_route_violated`: C60 is false for a route that uses two successors of the same lanelet: a pose one metre beyond the fork is moved to nine metres before the beginning of the second branch.
* `C63_violated`: C63 is false at the end of a road: of the two alternatives of a pose beyond a fork, the one on the branch which ends lies five metres beyond its end.
* `C64_ahead_violated`: C64 is false: where no route to it is known, a waypoint in the lanelet of the entity is dropped before it is reached.
* `C64_second_violated`: C64 is false: of two waypoints in the same lanelet the second is dropped together with the first, although it lies ahead.
* `C65_new_waypoints_violated`: C65 is false after new waypoints have been assigned: while the entity is on the old route, that one is followed. Here the old destination is lanelet 2 and the new one lanelet 3.
* `C65_second_waypoint_violated`: C65 is false after a waypoint has been passed: the route still ends in the lanelet of the waypoint passed, and does not lead to the next one, whatever routes there are.
* `C66_violated`: C66 is false otherwise: once a vehicle has planned a route, the routes of pedestrians are planned on the graph for vehicles.
* `C67_violated`: C67 is false otherwise: an alternative that cannot be reached, for which the route is empty, is preferred to all that can.
* `C70_violated`: **C70 is false for several actors**: each actor has reached the target speed at some time, but the action does not end, since an actor is not looked at while one before it has not reached the target.
* `C72_lane_change_violated`: **C72 is false for a LaneChangeAction**: unless the objects are changing lanes already when it starts, it ends in the very frame in which it starts, whatever happens later, since the simulator has not yet begun the lane change.
* `C72_no_actors_violated`: **C72 is false without actors**: a FollowTrajectoryAction of a maneuver group without actors never ends.
* `C72_selection_violated`: **C72 is false for selections**: the action ends when one member has finished, here object 0, while object 1 goes on.
* `C73_violated`: **C73 is false for selections**: of the objects 0 and 1 at the positions 100 and 200, asked to go to 300, both follow a trajectory that begins at 200 and leads to 100 first.
* `C74_deleted_violated`: **C74 is false after a deletion**: an object that has been deleted cannot be added again, nor teleported: both are errors.
* `C74_mixed_violated`: **C74 is false for selections**: a TeleportAction of a selection of which one member is in the simulation and another one is not, is an error.
* `C75_deleted_violated`: **C75 is false for deleted objects**: evaluating a condition on the speed of an object that has been added and deleted is an error.
* `C75_error_violated`: **C75 is false for acceleration and stand still**: evaluating the condition for an object that is not in the simulation is an error.
* `C75_notEqualTo_violated`: **C75 is false for `notEqualTo`**: such a condition is met by an object that has never been in the simulation.
* `C76_violated`: **C76 is false for reversing entities**: 10 m behind the reference entity and moving away from it at 1 m/s the time headway is less than 3 s.
* `C95_overshoot_violated`: C95 is violated by DELAY_STEER_VEL when the step is longer than the time constant: with a limit of 0.1 m/s, a time constant of 0.03 s and steps of 0.1 s, the first command of 0.1 m/s is answered by a velocity of 1/6 m/s.
* `C95_park_violated`: C95 is violated by gears: an ego at 20 m/s that is put into PARK stands still after one step of 0.1 s, although the limit on the acceleration is 7 m/s², and reports an acceleration of -200 m/s².
* `C96_windup_violated`: C96 is violated when `debug_acc_scaling_factor` is greater than one: with an acceleration limit of 1 m/s², a factor of 2 and a constant command of 1 m/s², the acceleration that is reported grows beyond every bound.
* `C99_descending_violated`: C99 is violated by the check of the file: `validateMap` is never called, and a map by which more command gives less acceleration is accepted.
* `C99_one_column_violated`: C99 is violated by the check of the file: a table with one velocity is accepted, and then every step of the ego throws.
